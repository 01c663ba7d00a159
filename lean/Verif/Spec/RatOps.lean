import Verif.Spec.Float
import Mathlib.Data.Rat.Floor
/-!
# A concrete floating-point instance for examples

Exact rational arithmetic (with a square root that is only the identity, and roots of unity replaced by 1): not IEEE arithmetic, but a
computable instance on which the hypotheses of the theorems can be checked and the model can be run.
-/

namespace Falcon

/-- Rational arithmetic as a `FloatOps`. -/
def ratOps : FloatOps where
  F := ℚ
  C := ℚ × ℚ
  lit q := q
  ofInt k := k
  add := (· + ·)
  sub := (· - ·)
  mul := (· * ·)
  div := (· / ·)
  neg x := -x
  pow2 x := x * x
  sqrt x := x
  floor x := (x.floor : ℚ)
  round x := if 0 ≤ x then ((x + 1 / 2).floor : ℚ) else -((-x + 1 / 2).floor : ℚ)
  lt a b := decide (a < b)
  toInt x := if 0 ≤ x then x.floor else -(-x).floor
  toUInt64 x := UInt64.ofNat x.floor.toNat
  toInt16 x := Int16.ofInt (if 0 ≤ x then x.floor else -(-x).floor)
  cplx a b := (a, b)
  re := Prod.fst
  im := Prod.snd
  cadd x y := (x.1 + y.1, x.2 + y.2)
  csub x y := (x.1 - y.1, x.2 - y.2)
  cmul x y := (x.1 * y.1 - x.2 * y.2, x.1 * y.2 + x.2 * y.1)
  cdiv x y := ((x.1 * y.1 + x.2 * y.2) / (y.1 * y.1 + y.2 * y.2), (x.2 * y.1 - x.1 * y.2) / (y.1 * y.1 + y.2 * y.2))
  cneg x := (-x.1, -x.2)
  conj x := (x.1, -x.2)
  root _ _ := (1, 0)

theorem ratOps_exactInts : Spec.ExactInts ratOps := by
  intro k _ _
  have h : ∀ k : ℤ, ratOps.toInt (k : ℚ) = k := by
    intro k
    show (if (0 : ℚ) ≤ (k : ℚ) then (k : ℚ).floor else -(-(k : ℚ)).floor) = k
    have e : (-(k : ℚ)) = ((-k : ℤ) : ℚ) := by push_cast; rfl
    rw [e]
    simp only [Rat.floor_intCast]
    split <;> omega
  refine ⟨h k, ?_⟩
  show ratOps.toInt (((k : ℚ).floor : ℤ) : ℚ) = k
  rw [Rat.floor_intCast]
  exact h k

end Falcon
