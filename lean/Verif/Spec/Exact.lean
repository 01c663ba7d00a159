import Verif.Model.Float
import Mathlib.Analysis.SpecialFunctions.Pow.Complex
import Mathlib.Algebra.Order.Round
/-!
# Exact arithmetic

The instance of `FloatOps` in which `float64` is the real numbers, `complex128` the complex numbers, every operation is exact and the table
of roots holds the exact roots of unity. Theorems about this instance describe what the floating-point code would compute without
rounding.
-/

namespace Falcon

/-- The root of `x^(2^k)+1` at index `i` of the table for degree `2^k`: the entries `2i` and `2i+1` are the principal square root of entry
`i` of the previous table and its negation, starting from `-1`, the root of `x+1` (fft_constants.go:11-2109; the table of the repository
agrees with these numbers up to the printed precision). -/
noncomputable def rootC : Nat → Nat → ℂ
  | 0, _ => -1
  | k + 1, i => if i % 2 = 0 then (rootC k (i / 2)) ^ (2⁻¹ : ℂ) else -(rootC k (i / 2)) ^ (2⁻¹ : ℂ)

/-- Go's conversion of a real to an integer: truncation toward zero. -/
noncomputable def truncR (x : ℝ) : ℤ := if 0 ≤ x then ⌊x⌋ else ⌈x⌉

open Classical in
/-- Exact real and complex arithmetic. `math.Round` rounds halves away from zero. -/
noncomputable abbrev exactOps : FloatOps where
  F := ℝ
  C := ℂ
  lit q := (q : ℝ)
  ofInt k := (k : ℝ)
  add x y := x + y
  sub x y := x - y
  mul x y := x * y
  div x y := x / y
  neg x := -x
  pow2 x := x ^ 2
  sqrt x := Real.sqrt x
  floor x := (⌊x⌋ : ℝ)
  round x := if 0 ≤ x then (⌊x + 1 / 2⌋ : ℝ) else (⌈x - 1 / 2⌉ : ℝ)
  lt x y := decide (x < y)
  toInt x := truncR x
  toUInt64 x := UInt64.ofNat (truncR x).toNat
  toInt16 x := Int16.ofInt (truncR x)
  cplx x y := ⟨x, y⟩
  re z := z.re
  im z := z.im
  cadd x y := x + y
  csub x y := x - y
  cmul x y := x * y
  cdiv x y := x / y
  cneg x := -x
  conj x := (starRingEnd ℂ) x
  root n i := rootC (Nat.log2 n) i

end Falcon
