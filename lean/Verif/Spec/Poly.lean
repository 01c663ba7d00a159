import Mathlib.Algebra.Polynomial.Eval.Defs
import Mathlib.Data.ZMod.Basic
/-!
# Specification: coefficient lists as polynomials
-/

namespace Falcon.Spec

open Polynomial

/-- The polynomial with the given coefficient list, constant coefficient first. -/
noncomputable def poly {R : Type*} [CommRing R] : List R → R[X]
  | [] => 0
  | a :: f => C a + X * poly f

/-- The field Z_q with q = 12289. -/
abbrev Zq := ZMod 12289

/-- An `int16` as an element of Z_q. -/
def zq (x : Int16) : Zq := (x.toInt : Zq)

/-- The polynomial over Z_q with the given `int16` coefficients. -/
noncomputable def polyQ (f : List Int16) : Zq[X] := poly (f.map zq)

/-- All coefficients are in `[0, q)`. -/
def Reduced (f : List Int16) : Prop := ∀ x ∈ f, 0 ≤ x.toInt ∧ x.toInt < 12289

/-- `h` is the product of `f` and `g` in Z_q[x]/(x^n+1), as `n` coefficients in `[0,q)`. -/
def IsProduct (n : Nat) (f g h : List Int16) : Prop :=
  h.length = n ∧ Reduced h ∧ (X ^ n + 1 : Zq[X]) ∣ polyQ f * polyQ g - polyQ h

end Falcon.Spec
