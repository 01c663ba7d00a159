import Verif.Spec.Poly
import Mathlib.Algebra.Polynomial.Roots
import Mathlib.Data.Complex.Basic
/-!
# Specification: integer polynomials modulo `x^n+1` and the NTRU equation
-/

namespace Falcon.Spec
open Polynomial

/-- The polynomial with integer coefficients given by a list. -/
noncomputable abbrev polyZ (f : List Int) : ℤ[X] := poly f

/-- `p = q` in `Z[x]/(x^n+1)`. -/
def CongrZ (n : Nat) (p q : ℤ[X]) : Prop := (X ^ n + 1 : ℤ[X]) ∣ p - q

/-- The left-hand side `f*G - g*F` of the NTRU equation. -/
noncomputable def ntruDet (f g F G : List Int) : ℤ[X] := polyZ f * polyZ G - polyZ g * polyZ F

/-- The field norm of `f` from `Q[x]/(x^n+1)` to `Q` is `N`: the product of the values of `f` at the complex roots of `x^n+1`
(up to sign, the resultant of `f` and `x^n+1`). -/
def IsNorm (n : Nat) (f : ℤ[X]) (N : ℤ) : Prop :=
  (N : ℂ) = ((X ^ n + 1 : ℂ[X]).roots.map fun w => f.eval₂ (Int.castRingHom ℂ) w).prod

end Falcon.Spec
