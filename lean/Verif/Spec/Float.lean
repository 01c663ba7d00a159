import Verif.Model.Float
/-!
# Specification: the only facts about IEEE arithmetic used for the sampler
-/

namespace Falcon.Spec

/-- Small integers are exact: converting an integer of 32 bits to `float64`, possibly applying `math.Floor`, and
converting back gives the same integer. -/
def ExactInts (O : FloatOps) : Prop :=
  ∀ k : Int, -(2 ^ 31) ≤ k → k < 2 ^ 31 → O.toInt (O.ofInt k) = k ∧ O.toInt (O.floor (O.ofInt k)) = k

end Falcon.Spec
