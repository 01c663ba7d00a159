import Verif.Lemmas.CDiv
import Verif.Props.SamplerLaw
/-!
# The sampler of key generation in the variants of IEEE arithmetic
-/

namespace Falcon
open F64 Spec

theorem variant_exactInts (va : Variant) : ExactInts va.ops := by
  intro k h1 h2
  show va.toInt (ofRat (k : ℚ)) = k ∧ va.toInt (F64.floor (ofRat (k : ℚ))) = k
  rw [ofRat_int k (by omega) (by omega)]
  by_cases h0 : k = 0
  · subst h0
    exact ⟨va.toInt_zero _, va.toInt_zero _⟩
  · rw [if_neg h0]
    have e : F64.floor (.fin k) = .fin k := by
      unfold F64.floor
      simp only [Rat.floor_intCast, h0, if_false]
    rw [e]
    exact ⟨va.toInt_int k (by omega) (by omega), va.toInt_int k (by omega) (by omega)⟩

/-- What is converted to `int` in the rejection step. -/
def shiftArg (b z0 : Nat) : F64 :=
  goMin ieeeOps (ieeeOps.floor (ieeeOps.mul (sampleExponent ieeeOps (ieeeOps.ofInt 0) (ieeeOps.lit 1.43300980528773) b z0) (ILN2 ieeeOps))) (ieeeOps.lit 63)

theorem shiftArg_table : ∀ b < 2, ∀ z0 < 19, (shiftArg b z0).isFinite = true ∧ -(2 ^ 31) ≤ truncInt (shiftArg b z0).val ∧
    truncInt (shiftArg b z0).val < 2 ^ 31 ∧ truncInt (shiftArg b z0).val = keyShift b z0 := by decide +kernel

/-- The sampler of key generation takes the decisions of `C60_key` in every variant. -/
theorem key_variant (va : Variant) : KeyArith va.ops where
  ints := variant_exactInts va
  shift b hb z0 hz := by
    obtain ⟨h1, h2, h3, h4⟩ := shiftArg_table b hb z0 hz
    have z : va.ops.toInt (va.ops.floor (va.ops.ofInt 0)) = ieeeOps.toInt (ieeeOps.floor (ieeeOps.ofInt 0)) :=
      ((variant_exactInts va) 0 (by norm_num) (by norm_num)).2.trans (ieee_exactInts 0 (by norm_num) (by norm_num)).2.symm
    have e : sampleExponent va.ops (va.ops.ofInt 0) (va.ops.lit 1.43300980528773) b z0 =
        sampleExponent ieeeOps (ieeeOps.ofInt 0) (ieeeOps.lit 1.43300980528773) b z0 := by
      unfold sampleExponent
      rw [z]
      rfl
    unfold berShift
    rw [e]
    show va.toInt (shiftArg b z0) = _
    rw [va.toInt_in _ h1 h2 h3, h4]
  lo := key_ieee.lo
  hi := key_ieee.hi

end Falcon
