import Verif.Props.Degree2
import Verif.Props.HaltAll
/-!
# Degree 4

The pair below passes both tests of `NtruGen`. Its relative norms `124 + 11 i` and `45 - 84 i` have squared norm `2 q` together; the quotient that
the inner `reduce` rounds has a coefficient halfway between two integers, and `NtruSolve` does not return. Neither polynomial is a unit. With
`C70_degree2_keygen` and `C70_violated_keygen_all` this determines the degrees at which key generation can loop.
-/

namespace Falcon
open Spec Polynomial F64

def fourF : List Int16 := [-55, -82, -61, -5]

def fourG : List Int16 := [-25, 40, -30, 4]

theorem four_norm : ∃ v, GsNorm ieeeOps (Int16ToFloat64 ieeeOps fourF) (Int16ToFloat64 ieeeOps fourG) (ieeeOps.ofInt Q) = .ok v ∧
    ieeeOps.lt (ieeeOps.mul (ieeeOps.pow2 (ieeeOps.lit 1.17)) (ieeeOps.ofInt Q)) v = false := by
  refine ⟨.fin 16636, ?_, by decide +kernel⟩
  rw [GsNorm_eq_D ieeeOps 1]
  decide +kernel

theorem four_ntt : (do
    let t ← NTT wrap64 fourF
    pure (anyZeroes t)) = .ok false := by decide +kernel

theorem four_inner (fuel : Nat) : NtruSolve ieeeOps fuel [124, 11] [45, -84] = .diverge := by
  rcases fuel with _ | fuel
  · rfl
  rw [NtruSolve, if_neg (by decide), show fieldNorm [124, 11] = .ok [15497] by decide +kernel, Go.ok_bind,
    show fieldNorm [45, -84] = .ok [9081] by decide +kernel, Go.ok_bind]
  rcases fuel with _ | fuel
  · rfl
  have e : NtruSolve ieeeOps (fuel + 1) [15497] [9081] = .ok (some ([81893896], [47988545])) := by
    rw [NtruSolve, if_pos (by rfl)]
    decide +kernel
  rw [e, Go.ok_bind]
  simp only [show karamul (lift [81893896]) (galoisConjugate [45, -84]) = .ok [3685225320, 6879087264] by decide +kernel,
    show karamul (lift [47988545]) (galoisConjugate [124, 11]) = .ok [5950579580, -527873995] by decide +kernel, Go.ok_bind]
  rw [cycles_diverge ieeeOps [124, 11] [45, -84] [3685225320, 6879087264] [5950579580, -527873995] (by
    rw [cycles_eq_D ieeeOps 0]
    decide +kernel)]
  rfl

/-- `NtruSolve` loops on a pair of degree 4 that are not units: their norms are 15497 and 9081. -/
theorem C70_violated_nonunits (fuel : Nat) : NtruSolve ieeeOps fuel (int16ToBigInt fourF) (int16ToBigInt fourG) = .diverge := by
  rcases fuel with _ | fuel
  · rfl
  rw [NtruSolve, if_neg (by decide), show fieldNorm (int16ToBigInt fourF) = .ok [124, 11] by decide +kernel, Go.ok_bind,
    show fieldNorm (int16ToBigInt fourG) = .ok [45, -84] by decide +kernel, Go.ok_bind, four_inner]
  rfl

example : towerNorm 2 (int16ToBigInt fourF) = .ok 15497 ∧ towerNorm 2 (int16ToBigInt fourG) = .ok 9081 := by decide +kernel

/-- C70 is violated at degree 4. -/
theorem C70_violated_keygen_four : ∃ d : Fin 8192 → Draw, ∀ fuel, GeneratePrivateKey ieeeOps (source d) fuel 4 0 = .diverge := by
  obtain ⟨d, hr⟩ := C73_source key_ieee 4 (by decide) (by decide) fourF fourG rfl rfl (by decide +kernel) (by decide +kernel)
  refine ⟨d, fun fuel => ?_⟩
  unfold GeneratePrivateKey
  rw [if_neg (by decide)]
  rcases fuel with _ | fuel
  · rfl
  obtain ⟨v, hv, hl⟩ := four_norm
  obtain ⟨t, ht, hz⟩ := Go.bind_eq_ok.1 four_ntt
  have hz' : anyZeroes t = false := Go.ok.inj hz
  have h : NtruGen ieeeOps (source d) (fuel + 1) 4 0 = .diverge := by
    rw [NtruGen_step ieeeOps (source d) fuel 4 0 4096 8192 fourF fourG v t (hr fuel).1 (hr fuel).2 hv ht, hl, hz', C70_violated_nonunits]
    rfl
  rw [h]
  rfl

/-- C70 by degree: key generation in IEEE arithmetic ends on every finite source of random bytes exactly at degree 2. -/
theorem C70_degrees (k : Nat) (h1 : 1 ≤ k) (h2 : k ≤ 10) :
    (∀ N (d : Fin N → Draw), ∃ fuel, GeneratePrivateKey ieeeOps (source d) fuel (UInt16.ofNat (2 ^ k)) 0 ≠ .diverge) ↔ k = 1 := by
  constructor
  · intro h
    by_contra hk
    by_cases h4 : k = 2
    · subst h4
      obtain ⟨d, hd⟩ := C70_violated_keygen_four
      obtain ⟨fuel, hf⟩ := h _ d
      exact hf (hd fuel)
    · obtain ⟨d, hd⟩ := C70_violated_keygen_all k (by omega) h2
      obtain ⟨fuel, hf⟩ := h _ d
      exact hf (hd fuel)
  · rintro rfl N d
    obtain ⟨fuel, h⟩ := C70_degree2_keygen N d
    refine ⟨fuel, ?_⟩
    rcases h with h | ⟨key, pos, h⟩
    · exact fun hc => by cases h.symm.trans hc
    · exact fun hc => by cases h.symm.trans hc

end Falcon
