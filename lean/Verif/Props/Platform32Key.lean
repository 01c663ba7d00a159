import Verif.Lemmas.Int32Loop
import Verif.Props.Platform32
import Verif.Props.Reach
/-!
# C100: key generation of degree 4 that ends on amd64 and loops on 386

The candidate below passes both tests of `NtruGen`. Its relative norms are the constants 7675 and 5531, so that `NtruSolve` calls `reduce` at degree 2 with
the solution `F = 1072241399505031, G = 772712336242650`, whose quotient is about `1.4 * 10^11`.
-/

namespace Falcon
open Spec Polynomial F64

def wideF : List Int16 := [85, 15, 0, 15]

def wideG : List Int16 := [27, 49, 0, 49]

theorem wide_norm : ∃ v, GsNorm ieeeOps (Int16ToFloat64 ieeeOps wideF) (Int16ToFloat64 ieeeOps wideG) (ieeeOps.ofInt Q) = .ok v ∧
    ieeeOps.lt (ieeeOps.mul (ieeeOps.pow2 (ieeeOps.lit 1.17)) (ieeeOps.ofInt Q)) v = false := by
  have h : (do
      let v ← GsNorm ieeeOps (Int16ToFloat64 ieeeOps wideF) (Int16ToFloat64 ieeeOps wideG) (ieeeOps.ofInt Q)
      pure (ieeeOps.lt (ieeeOps.mul (ieeeOps.pow2 (ieeeOps.lit 1.17)) (ieeeOps.ofInt Q)) v)) = .ok false := by
    rw [GsNorm_eq_D ieeeOps 1]
    decide +kernel
  obtain ⟨v, e, h⟩ := Go.bind_eq_ok.1 h
  exact ⟨v, e, Go.ok.inj h⟩

theorem wide_norm32 : ∃ v, GsNorm (opsWith toI32) (Int16ToFloat64 (opsWith toI32) wideF) (Int16ToFloat64 (opsWith toI32) wideG) ((opsWith toI32).ofInt Q) = .ok v ∧
    (opsWith toI32).lt ((opsWith toI32).mul ((opsWith toI32).pow2 ((opsWith toI32).lit 1.17)) ((opsWith toI32).ofInt Q)) v = false := by
  have h : (do
      let v ← GsNorm (opsWith toI32) (Int16ToFloat64 (opsWith toI32) wideF) (Int16ToFloat64 (opsWith toI32) wideG) ((opsWith toI32).ofInt Q)
      pure ((opsWith toI32).lt ((opsWith toI32).mul ((opsWith toI32).pow2 ((opsWith toI32).lit 1.17)) ((opsWith toI32).ofInt Q)) v)) = .ok false := by
    rw [GsNorm_eq_D (opsWith toI32) 1]
    decide +kernel
  obtain ⟨v, e, h⟩ := Go.bind_eq_ok.1 h
  exact ⟨v, e, Go.ok.inj h⟩

theorem wide_ntt : (do
    let t ← NTT wrap64 wideF
    pure (anyZeroes t)) = .ok false := by decide +kernel

theorem wide_base (O : FloatOps) (fuel : Nat) : NtruSolve O (fuel + 1) [58905625] [30591961] = .ok (some ([193860314501], [100679131758])) := by
  rw [NtruSolve, if_pos (by rfl)]
  decide +kernel

theorem wide_inner32 (fuel : Nat) : NtruSolve (opsWith toI32) fuel [7675, 0] [5531, 0] = .diverge := by
  rcases fuel with _ | fuel
  · rfl
  rw [NtruSolve, if_neg (by decide), show fieldNorm [7675, 0] = .ok [58905625] by decide +kernel, Go.ok_bind,
    show fieldNorm [5531, 0] = .ok [30591961] by decide +kernel, Go.ok_bind]
  rcases fuel with _ | fuel
  · rfl
  rw [wide_base, Go.ok_bind]
  simp only [show karamul (lift [193860314501]) (galoisConjugate [5531, 0]) = .ok (cst (2 ^ 1) 1072241399505031) by decide +kernel,
    show karamul (lift [100679131758]) (galoisConjugate [7675, 0]) = .ok (cst (2 ^ 1) 772712336242650) by decide +kernel, Go.ok_bind]
  rw [show ([7675, 0] : List Int) = cst (2 ^ 1) 7675 from rfl, show ([5531, 0] : List Int) = cst (2 ^ 1) 5531 from rfl, grow_reduce 1 (by decide) (by decide) _ _ _
    ⟨by norm_num, by norm_num, by norm_num⟩]
  rfl

theorem wide_solve32 (fuel : Nat) : NtruSolve (opsWith toI32) fuel (int16ToBigInt wideF) (int16ToBigInt wideG) = .diverge := by
  rcases fuel with _ | fuel
  · rfl
  rw [NtruSolve, if_neg (by decide), show fieldNorm (int16ToBigInt wideF) = .ok [7675, 0] by decide +kernel, Go.ok_bind,
    show fieldNorm (int16ToBigInt wideG) = .ok [5531, 0] by decide +kernel, Go.ok_bind, wide_inner32]
  rfl

theorem wide_solve : NtruSolve ieeeOps 20 (int16ToBigInt wideF) (int16ToBigInt wideG) = .ok (some ([-28, 81, 0, 81], [43, 2, 0, 2])) := by
  refine solve_step ieeeOps 1 19 _ _ [7675, 0] [5531, 0] [1656, 0] [1195, 0] [44712, -81144, 0, -81144] [101575, -17925, 0, -17925] _ (by decide)
    (by decide +kernel) (by decide +kernel) ?_ (by decide +kernel) (by decide +kernel) (by decide +kernel)
  exact solve_step ieeeOps 0 18 _ _ [58905625] [30591961] [193860314501] [100679131758] [1072241399505031, 0] [772712336242650, 0] _ (by decide)
    (by decide +kernel) (by decide +kernel) (wide_base _ 17) (by decide +kernel) (by decide +kernel) (by decide +kernel)

/-- C100 is violated by key generation: there are finite random bytes for which `GeneratePrivateKey` of degree 4 returns a key on amd64 and does not return
on 386. -/
theorem C100_violated_keygen : ∃ d : Fin 8192 → Draw,
    GeneratePrivateKey Platform.amd64.ops (source d) 20 4 0 = .ok (.ok (⟨4, [85, 15, 0, 15], [27, 49, 0, 49], [-28, 81, 0, 81], [43, 2, 0, 2]⟩, 8192)) ∧
    ∀ fuel, GeneratePrivateKey Platform.x86.ops (source d) fuel 4 0 = .diverge := by
  obtain ⟨d, hr⟩ := C73_source key_ieee 4 (by decide) (by decide) wideF wideG rfl rfl (by decide +kernel) (by decide +kernel)
  obtain ⟨t, ht, hz⟩ := Go.bind_eq_ok.1 wide_ntt
  have hz' : anyZeroes t = false := Go.ok.inj hz
  refine ⟨d, ?_, fun fuel => ?_⟩
  · rw [Platform.amd64.generate_eq Platform.amd64_accurate]
    show GeneratePrivateKey ieeeOps _ _ _ _ = _
    obtain ⟨v, hv, hl⟩ := wide_norm
    have h : NtruGen ieeeOps (source d) 20 4 0 = .ok (⟨wideF, wideG, [-28, 81, 0, 81], [43, 2, 0, 2]⟩, 8192) := by
      rw [NtruGen_step ieeeOps (source d) 19 4 0 4096 8192 wideF wideG v t (hr 19).1 (hr 19).2 hv ht, hl, hz', wide_solve]
      rfl
    unfold GeneratePrivateKey
    rw [if_neg (by decide), h]
    rfl
  · rw [Platform.x86.generate_eq Platform.x86_accurate]
    have e : (Platform.x86.variant Platform.x86_accurate).ops = opsWith toI32 := rfl
    rw [e]
    have hr' : ∀ pos fuel, GenPoly (opsWith toI32) (source d) fuel 4 pos = GenPoly ieeeOps (source d) fuel 4 pos := fun pos fuel =>
      C94_candidates (e ▸ key_variant _) key_ieee (source d) fuel 4 pos
    unfold GeneratePrivateKey
    rw [if_neg (by decide)]
    rcases fuel with _ | fuel
    · rfl
    obtain ⟨v, hv, hl⟩ := wide_norm32
    have h : NtruGen (opsWith toI32) (source d) (fuel + 1) 4 0 = .diverge := by
      rw [NtruGen_step (opsWith toI32) (source d) fuel 4 0 4096 8192 wideF wideG v t ((hr' _ _).trans (hr fuel).1) ((hr' _ _).trans (hr fuel).2) hv ht, hl, hz',
        wide_solve32]
      rfl
    rw [h]
    rfl

/-- The lengths meet the bound of `NtruGen`: the squared norm of `f, g` is 13206, below `1.17^2 * 12289`. -/
example : (wideF ++ wideG).foldl (fun s c => s + c.toInt * c.toInt) 0 = 13206 := by decide

end Falcon
