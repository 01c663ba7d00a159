import Verif.Props.TreePlatform
import Verif.Props.Ffsampling
/-!
# The standard deviation used with the tree of a generated key (C52, C97)
-/

namespace Falcon
open Spec Polynomial ComplexConjugate F64

/-- The values of a quotient at the roots. -/
theorem quot_at (k : Nat) (f g F G κ : List ℝ) (hf : f.length = 2 ^ k) (hg : g.length = 2 ^ k) (hκ : IsQuot k f g F G κ) (w : ℂ) (hw : w ∈ rootsC k) :
    evalR κ w * ((Complex.normSq (evalR f w) + Complex.normSq (evalR g w) : ℝ) : ℂ) =
      evalR F w * conj (evalR f w) + evalR G w * conj (evalR g w) := by
  have h3 := evalR_dvd k _ hκ.2 w hw
  rw [eval₂_sub, eval₂_mul, eval₂_add, eval₂_mul, eval₂_mul, gram_eval k _ _ hf hg w hw, ← evalR_eq, ← evalR_eq, ← evalR_eq,
    ← evalR_eq, ← evalR_eq, evalR_adj k _ hf w hw, evalR_adj k _ hg w hw, sub_eq_zero, Complex.mul_conj, Complex.mul_conj, ← Complex.ofReal_add] at h3
  exact h3

/-- C52: on the tree of a generated key of degree 2 the sampler is always called with a standard deviation of absolute value at most `1/2 + 3/10^6`,
less than half of the `sigmin` of the parameter set, whatever the target; the leaf, for which `sigmin` is meant, is not used. -/
theorem variant_C52_violated_deviation (va : Variant) (rand : Rand) (fuel pos : Nat) (key : PrivateKey) (pos' : Nat)
    (h : GeneratePrivateKey va.ops rand fuel 2 pos = .ok (.ok (key, pos'))) (m : Nat) :
    ∃ (B : List (List (List (F64 × F64)))) (T : FFTtree va.ops) (s : F64), basisAndMatrix va.ops (m + 1) key.f key.g key.F key.G = .ok (B, T) ∧
      s.isFinite = true ∧ |R s| ≤ 1 / 2 + 3 / 10 ^ 6 ∧ 2 * |R s| < ((GetParamSet 2).sigmin : ℝ) ∧
      ∀ (rand' : Rand) (sigmin : F64) (fuel' : Nat) (a b : F64 × F64) (p : Nat), FfSamplingFFT va.ops rand' T sigmin (fuel' + 1) ([a], [b]) p = (do
        let (x, p) ← Samplerz va.ops rand' a.1 s sigmin (fuel' + 1) p
        let (y, p) ← Samplerz va.ops rand' b.1 s sigmin (fuel' + 1) p
        pure (([va.ops.cplx (va.ops.ofInt x.toInt) (va.ops.lit 0)], [va.ops.cplx (va.ops.ofInt y.toInt) (va.ops.lit 0)]), p)) := by
  obtain ⟨lf, lg, lF, lG, hn, hd, hb, hdet⟩ := degree2_key va rand fuel pos key pos' h
  obtain ⟨B, v, l, r, e, lv, ll, lr, ht⟩ := variant_C97_degree2 va m key.f key.g key.F key.G lf lg lF lG hn hd hb hdet
  have lf' : (int16ToBigInt key.f).length = 2 ^ 1 := by simp [int16ToBigInt, lf]
  have lg' : (int16ToBigInt key.g).length = 2 ^ 1 := by simp [int16ToBigInt, lg]
  have hd' : ∀ w : ℂ, w ^ (2 : UInt16).toNat = -1 → 784 / 100 ≤ gramAt (int16ToBigInt key.f) (int16ToBigInt key.g) w :=
    fun w hw => le_trans (by norm_num) (hd w hw)
  have hsn : sqNorm (realI (int16ToBigInt key.f)) + sqNorm (realI (int16ToBigInt key.g)) ≤ 1.17 ^ 2 * 12289 := by norm_num; linarith
  obtain ⟨-, κ, hκ, bκ⟩ := key_solution va.ops rand fuel 2 pos key pos' 1 (by norm_num) (by norm_num) rfl h hd' hsn
    (fun Nf Ng nf ng => gcd_small 1 (by decide) (by decide) _ _ lf' lg' (hn.trans (by norm_num)) Nf Ng nf ng) (1 / 2 + 7 / 10 ^ 7) (by norm_num) le_rfl (by
    intro fu F0 G0 F G l1 l2 hr hdet
    exact ((variant_C67_sharp va) 1 (by norm_num) (by norm_num) _ _ F0 G0 lf' lg' l1 l2 hsn (fun w hw => hd' w ((mem_rootsC 1 w).1 hw)) fu F G hr hdet).1)
  have hw := rootC_pow 1 0
  have hq := quot_at 1 _ _ _ _ κ (by rw [realI_length, lf']) (by rw [realI_length, lg']) hκ (rootC 1 0) ((mem_rootsC 1 _).2 hw)
  obtain ⟨-, -, hv⟩ := ht 0 (by norm_num) (.zero false, .zero false)
  have hdw := hd _ hw
  have hq2 : (evalR (realI (int16ToBigInt key.G)) (rootC 1 0) * conj (evalR (realI (int16ToBigInt key.g)) (rootC 1 0)) +
        evalR (realI (int16ToBigInt key.F)) (rootC 1 0) * conj (evalR (realI (int16ToBigInt key.f)) (rootC 1 0))) /
        (gramAt (int16ToBigInt key.f) (int16ToBigInt key.g) (rootC 1 0) : ℂ) = evalR κ (rootC 1 0) := by
    rw [div_eq_iff (by
      rw [Ne, Complex.ofReal_eq_zero]
      linarith), add_comm]
    exact hq.symm
  rw [hq2] at hv
  match v, lv, κ, hκ.1 with
  | [v0, v1], _, [a, b], _ =>
    have hre : (evalR [a, b] (rootC 1 0)).re = a := by
      have h : rootC 1 0 = Complex.I ∨ rootC 1 0 = -Complex.I := by
        rw [← sq_eq_sq_iff_eq_or_eq_neg, Complex.I_sq]
        exact hw
      rcases h with h | h <;> rw [h] <;> simp [evalR]
    have ha := bκ a (by simp)
    have h1 := (Complex.abs_re_le_norm _).trans hv.2
    rw [Complex.sub_re, hre] at h1
    have h2 : |R v0.1| ≤ 1 / 2 + 3 / 10 ^ 6 := by
      have := abs_sub_abs_le_abs_sub (R v0.1) a
      have h3 : |R v0.1 - a| ≤ 2 / 10 ^ 6 := h1
      linarith
    refine ⟨B, _, v0.1, e, hv.1.1, h2, ?_, fun rand' sigmin fuel' a b p => ffsampling_leaf (O := va.ops) rand' _ v0 v1 rfl sigmin fuel' a b p⟩
    have e1 : (GetParamSet 2).sigmin = 1.1165085072329104 := by decide +kernel
    rw [e1]
    norm_num
    linarith

/-- C52, what is violated at degree 2 as well, in binary64. -/
theorem C52_violated_deviation (rand : Rand) (fuel pos : Nat) (key : PrivateKey) (pos' : Nat)
    (h : GeneratePrivateKey ieeeOps rand fuel 2 pos = .ok (.ok (key, pos'))) (m : Nat) :
    ∃ (B : List (List (List (F64 × F64)))) (T : FFTtree ieeeOps) (s : F64), basisAndMatrix ieeeOps (m + 1) key.f key.g key.F key.G = .ok (B, T) ∧
      s.isFinite = true ∧ |R s| ≤ 1 / 2 + 3 / 10 ^ 6 ∧ 2 * |R s| < ((GetParamSet 2).sigmin : ℝ) ∧
      ∀ (rand' : Rand) (sigmin : F64) (fuel' : Nat) (a b : F64 × F64) (p : Nat), FfSamplingFFT ieeeOps rand' T sigmin (fuel' + 1) ([a], [b]) p = (do
        let (x, p) ← Samplerz ieeeOps rand' a.1 s sigmin (fuel' + 1) p
        let (y, p) ← Samplerz ieeeOps rand' b.1 s sigmin (fuel' + 1) p
        pure (([ieeeOps.cplx (ieeeOps.ofInt x.toInt) (ieeeOps.lit 0)], [ieeeOps.cplx (ieeeOps.ofInt y.toInt) (ieeeOps.lit 0)]), p)) :=
  variant_C52_violated_deviation amd64V rand fuel pos key pos' h m

example : ∃ (B : List (List (List (F64 × F64)))) (T : FFTtree ieeeOps) (s : F64), basisAndMatrix ieeeOps 1 [72, 5] [60, 31] [-40, 31] [124, 0] = .ok (B, T) ∧
    s.isFinite = true ∧ |R s| ≤ 1 / 2 + 3 / 10 ^ 6 := by
  obtain ⟨B, T, s, e, fs, hs, -⟩ := C52_violated_deviation runRand 20 0 _ _ ieee_run_key 0
  exact ⟨B, T, s, e, fs, hs⟩

end Falcon
