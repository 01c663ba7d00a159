import Verif.Lemmas.NearestPlane
import Verif.Props.Ffsampling
/-!
# The values of fast Fourier sampling for degree 2 (C52)
-/

namespace Falcon
open Spec Polynomial ComplexConjugate

/-- The FFT of `a + b x` modulo `x^2+1`. -/
noncomputable def fft2 (a b : ℝ) : List ℂ := [a + b * Complex.I, a - b * Complex.I]

theorem fft2_FFT (a b : ℝ) : FFT exactOps [a, b] = .ok (fft2 a b) := by
  rw [FFT_exact 1 (by omega) (by omega) [a, b] rfl]
  have h1 : rootC 1 1 = -Complex.I := by
    have := rootC_odd 0 0
    simpa [rootC_one_zero] using this
  simp [rootsC, List.range_succ, evalR, rootC_one_zero, h1, sub_eq_add_neg, fft2]

theorem fft2_vals (a b : ℝ) : fft2 a b = vals 1 fun w => a + w * b := by
  have h1 : rootC 1 1 = -Complex.I := by
    have := rootC_odd 0 0
    simpa [rootC_one_zero] using this
  simp [vals, rootsC, List.range_succ, rootC_one_zero, h1, fft2]
  constructor <;> ring

theorem fft2_split (a b : ℝ) : SplitFFT exactOps (fft2 a b) = .ok ([(a : ℂ)], [(b : ℂ)]) := by
  have := split_exact 0 (by omega) (fun _ => (a : ℂ)) (fun _ => (b : ℂ)) 1 0 (by omega)
  rw [fft2_vals]
  unfold SplitFFT
  rw [vals_length]
  refine Eq.trans ?_ (this.trans ?_)
  · congr 1
  · simp

theorem fft2_merge (a b : ℝ) : MergeFFT exactOps ([(a : ℂ)], [(b : ℂ)]) = .ok (fft2 a b) := by
  have hv : ∀ x : ℝ, [(x : ℂ)] = vals 0 fun _ => (x : ℂ) := by intro x; simp [vals, rootsC]
  rw [hv, hv, merge_vals 0 (by omega), fft2_vals]

/-- C52, degree 2, exact arithmetic: what `FfSamplingFFT` computes for the targets `d0 + d1 x`, `c0 + c1 x` on a tree whose root value is
the FFT of `l0 + l1 x`. The coefficients of the second target are sampled first; the difference is multiplied by `l` modulo `x^2+1` and
added to the first target, whose coefficients are then sampled; the results are the FFTs of the sampled polynomials. All four samples
use the standard deviation `l0`, the constant coefficient of the root value: the leaves, which hold the standard deviations of the
specification, are not used. -/
theorem C52_degree2_values_partial (rand : Rand) (sigmin l0 l1 d0 d1 c0 c1 : ℝ) (lf rt : List ℂ) (fuel pos : Nat) :
    FfSamplingFFT exactOps rand ⟨fft2 l0 l1, lf, rt⟩ sigmin (fuel + 2) (fft2 d0 d1, fft2 c0 c1) pos = (do
      let (a, pos) ← Samplerz exactOps rand c0 l0 sigmin (fuel + 1) pos
      let (b, pos) ← Samplerz exactOps rand c1 l0 sigmin (fuel + 1) pos
      let e0 : ℝ := c0 - a.toInt
      let e1 : ℝ := c1 - b.toInt
      let (a', pos) ← Samplerz exactOps rand (d0 + (e0 * l0 - e1 * l1)) l0 sigmin (fuel + 1) pos
      let (b', pos) ← Samplerz exactOps rand (d1 + (e0 * l1 + e1 * l0)) l0 sigmin (fuel + 1) pos
      pure ((fft2 a'.toInt b'.toInt, fft2 a.toInt b.toInt), pos)) := by
  have hc : ∀ x : ℝ, exactOps.cplx x (exactOps.lit 0) = (x : ℂ) := by
    intro x
    apply Complex.ext
    · rfl
    · show ((0 : ℚ) : ℝ) = 0
      simp
  have hre : (l0 + l1 * Complex.I : ℂ).re = l0 := by simp
  have leaf : ∀ (x y : ℝ) (p : Nat), FfSamplingFFT exactOps rand ⟨fft2 l0 l1, lf, rt⟩ sigmin (fuel + 1) ([(x : ℂ)], [(y : ℂ)]) p = (do
      let (a, p) ← Samplerz exactOps rand x l0 sigmin (fuel + 1) p
      let (b, p) ← Samplerz exactOps rand y l0 sigmin (fuel + 1) p
      pure (([((a.toInt : ℝ) : ℂ)], [((b.toInt : ℝ) : ℂ)]), p)) := by
    intro x y p
    rw [ffsampling_leaf (O := exactOps) rand _ (l0 + l1 * Complex.I) (l0 - l1 * Complex.I) rfl]
    have e1 : exactOps.re (x : ℂ) = x := Complex.ofReal_re x
    have e2 : exactOps.re (y : ℂ) = y := Complex.ofReal_re y
    have e3 : exactOps.re (l0 + l1 * Complex.I : ℂ) = l0 := hre
    rw [e1, e2, e3]
    cases Samplerz exactOps rand x l0 sigmin (fuel + 1) p with
    | panic => rfl
    | diverge => rfl
    | ok r =>
      simp only [Go.ok_bind]
      cases Samplerz exactOps rand y l0 sigmin (fuel + 1) r.2 with
      | panic => rfl
      | diverge => rfl
      | ok q =>
        show Go.ok _ = Go.ok _
        rw [← hc, ← hc]
  have hstep : ∀ a b : ℝ, (do
      let d ← SubFFT exactOps (fft2 c0 c1) (fft2 a b)
      let m ← MulFFT exactOps d (fft2 l0 l1)
      AddFFT exactOps (fft2 d0 d1) m) =
      .ok (fft2 (d0 + ((c0 - a) * l0 - (c1 - b) * l1)) (d1 + ((c0 - a) * l1 + (c1 - b) * l0))) := by
    intro a b
    simp only [fft2_vals]
    rw [sub_vals, Go.ok_bind, mul_vals, Go.ok_bind, add_vals]
    congr 1
    apply vals_congr
    intro w hw
    have hw2 : w ^ 2 = -1 := by simpa using hw
    push_cast
    linear_combination ((c1 - b) * l1 : ℂ) * hw2
  rw [FfSamplingFFT]
  rw [if_pos (by simp [fft2])]
  simp only [fft2_split, Go.ok_bind, leaf]
  cases h1 : Samplerz exactOps rand c0 l0 sigmin (fuel + 1) pos with
  | panic => rfl
  | diverge => rfl
  | ok r1 =>
    simp only [Go.ok_bind]
    cases h2 : Samplerz exactOps rand c1 l0 sigmin (fuel + 1) r1.2 with
    | panic => rfl
    | diverge => rfl
    | ok r2 =>
      simp only [Go.ok_bind, Go.pure_eq]
      rw [fft2_merge]
      have hs := hstep r1.1.toInt r2.1.toInt
      obtain ⟨d, e1, hs⟩ := Go.bind_eq_ok.1 hs
      obtain ⟨m, e2, hs⟩ := Go.bind_eq_ok.1 hs
      simp only [e1, e2, hs, Go.ok_bind, fft2_split]
      rw [leaf]
      cases h3 : Samplerz exactOps rand (d0 + ((c0 - r1.1.toInt) * l0 - (c1 - r2.1.toInt) * l1)) l0 sigmin (fuel + 1) r2.2 with
      | panic => rfl
      | diverge => rfl
      | ok r3 =>
        simp only [Go.ok_bind]
        cases h4 : Samplerz exactOps rand (d1 + ((c0 - r1.1.toInt) * l1 + (c1 - r2.1.toInt) * l0)) l0 sigmin (fuel + 1) r3.2 with
        | panic => rfl
        | diverge => rfl
        | ok r4 =>
          simp only [Go.ok_bind, Go.pure_eq]
          rw [fft2_merge]
          rfl

/-- C52 is violated for degree 2 as well: the samples do not depend on the leaves, which hold the standard deviations. Two trees with
the same root value give the same samples. -/
theorem C52_violated_leaves (O : FloatOps) (rand : Rand) (v lf rt lf' rt' : List O.C) (sigmin : O.F) (fuel : Nat) (t : List O.C × List O.C)
    (pos : Nat) : FfSamplingFFT O rand ⟨v, lf, rt⟩ sigmin fuel t pos = FfSamplingFFT O rand ⟨v, lf', rt'⟩ sigmin fuel t pos := by
  induction fuel generalizing t pos with
  | zero => rfl
  | succ fuel ih =>
    rw [FfSamplingFFT, FfSamplingFFT]
    simp only [ih]

/-- A case with four different centres: `l = 2 + 3x`, targets `1/4 + x/2` and `1/8 + 5x`. -/
example : ∃ r, SplitFFT exactOps (fft2 (1 / 8) 5) = .ok r ∧ FFT exactOps [1 / 8, 5] = .ok (fft2 (1 / 8) 5) :=
  ⟨_, fft2_split _ _, fft2_FFT _ _⟩

end Falcon
