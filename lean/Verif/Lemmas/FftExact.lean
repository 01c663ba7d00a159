import Verif.Spec.Exact
import Verif.Spec.Poly
import Verif.Lemmas.Poly
import Verif.Lemmas.FftLen
import Mathlib.FieldTheory.IsAlgClosed.Basic
import Mathlib.Analysis.Complex.Polynomial.Basic
import Mathlib.Algebra.Polynomial.FieldDivision
/-! The FFT in exact arithmetic. -/

namespace Falcon
open Spec Polynomial ComplexConjugate

/-! ### The roots -/

theorem rootC_sq (k i : Nat) : rootC (k + 1) i ^ 2 = rootC k (i / 2) := by
  rw [rootC]
  have h := Complex.cpow_nat_inv_pow (rootC k (i / 2)) (n := 2) (by omega)
  push_cast at h
  split
  · exact h
  · rw [neg_sq]; exact h

theorem rootC_pow (k i : Nat) : rootC k i ^ 2 ^ k = -1 := by
  induction k generalizing i with
  | zero => simp [rootC]
  | succ k ih => rw [pow_succ, mul_comm, pow_mul, rootC_sq, ih]

theorem rootC_ne_zero (k i : Nat) : rootC k i ≠ 0 := by
  intro h
  have := rootC_pow k i
  rw [h, zero_pow (by positivity)] at this
  norm_num at this

theorem rootC_norm (k i : Nat) : ‖rootC k i‖ = 1 := by
  have h := congrArg norm (rootC_pow k i)
  rw [norm_pow, norm_neg, norm_one] at h
  exact (pow_eq_one_iff_of_nonneg (norm_nonneg _) (by positivity)).1 h

theorem rootC_conj (k i : Nat) : rootC k i * conj (rootC k i) = 1 := by
  rw [Complex.mul_conj, Complex.normSq_eq_norm_sq, rootC_norm]
  simp

theorem rootC_odd (k i : Nat) : rootC (k + 1) (2 * i + 1) = -rootC (k + 1) (2 * i) := by
  rw [rootC, rootC, if_neg (by omega), if_pos (by omega)]
  congr 3
  omega

theorem rootC_one_zero : rootC 1 0 = Complex.I := by
  have h1 := rootC_sq 0 0
  have h2 : (rootC 1 0 - Complex.I) * (rootC 1 0 + Complex.I) = 0 := by
    have : rootC 0 0 = -1 := rfl
    rw [show (0 / 2) = 0 by rfl, this] at h1
    linear_combination h1 - Complex.I_sq
  rcases mul_eq_zero.1 h2 with h | h
  · exact sub_eq_zero.1 h
  · exfalso
    have e : rootC 1 0 = (-1 : ℂ) ^ (2⁻¹ : ℂ) := rfl
    have e2 : (-1 : ℂ) ^ (2⁻¹ : ℂ) = Complex.I := by
      rw [Complex.cpow_def_of_ne_zero (by norm_num), Complex.log_neg_one]
      rw [show ((Real.pi : ℂ) * Complex.I * 2⁻¹) = (Real.pi / 2 : ℂ) * Complex.I by ring]
      exact Complex.exp_pi_div_two_mul_I
    rw [e, e2] at h
    have : (2 : ℂ) * Complex.I = 0 := by linear_combination h
    simp at this

/-- The list of all roots. -/
noncomputable def rootsC (k : Nat) : List ℂ := (List.range (2 ^ k)).map (rootC k)

theorem rootsC_length (k : Nat) : (rootsC k).length = 2 ^ k := by simp [rootsC]

theorem rootC_inj (k i j : Nat) (hi : i < 2 ^ k) (hj : j < 2 ^ k) (h : rootC k i = rootC k j) : i = j := by
  induction k generalizing i j with
  | zero => simp at hi hj; omega
  | succ k ih =>
    have h2 := congrArg (· ^ 2) h
    simp only [rootC_sq] at h2
    rw [pow_succ] at hi hj
    have e := ih (i / 2) (j / 2) (by omega) (by omega) h2
    by_contra hne
    have hs : rootC (k + 1) i = -rootC (k + 1) j := by
      rcases Nat.even_or_odd' i with ⟨a, rfl | rfl⟩ <;> rcases Nat.even_or_odd' j with ⟨b, rfl | rfl⟩
      · omega
      · have : a = b := by omega
        subst this
        rw [rootC_odd, neg_neg]
      · have : a = b := by omega
        subst this
        rw [rootC_odd]
      · omega
    have h0 := rootC_ne_zero (k + 1) j
    rw [h] at hs
    have : (2 : ℂ) * rootC (k + 1) j = 0 := by linear_combination hs
    simp [h0] at this

theorem rootsC_nodup (k : Nat) : (rootsC k).Nodup := by
  unfold rootsC
  rw [List.nodup_map_iff_inj_on List.nodup_range]
  intro i hi j hj h
  rw [List.mem_range] at hi hj
  exact rootC_inj k i j hi hj h

theorem rootsC_root (k : Nat) (x : ℂ) (hx : x ∈ rootsC k) : x ^ 2 ^ k = -1 := by
  simp only [rootsC, List.mem_map, List.mem_range] at hx
  obtain ⟨i, _, rfl⟩ := hx
  exact rootC_pow k i

/-- The roots are all the roots of `x^n+1`. -/
theorem mem_rootsC (k : Nat) (x : ℂ) : x ∈ rootsC k ↔ x ^ 2 ^ k = -1 := by
  refine ⟨rootsC_root k x, fun h => ?_⟩
  classical
  have hm : (X ^ 2 ^ k + 1 : ℂ[X]).Monic := by
    simpa using monic_X_pow_add_C (1 : ℂ) (by positivity : 2 ^ k ≠ 0)
  have hdeg : (X ^ 2 ^ k + 1 : ℂ[X]).natDegree = 2 ^ k := by
    simpa using natDegree_X_pow_add_C (n := 2 ^ k) (r := (1 : ℂ))
  have hsub : (rootsC k).toFinset ⊆ (X ^ 2 ^ k + 1 : ℂ[X]).roots.toFinset := by
    intro y hy
    rw [List.mem_toFinset] at hy
    rw [Multiset.mem_toFinset, mem_roots hm.ne_zero]
    simp [rootsC_root k y hy]
  have hcard : (X ^ 2 ^ k + 1 : ℂ[X]).roots.toFinset.card ≤ (rootsC k).toFinset.card := by
    rw [List.toFinset_card_of_nodup (rootsC_nodup k), rootsC_length]
    calc _ ≤ Multiset.card (X ^ 2 ^ k + 1 : ℂ[X]).roots := Multiset.toFinset_card_le _
      _ ≤ (X ^ 2 ^ k + 1 : ℂ[X]).natDegree := card_roots' _
      _ = 2 ^ k := hdeg
  have := Finset.eq_of_subset_of_card_le hsub hcard
  have hx : x ∈ (X ^ 2 ^ k + 1 : ℂ[X]).roots.toFinset := by
    rw [Multiset.mem_toFinset, mem_roots hm.ne_zero]
    simp [h]
  rw [← this] at hx
  exact List.mem_toFinset.1 hx

/-! ### Split and merge -/

theorem exact_rootAt (k : Nat) (h1 : 1 ≤ k) (h2 : k ≤ 10) (i : Nat) (hi : i < 2 ^ k) : exactOps.rootAt (2 ^ k) i = .ok (rootC k i) := by
  rw [rootAt_ok k h1 h2 i hi]
  show Go.ok (rootC (Nat.log2 (2 ^ k)) i) = _
  rw [Nat.log2_two_pow]

theorem exact_half : (exactOps.half : ℂ) = 1 / 2 := by
  show (⟨((1 / 2 : ℚ) : ℝ), ((0 : ℚ) : ℝ)⟩ : ℂ) = 1 / 2
  apply Complex.ext <;> simp

theorem exact_I : (exactOps.I : ℂ) = Complex.I := by
  show (⟨((0 : ℚ) : ℝ), ((1 : ℚ) : ℝ)⟩ : ℂ) = Complex.I
  apply Complex.ext <;> simp

theorem range'_two (i m : Nat) : List.range' (2 * i) (2 * (m + 1)) = 2 * i :: (2 * i + 1) :: List.range' (2 * (i + 1)) (2 * m) := by
  rw [show 2 * (m + 1) = 2 * m + 1 + 1 by ring, List.range'_succ, List.range'_succ]
  congr 3

theorem merge_exact (k : Nat) (h2 : k + 1 ≤ 10) (A B : ℂ → ℂ) (m i : Nat) (h : i + m ≤ 2 ^ k) :
    mergeFFTLoop exactOps (2 ^ (k + 1)) i ((List.range' i m).map fun j => A (rootC k j)) ((List.range' i m).map fun j => B (rootC k j)) =
    .ok ((List.range' (2 * i) (2 * m)).map fun j => A (rootC (k + 1) j ^ 2) + rootC (k + 1) j * B (rootC (k + 1) j ^ 2)) := by
  induction m generalizing i with
  | zero => rfl
  | succ m ih =>
    rw [range'_two, List.range'_succ]
    simp only [List.map_cons]
    rw [mergeFFTLoop, exact_rootAt (k + 1) (by omega) h2 (2 * i) (by rw [pow_succ]; omega), Go.ok_bind, ih (i + 1) (by omega), Go.ok_bind]
    have e0 : rootC (k + 1) (2 * i) ^ 2 = rootC k i := by rw [rootC_sq]; congr 1; omega
    have e1 : rootC (k + 1) (2 * i + 1) ^ 2 = rootC k i := by rw [rootC_sq]; congr 1; omega
    rw [e0, e1, rootC_odd]
    show Go.ok ((rootC (k + 1) (2 * i) * B (rootC k i) + A (rootC k i)) :: (A (rootC k i) - rootC (k + 1) (2 * i) * B (rootC k i)) :: _) = _
    congr 2
    · ring
    · congr 1
      ring

theorem split_exact (k : Nat) (h2 : k + 1 ≤ 10) (A B : ℂ → ℂ) (m i : Nat) (h : i + m ≤ 2 ^ k) :
    splitFFTLoop exactOps (2 ^ (k + 1)) i
      ((List.range' (2 * i) (2 * m)).map fun j => A (rootC (k + 1) j ^ 2) + rootC (k + 1) j * B (rootC (k + 1) j ^ 2)) =
    .ok ((List.range' i m).map fun j => A (rootC k j), (List.range' i m).map fun j => B (rootC k j)) := by
  induction m generalizing i with
  | zero => rfl
  | succ m ih =>
    rw [range'_two, List.range'_succ]
    simp only [List.map_cons]
    rw [splitFFTLoop, exact_rootAt (k + 1) (by omega) h2 (2 * i) (by rw [pow_succ]; omega), Go.ok_bind, ih (i + 1) (by omega), Go.ok_bind]
    have e0 : rootC (k + 1) (2 * i) ^ 2 = rootC k i := by rw [rootC_sq]; congr 1; omega
    have e1 : rootC (k + 1) (2 * i + 1) ^ 2 = rootC k i := by rw [rootC_sq]; congr 1; omega
    have hc := rootC_conj (k + 1) (2 * i)
    rw [e0, e1, rootC_odd, exact_half]
    generalize rootC (k + 1) (2 * i) = w at *
    generalize A (rootC k i) = a
    generalize B (rootC k i) = b
    show Go.ok ((((a + w * b) + (a + -w * b)) * (1 / 2)) :: _, ((((a + w * b) - (a + -w * b)) * (1 / 2)) * conj w) :: _) = _
    congr 2
    · congr 1
      ring
    · congr 1
      linear_combination b * hc

/-! ### FFT and IFFT -/

/-- The value of a real polynomial at a complex number. -/
noncomputable def evalR (f : List ℝ) (w : ℂ) : ℂ := (poly (f.map fun x : ℝ => (x : ℂ))).eval w

theorem evalR_split (f : List ℝ) (h : 2 ∣ f.length) (w : ℂ) :
    evalR f w = evalR (splitPolys f).1 (w ^ 2) + w * evalR (splitPolys f).2 (w ^ 2) := by
  unfold evalR
  rw [poly_eval_split _ (by simpa using h), splitPolys_map]

theorem FFT_exact (k : Nat) (h1 : 1 ≤ k) (h2 : k ≤ 10) (f : List ℝ) (hf : f.length = 2 ^ k) :
    FFT exactOps f = .ok ((rootsC k).map (evalR f)) := by
  induction k, h1 using Nat.le_induction generalizing f with
  | base =>
    match f, hf with
    | [x, y], _ =>
      rw [FFT, dif_neg (by simp)]
      rw [exact_I]
      have hx : ∀ x : ℝ, (⟨x, ((0 : ℚ) : ℝ)⟩ : ℂ) = x := by
        intro x
        apply Complex.ext <;> simp
      simp only [hx]
      have h1 : rootC 1 1 = -Complex.I := by
        have := rootC_odd 0 0
        simpa [rootC_one_zero] using this
      simp [rootsC, List.range_succ, evalR, rootC_one_zero, h1, sub_eq_add_neg]
      ring
  | succ k h1 ih =>
    have hp : 2 ^ 1 ≤ 2 ^ k := Nat.pow_le_pow_right (by omega) h1
    rw [FFT, dif_pos (by rw [hf, pow_succ]; omega)]
    rw [ih (by omega) (splitPolys f).1 (by rw [splitPolys_length1, hf, pow_succ]; omega), Go.ok_bind,
      ih (by omega) (splitPolys f).2 (by rw [splitPolys_length2, hf, pow_succ]; omega), Go.ok_bind]
    unfold MergeFFT
    simp only [List.length_map, rootsC_length]
    rw [show 2 * 2 ^ k = 2 ^ (k + 1) by ring]
    have hm := merge_exact k h2 (evalR (splitPolys f).1) (evalR (splitPolys f).2) (2 ^ k) 0 (by omega)
    unfold rootsC
    rw [List.map_map, List.map_map, List.map_map]
    rw [List.range_eq_range', List.range_eq_range']
    refine hm.trans ?_
    rw [show 2 * 0 = 0 by rfl, show 2 * 2 ^ k = 2 ^ (k + 1) by ring]
    congr 1
    apply List.map_congr_left
    intro j _
    exact (evalR_split f (by rw [hf, pow_succ]; omega) _).symm

theorem IFFT_exact (k : Nat) (h1 : 1 ≤ k) (h2 : k ≤ 10) (f : List ℝ) (hf : f.length = 2 ^ k) :
    IFFT exactOps ((rootsC k).map (evalR f)) = .ok f := by
  have key : ∀ fuel, k ≤ fuel → ifftAux exactOps fuel ((rootsC k).map (evalR f)) = .ok f := by
    induction k, h1 using Nat.le_induction generalizing f with
    | base =>
      intro fuel hfu
      obtain ⟨m, rfl⟩ : ∃ m, fuel = m + 1 := ⟨fuel - 1, by omega⟩
      match f, hf with
      | [x, y], _ =>
        rw [ifftAux_succ, if_neg (by simp [rootsC_length])]
        simp only [rootsC, pow_one, List.range_succ, List.range_zero, List.nil_append, List.map_cons, List.map_nil,
          List.cons_append]
        show Go.ok [(evalR [x, y] (rootC 1 0)).re, (evalR [x, y] (rootC 1 0)).im] = _
        rw [rootC_one_zero]
        simp [evalR]
    | succ k h1 ih =>
      intro fuel hfu
      obtain ⟨m, rfl⟩ : ∃ m, fuel = m + 1 := ⟨fuel - 1, by omega⟩
      have hp : 2 ^ 1 ≤ 2 ^ k := Nat.pow_le_pow_right (by omega) h1
      have hs : SplitFFT exactOps ((rootsC (k + 1)).map (evalR f)) =
          .ok ((rootsC k).map (evalR (splitPolys f).1), (rootsC k).map (evalR (splitPolys f).2)) := by
        unfold SplitFFT
        rw [List.length_map, rootsC_length]
        have hm := split_exact k h2 (evalR (splitPolys f).1) (evalR (splitPolys f).2) (2 ^ k) 0 (by omega)
        unfold rootsC
        rw [List.map_map, List.map_map, List.map_map]
        rw [List.range_eq_range', List.range_eq_range']
        refine Eq.trans ?_ hm
        rw [show 2 * 0 = 0 by rfl, show 2 * 2 ^ k = 2 ^ (k + 1) by ring]
        congr 1
        apply List.map_congr_left
        intro j _
        exact evalR_split f (by rw [hf, pow_succ]; omega) _
      have l1 : (splitPolys f).1.length = 2 ^ k := by rw [splitPolys_length1, hf, pow_succ]; omega
      have l2 : (splitPolys f).2.length = 2 ^ k := by rw [splitPolys_length2, hf, pow_succ]; omega
      rw [ifftAux_succ, if_pos (by rw [List.length_map, rootsC_length, pow_succ]; omega), hs, Go.ok_bind]
      rw [ih (by omega) _ l1 m (by omega), Go.ok_bind, ih (by omega) _ l2 m (by omega), Go.ok_bind]
      obtain ⟨f', e, lf', sf', _⟩ := mergePolys_ok (l1.trans l2.symm)
      rw [e]
      congr 1
      have hfl : f.length % 2 = 0 := by rw [hf, pow_succ]; omega
      have : mergePolys (splitPolys f).1 (splitPolys f).2 = .ok f := by
        clear * - hfl
        induction f using List.twoStepInduction with
        | nil => rfl
        | singleton a => simp at hfl
        | cons_cons a b rest ih _ =>
          have := ih (by simp at hfl; omega)
          simp [splitPolys, mergePolys, this]
      rw [this] at e
      exact (Go.ok.inj e).symm
  unfold IFFT
  apply key
  rw [List.length_map, rootsC_length]
  exact (Nat.lt_two_pow_self).le.trans (Nat.le_succ _)

end Falcon
