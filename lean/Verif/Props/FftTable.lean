import Verif.Model.FftConstants
import Verif.Lemmas.FftExact
import Verif.Lemmas.Ieee
import Mathlib.Analysis.SpecialFunctions.Complex.Arg
import Mathlib.Analysis.SpecialFunctions.Pow.Complex
import Mathlib.Analysis.SpecialFunctions.Trigonometric.Basic
/-!
# Accuracy of the table of roots (C61)
-/

namespace Falcon

/-- The complex number an entry of the table stands for. -/
noncomputable def entryC (w : Int × Int) : ℂ := ⟨(w.1 : ℝ) / 10 ^ 17, (w.2 : ℝ) / 10 ^ 17⟩

/-- The check on two successive tables: entries `2i` and `2i+1` are opposite, the first has a positive real part, and its square is entry `i`
up to `1.8 * 10^-15`. -/
def levelOk : List (Int × Int) → List (Int × Int) → Bool
  | [], [] => true
  | z :: T, w :: w' :: T' =>
    w'.1 == -w.1 && w'.2 == -w.2 && decide (10 ^ 14 ≤ w.1) &&
      decide ((w.1 * w.1 - w.2 * w.2 - 10 ^ 17 * z.1) ^ 2 + (2 * w.1 * w.2 - 10 ^ 17 * z.2) ^ 2 ≤ (18 * 10 ^ 18) ^ 2) && levelOk T T'
  | _, _ => false

theorem level2 : levelOk phi4_roots phi8_roots = true := by decide +kernel
theorem level3 : levelOk phi8_roots phi16_roots = true := by decide +kernel
theorem level4 : levelOk phi16_roots phi32_roots = true := by decide +kernel
theorem level5 : levelOk phi32_roots phi64_roots = true := by decide +kernel
theorem level6 : levelOk phi64_roots phi128_roots = true := by decide +kernel
theorem level7 : levelOk phi128_roots phi256_roots = true := by decide +kernel
theorem level8 : levelOk phi256_roots phi512_roots = true := by decide +kernel
theorem level9 : levelOk phi512_roots phi1024_roots = true := by decide +kernel
theorem level10 : levelOk phi1024_roots phi2048_roots = true := by decide +kernel

theorem sqrt_re_nonneg (z : ℂ) (hz : z ≠ 0) : 0 ≤ (z ^ (2⁻¹ : ℂ)).re := by
  rw [Complex.cpow_def_of_ne_zero hz, Complex.exp_re]
  refine mul_nonneg (Real.exp_pos _).le (Real.cos_nonneg_of_mem_Icc ?_)
  have e : (Complex.log z * (2⁻¹ : ℂ)).im = z.arg / 2 := by
    rw [show (2⁻¹ : ℂ) = ((2⁻¹ : ℝ) : ℂ) by norm_num, Complex.im_mul_ofReal, Complex.log_im]
    ring
  rw [e]
  have h1 := Complex.neg_pi_lt_arg z
  have h2 := Complex.arg_le_pi z
  constructor <;> linarith

/-- One level of the error analysis: the error of a root is half the sum of the error of its square and the deviation of the square. -/
theorem level_step (z zt w om : ℂ) (hz : ‖z‖ = 1) (h1 : ‖zt - z‖ ≤ 2 / 10 ^ 15) (h2 : ‖w ^ 2 - zt‖ ≤ 18 / 10 ^ 16) (hw : 1 / 1000 ≤ w.re)
    (ho : om ^ 2 = z) (hr : 0 ≤ om.re) : ‖w - om‖ ≤ 2 / 10 ^ 15 := by
  have hs : ‖w ^ 2 - z‖ ≤ 38 / 10 ^ 16 := by
    calc ‖w ^ 2 - z‖ = ‖(w ^ 2 - zt) + (zt - z)‖ := by ring_nf
      _ ≤ _ := norm_add_le _ _
      _ ≤ _ := by norm_num at *; linarith
  have hp : ‖w - om‖ * ‖w + om‖ = ‖w ^ 2 - z‖ := by
    rw [← norm_mul, ← ho]
    congr 1
    ring
  have l1 : 1 / 1000 ≤ ‖w + om‖ := by
    refine le_trans ?_ (Complex.re_le_norm _)
    rw [Complex.add_re]
    linarith
  have hn : 0 ≤ ‖w - om‖ := norm_nonneg _
  have c1 : ‖w - om‖ ≤ 38 / 10 ^ 13 := by
    by_contra hc
    push Not at hc
    have : 38 / 10 ^ 13 * (1 / 1000) < ‖w - om‖ * ‖w + om‖ := by
      apply mul_lt_mul hc l1 (by norm_num) hn
    norm_num at *
    linarith
  have hom : ‖om‖ = 1 := by
    have : ‖om‖ ^ 2 = 1 := by rw [← norm_pow, ho, hz]
    have h0 := norm_nonneg om
    nlinarith
  have l2 : 2 - 38 / 10 ^ 13 ≤ ‖w + om‖ := by
    have e : (2 : ℂ) * om = (w + om) - (w - om) := by ring
    have := norm_sub_le (w + om) (w - om)
    rw [← e, norm_mul, hom] at this
    norm_num at *
    linarith
  by_contra hc
  push Not at hc
  have : 2 / 10 ^ 15 * (2 - 38 / 10 ^ 13) < ‖w - om‖ * ‖w + om‖ := by
    apply mul_lt_mul hc l2 (by norm_num) hn
  norm_num at *
  linarith

theorem entry_sq (w z : Int × Int) (h : (w.1 * w.1 - w.2 * w.2 - 10 ^ 17 * z.1) ^ 2 + (2 * w.1 * w.2 - 10 ^ 17 * z.2) ^ 2 ≤ (18 * 10 ^ 18) ^ 2) :
    ‖entryC w ^ 2 - entryC z‖ ≤ 18 / 10 ^ 16 := by
  have h' : (((w.1 : ℝ) * w.1 - w.2 * w.2 - 10 ^ 17 * z.1) ^ 2 + (2 * w.1 * w.2 - 10 ^ 17 * z.2) ^ 2) ≤ (18 * 10 ^ 18) ^ 2 := by exact_mod_cast h
  have e : entryC w ^ 2 - entryC z = ⟨((w.1 : ℝ) * w.1 - w.2 * w.2 - 10 ^ 17 * z.1) / 10 ^ 34, (2 * w.1 * w.2 - 10 ^ 17 * z.2) / 10 ^ 34⟩ := by
    unfold entryC
    rw [sq]
    apply Complex.ext
    · simp only [Complex.sub_re, Complex.mul_re]
      ring
    · simp only [Complex.sub_im, Complex.mul_im]
      ring
  rw [e, Complex.norm_def, Complex.normSq_mk]
  apply Real.sqrt_le_iff.2
  constructor
  · norm_num
  · generalize (w.1 : ℝ) * w.1 - w.2 * w.2 - 10 ^ 17 * z.1 = a at h'
    generalize 2 * (w.1 : ℝ) * w.2 - 10 ^ 17 * z.2 = b at h'
    rw [show a / 10 ^ 34 * (a / 10 ^ 34) + b / 10 ^ 34 * (b / 10 ^ 34) = (a ^ 2 + b ^ 2) / 10 ^ 68 by ring, div_le_iff₀ (by norm_num)]
    norm_num at *
    linarith

/-- Entry `i` of a table and the exact root agree up to `2 * 10^-15`. -/
def Accurate (k : Nat) (T : List (Int × Int)) (i : Nat) : Prop :=
  ∀ j, ∀ w ∈ T[j]?, ‖entryC w - rootC k (i + j)‖ ≤ 2 / 10 ^ 15

theorem Accurate.cons {k : Nat} {w : Int × Int} {T : List (Int × Int)} {i : Nat} (h : ‖entryC w - rootC k i‖ ≤ 2 / 10 ^ 15)
    (hT : Accurate k T (i + 1)) : Accurate k (w :: T) i := by
  intro j x hx
  cases j with
  | zero => simp only [List.getElem?_cons_zero, Option.mem_def, Option.some.injEq] at hx; subst hx; simpa using h
  | succ j =>
    simp only [List.getElem?_cons_succ] at hx
    have := hT j x hx
    rwa [show i + 1 + j = i + (j + 1) by omega] at this

theorem level_accurate (k : Nat) (T T' : List (Int × Int)) (i : Nat) (hT : Accurate k T i) (h : levelOk T T' = true) :
    Accurate (k + 1) T' (2 * i) := by
  induction T generalizing T' i with
  | nil =>
    match T', h with
    | [], _ => intro j w hw; simp at hw
  | cons z T ih =>
    match T', h with
    | w :: w' :: T', h =>
      simp only [levelOk, Bool.and_eq_true, beq_iff_eq, decide_eq_true_eq] at h
      obtain ⟨⟨⟨⟨n1, n2⟩, h3⟩, h4⟩, h5⟩ := h
      have hz : ‖entryC z - rootC k i‖ ≤ 2 / 10 ^ 15 := by simpa using hT 0 z (by simp)
      have hw : ‖entryC w - rootC (k + 1) (2 * i)‖ ≤ 2 / 10 ^ 15 := by
        have e : rootC (k + 1) (2 * i) = rootC k i ^ (2⁻¹ : ℂ) := by
          rw [rootC, if_pos (by omega), show 2 * i / 2 = i by omega]
        refine level_step (rootC k i) (entryC z) (entryC w) _ (rootC_norm k i) hz (entry_sq w z h4) ?_ ?_ ?_
        · have : (10 ^ 14 : ℝ) ≤ w.1 := by exact_mod_cast h3
          show 1 / 1000 ≤ (w.1 : ℝ) / 10 ^ 17
          rw [le_div_iff₀ (by norm_num)]
          norm_num at *
          linarith
        · rw [rootC_sq, show 2 * i / 2 = i by omega]
        · rw [e]
          exact sqrt_re_nonneg _ (rootC_ne_zero k i)
      have hw' : ‖entryC w' - rootC (k + 1) (2 * i + 1)‖ ≤ 2 / 10 ^ 15 := by
        have e : entryC w' = -entryC w := by
          unfold entryC
          rw [n1, n2]
          apply Complex.ext <;> simp [neg_div]
        rw [rootC_odd, e, show -entryC w - -rootC (k + 1) (2 * i) = -(entryC w - rootC (k + 1) (2 * i)) by ring, norm_neg]
        exact hw
      refine Accurate.cons hw (Accurate.cons hw' ?_)
      have hT' : Accurate k T (i + 1) := by
        intro j x hx
        have := hT (j + 1) x (by simpa using hx)
        rwa [show i + (j + 1) = i + 1 + j by omega] at this
      have := ih T' (i + 1) hT' h5
      rwa [show 2 * (i + 1) = 2 * i + 1 + 1 by omega] at this

theorem phi4_accurate : Accurate 1 phi4_roots 0 := by
  have e0 : entryC (0, 100000000000000000) = Complex.I := by
    unfold entryC; apply Complex.ext <;> norm_num
  have e1 : entryC (0, -100000000000000000) = -Complex.I := by
    unfold entryC; apply Complex.ext <;> norm_num
  have h1 : rootC 1 1 = -Complex.I := by rw [rootC_odd 0 0, rootC_one_zero]
  unfold phi4_roots
  refine Accurate.cons ?_ (Accurate.cons ?_ ?_)
  · rw [e0, rootC_one_zero]; norm_num
  · rw [e1, h1]; norm_num
  · intro j w hw; simp at hw

theorem table_accurate (k : Nat) (h1 : 1 ≤ k) (h2 : k ≤ 10) : Accurate k (fftRoots (2 ^ k)) 0 := by
  have a1 := phi4_accurate
  have a2 := level_accurate 1 _ _ 0 a1 level2
  have a3 := level_accurate 2 _ _ 0 a2 level3
  have a4 := level_accurate 3 _ _ 0 a3 level4
  have a5 := level_accurate 4 _ _ 0 a4 level5
  have a6 := level_accurate 5 _ _ 0 a5 level6
  have a7 := level_accurate 6 _ _ 0 a6 level7
  have a8 := level_accurate 7 _ _ 0 a7 level8
  have a9 := level_accurate 8 _ _ 0 a8 level9
  have a10 := level_accurate 9 _ _ 0 a9 level10
  have : k = 1 ∨ k = 2 ∨ k = 3 ∨ k = 4 ∨ k = 5 ∨ k = 6 ∨ k = 7 ∨ k = 8 ∨ k = 9 ∨ k = 10 := by omega
  rcases this with rfl | rfl | rfl | rfl | rfl | rfl | rfl | rfl | rfl | rfl
  exacts [a1, a2, a3, a4, a5, a6, a7, a8, a9, a10]

theorem table_length (k : Nat) (h1 : 1 ≤ k) (h2 : k ≤ 10) : (fftRoots (2 ^ k)).length = 2 ^ k := by
  have : k = 1 ∨ k = 2 ∨ k = 3 ∨ k = 4 ∨ k = 5 ∨ k = 6 ∨ k = 7 ∨ k = 8 ∨ k = 9 ∨ k = 10 := by omega
  rcases this with rfl | rfl | rfl | rfl | rfl | rfl | rfl | rfl | rfl | rfl <;> decide +kernel

/-- C61: the table has a key for exactly the degrees `2, 4, ..., 1024`, with as many entries as the degree. -/
theorem C61_keys (n : Nat) : (fftRoots n).length = if isRootKey n then n else 0 := by
  by_cases h : isRootKey n = true
  · rw [if_pos h]
    unfold isRootKey at h
    simp only [Bool.or_eq_true, decide_eq_true_eq] at h
    rcases h with ((((((((rfl | rfl) | rfl) | rfl) | rfl) | rfl) | rfl) | rfl) | rfl) | rfl
    exacts [table_length 1 (by omega) (by omega), table_length 2 (by omega) (by omega), table_length 3 (by omega) (by omega),
      table_length 4 (by omega) (by omega), table_length 5 (by omega) (by omega), table_length 6 (by omega) (by omega),
      table_length 7 (by omega) (by omega), table_length 8 (by omega) (by omega), table_length 9 (by omega) (by omega),
      table_length 10 (by omega) (by omega)]
  · rw [if_neg h]
    unfold isRootKey at h
    simp only [Bool.or_eq_true, decide_eq_true_eq, not_or] at h
    unfold fftRoots
    simp [h]

/-- C61: every entry of every table is the exact root of `x^n+1` of its index, up to `2 * 10^-15`. -/
theorem C61_accurate (k : Nat) (h1 : 1 ≤ k) (h2 : k ≤ 10) (i : Nat) (hi : i < 2 ^ k) :
    ‖(⟨((fftRoot (2 ^ k) i).1 : ℝ), ((fftRoot (2 ^ k) i).2 : ℝ)⟩ : ℂ) - rootC k i‖ ≤ 2 / 10 ^ 15 := by
  have hl := table_length k h1 h2
  have h := table_accurate k h1 h2 i ((fftRoots (2 ^ k)).getD i (0, 0)) (by
    rw [Option.mem_def, List.getD_eq_getElem?_getD, List.getElem?_eq_getElem (by omega), Option.getD_some])
  rw [Nat.zero_add] at h
  unfold entryC at h
  unfold fftRoot
  simp only [Rat.mkRat_eq_div]
  push_cast
  norm_num at h ⊢
  exact h

/-- The exact roots are the roots of `x^n+1`, all of them and in this order; so the table is not just accurate for some numbers. -/
example : rootC 2 0 ^ 4 = -1 ∧ rootC 2 1 = -rootC 2 0 := ⟨rootC_pow 2 0, rootC_odd 1 0⟩

end Falcon
