import Verif.Props.Ldl
import Verif.Lemmas.BabaiNear
/-!
# The nearest-plane recursion in exact arithmetic

Vectors of length `2^k` are written as the values of a function at the roots of `x^(2^k)+1`.
-/

namespace Falcon
open Spec Polynomial ComplexConjugate Matrix

/-- The values of `A` at the roots, in the order of the table. -/
noncomputable def vals (k : Nat) (A : ℂ → ℂ) : List ℂ := (rootsC k).map A

theorem vals_length (k : Nat) (A : ℂ → ℂ) : (vals k A).length = 2 ^ k := by simp [vals, rootsC_length]

theorem vals_congr (k : Nat) (A B : ℂ → ℂ) (h : ∀ w, w ^ 2 ^ k = -1 → A w = B w) : vals k A = vals k B := by
  apply List.map_congr_left
  intro w hw
  exact h w (rootsC_root k w hw)

theorem vals_surj (k : Nat) (v : List ℂ) (hv : v.length = 2 ^ k) : ∃ A, v = vals k A := by
  obtain ⟨A, h⟩ := exists_values k v hv
  refine ⟨A, h.trans ?_⟩
  rw [vals, rootsC, List.map_map, List.range_eq_range']
  rfl

/-- The part of even degree. -/
noncomputable def Ev (A : ℂ → ℂ) (v : ℂ) : ℂ := (A (v ^ (2⁻¹ : ℂ)) + A (-(v ^ (2⁻¹ : ℂ)))) / 2

/-- The part of odd degree. -/
noncomputable def Od (A : ℂ → ℂ) (v : ℂ) : ℂ := (A (v ^ (2⁻¹ : ℂ)) - A (-(v ^ (2⁻¹ : ℂ)))) / (2 * v ^ (2⁻¹ : ℂ))

theorem sqrt_sq (v : ℂ) : (v ^ (2⁻¹ : ℂ)) ^ 2 = v := by
  have := Complex.cpow_nat_inv_pow v (n := 2) (by norm_num)
  simpa using this

theorem Ev_sq (A : ℂ → ℂ) (w : ℂ) : Ev A (w ^ 2) = (A w + A (-w)) / 2 := by
  unfold Ev
  rcases sq_eq_sq_iff_eq_or_eq_neg.1 (sqrt_sq (w ^ 2)) with h | h
  · rw [h]
  · rw [h, neg_neg, add_comm]

theorem Od_sq (A : ℂ → ℂ) (w : ℂ) : Od A (w ^ 2) = (A w - A (-w)) / (2 * w) := by
  unfold Od
  rcases sq_eq_sq_iff_eq_or_eq_neg.1 (sqrt_sq (w ^ 2)) with h | h
  · rw [h]
  · rw [h, neg_neg, mul_neg, div_neg, ← neg_div, neg_sub]

theorem ev_od (A : ℂ → ℂ) (w : ℂ) (hw : w ≠ 0) : Ev A (w ^ 2) + w * Od A (w ^ 2) = A w := by
  rw [Ev_sq, Od_sq]
  field_simp
  ring

theorem root_ne_zero (k : Nat) (w : ℂ) (hw : w ^ 2 ^ k = -1) : w ≠ 0 := by
  rintro rfl
  rw [zero_pow (by positivity)] at hw
  norm_num at hw

theorem root_sq (k : Nat) (w : ℂ) (hw : w ^ 2 ^ (k + 1) = -1) : (w ^ 2) ^ 2 ^ k = -1 := by
  rw [← pow_mul, ← pow_succ']; exact hw

theorem root_neg (k : Nat) (w : ℂ) (hw : w ^ 2 ^ (k + 1) = -1) : (-w) ^ 2 ^ (k + 1) = -1 := by
  rw [Even.neg_pow ⟨2 ^ k, by rw [pow_succ]; ring⟩]; exact hw

theorem root_sqrt (k : Nat) (v : ℂ) (hv : v ^ 2 ^ k = -1) : ∃ w : ℂ, w ^ 2 ^ (k + 1) = -1 ∧ w ^ 2 = v :=
  ⟨v ^ (2⁻¹ : ℂ), by rw [pow_succ', pow_mul, sqrt_sq, hv], sqrt_sq v⟩

theorem root_conj (k : Nat) (w : ℂ) (hw : w ^ 2 ^ k = -1) : (conj w) ^ 2 ^ k = -1 := by
  rw [← map_pow, hw]; simp

theorem root_unit (k : Nat) (w : ℂ) (hw : w ^ 2 ^ k = -1) : w * conj w = 1 := by
  have := (mem_rootsC k w).2 hw
  simp only [rootsC, List.mem_map] at this
  obtain ⟨i, _, rfl⟩ := this
  exact rootC_conj k i

theorem split_vals (k : Nat) (h2 : k + 1 ≤ 10) (A : ℂ → ℂ) : SplitFFT exactOps (vals (k + 1) A) = .ok (vals k (Ev A), vals k (Od A)) := by
  have e : vals (k + 1) A = vals (k + 1) fun w => Ev A (w ^ 2) + w * Od A (w ^ 2) :=
    vals_congr _ _ _ fun w hw => (ev_od A w (root_ne_zero _ w hw)).symm
  rw [e]
  unfold SplitFFT
  rw [vals_length]
  have hm := split_exact k h2 (Ev A) (Od A) (2 ^ k) 0 (by omega)
  unfold vals rootsC
  rw [List.map_map, List.map_map, List.map_map, List.range_eq_range', List.range_eq_range']
  refine Eq.trans ?_ hm
  rw [show 2 * 0 = 0 by rfl, show 2 * 2 ^ k = 2 ^ (k + 1) by ring]
  rfl

theorem merge_vals (k : Nat) (h2 : k + 1 ≤ 10) (A B : ℂ → ℂ) :
    MergeFFT exactOps (vals k A, vals k B) = .ok (vals (k + 1) fun w => A (w ^ 2) + w * B (w ^ 2)) := by
  unfold MergeFFT
  simp only [vals_length]
  rw [show 2 * 2 ^ k = 2 ^ (k + 1) by ring]
  have hm := merge_exact k h2 A B (2 ^ k) 0 (by omega)
  unfold vals rootsC
  rw [List.map_map, List.map_map, List.map_map, List.range_eq_range', List.range_eq_range']
  refine hm.trans ?_
  rw [show 2 * 0 = 0 by rfl, show 2 * 2 ^ k = 2 ^ (k + 1) by ring]
  rfl

theorem zip_vals (k : Nat) (op : ℂ → ℂ → ℂ) (A B : ℂ → ℂ) : List.zipWith op (vals k A) (vals k B) = vals k fun w => op (A w) (B w) := by
  simp only [vals, List.zipWith_map]
  generalize rootsC k = l
  induction l with
  | nil => rfl
  | cons a l ih => simp [ih]

theorem add_vals (k : Nat) (A B : ℂ → ℂ) : AddFFT exactOps (vals k A) (vals k B) = .ok (vals k fun w => A w + B w) := by
  unfold AddFFT
  rw [if_neg (by simp [vals_length]), zip_vals]

theorem neg_vals (k : Nat) (A : ℂ → ℂ) : NegFFT exactOps (vals k A) = vals k fun w => -A w := by
  simp [NegFFT, vals]

theorem sub_vals (k : Nat) (A B : ℂ → ℂ) : SubFFT exactOps (vals k A) (vals k B) = .ok (vals k fun w => A w - B w) := by
  unfold SubFFT
  rw [neg_vals, add_vals]
  rfl

theorem mul_vals (k : Nat) (A B : ℂ → ℂ) : MulFFT exactOps (vals k A) (vals k B) = .ok (vals k fun w => A w * B w) := by
  unfold MulFFT
  rw [if_neg (by simp [vals_length]), zip_vals]

theorem div_vals (k : Nat) (A B : ℂ → ℂ) : DivFFT exactOps (vals k A) (vals k B) = .ok (vals k fun w => A w / B w) := by
  unfold DivFFT
  rw [if_neg (by simp [vals_length]), zip_vals]

theorem adj_vals (k : Nat) (A : ℂ → ℂ) : AdjFFT exactOps (vals k A) = vals k fun w => conj (A w) := by
  simp [AdjFFT, vals]

/-- The values of a real polynomial: conjugate roots have conjugate values. -/
def RealF (k : Nat) (A : ℂ → ℂ) : Prop := ∀ w, w ^ 2 ^ k = -1 → A (conj w) = conj (A w)

theorem RealF.ev {k : Nat} {A : ℂ → ℂ} (h : RealF (k + 1) A) : RealF k (Ev A) := by
  intro v hv
  obtain ⟨w, hw, rfl⟩ := root_sqrt k v hv
  rw [map_pow, Ev_sq, Ev_sq, ← map_neg, h w hw, h (-w) (root_neg k w hw)]
  simp [map_ofNat]

theorem RealF.od {k : Nat} {A : ℂ → ℂ} (h : RealF (k + 1) A) : RealF k (Od A) := by
  intro v hv
  obtain ⟨w, hw, rfl⟩ := root_sqrt k v hv
  rw [map_pow, Od_sq, Od_sq, ← map_neg, h w hw, h (-w) (root_neg k w hw)]
  simp [map_ofNat]

theorem RealF.evalR (k : Nat) (f : List ℝ) : RealF k (evalR f) := fun w _ => evalR_conj f w

theorem RealF.sub {k : Nat} {A B : ℂ → ℂ} (h : RealF k A) (h' : RealF k B) : RealF k fun w => A w - B w := by
  intro w hw
  simp only [h w hw, h' w hw, map_sub]

theorem RealF.add {k : Nat} {A B : ℂ → ℂ} (h : RealF k A) (h' : RealF k B) : RealF k fun w => A w + B w := by
  intro w hw
  simp only [h w hw, h' w hw, map_add]

theorem RealF.mul {k : Nat} {A B : ℂ → ℂ} (h : RealF k A) (h' : RealF k B) : RealF k fun w => A w * B w := by
  intro w hw
  simp only [h w hw, h' w hw, map_mul]

theorem RealF.div {k : Nat} {A B : ℂ → ℂ} (h : RealF k A) (h' : RealF k B) : RealF k fun w => A w / B w := by
  intro w hw
  simp only [h w hw, h' w hw, map_div₀]

theorem RealF.conj {k : Nat} {A : ℂ → ℂ} (h : RealF k A) : RealF k fun w => conj (A w) := by
  intro w hw
  simp only [h w hw]

/-- At degree 1 the only root is `-1`, and the value of a real polynomial is real. -/
theorem RealF.zero {A : ℂ → ℂ} (h : RealF 0 A) : A (-1) = ((A (-1)).re : ℂ) := by
  have := h (-1) (by norm_num)
  rw [map_neg, map_one] at this
  exact (Complex.conj_eq_iff_re.1 this.symm).symm

/-- The mean of a function over the roots. -/
noncomputable def mean (k : Nat) (f : ℂ → ℝ) : ℝ := (∑ j ∈ Finset.range (2 ^ k), f (rootC k j)) / 2 ^ k

theorem rootC_root (k j : Nat) : rootC k j ^ 2 ^ k = -1 := rootC_pow k j

theorem mean_congr (k : Nat) (f g : ℂ → ℝ) (h : ∀ w, w ^ 2 ^ k = -1 → f w = g w) : mean k f = mean k g := by
  unfold mean
  congr 1
  exact Finset.sum_congr rfl fun j _ => h _ (rootC_root k j)

theorem mean_le (k : Nat) (f g : ℂ → ℝ) (h : ∀ w, w ^ 2 ^ k = -1 → f w ≤ g w) : mean k f ≤ mean k g := by
  unfold mean
  gcongr with j _
  exact h _ (rootC_root k j)

theorem mean_add (k : Nat) (f g : ℂ → ℝ) : mean k (fun w => f w + g w) = mean k f + mean k g := by
  unfold mean
  rw [Finset.sum_add_distrib, add_div]

theorem mean_smul (k : Nat) (c : ℝ) (f : ℂ → ℝ) : mean k (fun w => c * f w) = c * mean k f := by
  unfold mean
  rw [← Finset.mul_sum, mul_div_assoc]

theorem mean_zero (f : ℂ → ℝ) : mean 0 f = f (-1) := by
  simp [mean, rootC]

theorem sum_pairs (m : Nat) (f : Nat → ℝ) : ∑ j ∈ Finset.range (2 * m), f j = ∑ j ∈ Finset.range m, (f (2 * j) + f (2 * j + 1)) := by
  induction m with
  | zero => simp
  | succ m ih =>
    rw [show 2 * (m + 1) = 2 * m + 1 + 1 by ring, Finset.sum_range_succ, Finset.sum_range_succ, ih, Finset.sum_range_succ]
    ring

theorem prod_pairs (m : Nat) (f : Nat → ℝ) : ∏ j ∈ Finset.range (2 * m), f j = ∏ j ∈ Finset.range m, (f (2 * j) * f (2 * j + 1)) := by
  induction m with
  | zero => simp
  | succ m ih =>
    rw [show 2 * (m + 1) = 2 * m + 1 + 1 by ring, Finset.prod_range_succ, Finset.prod_range_succ, ih, Finset.prod_range_succ]
    ring

/-- The roots of degree `2^(k+1)` are the square roots of the roots of degree `2^k`. -/
theorem mean_split (k : Nat) (f g : ℂ → ℝ) (h : ∀ w, w ^ 2 ^ (k + 1) = -1 → f w + f (-w) = 2 * g (w ^ 2)) : mean (k + 1) f = mean k g := by
  unfold mean
  rw [show 2 ^ (k + 1) = 2 * 2 ^ k by ring, sum_pairs]
  have : ∀ j, f (rootC (k + 1) (2 * j)) + f (rootC (k + 1) (2 * j + 1)) = 2 * g (rootC k j) := by
    intro j
    rw [rootC_odd, h _ (rootC_root _ _), rootC_sq]
    congr 3
    omega
  simp only [this]
  rw [← Finset.mul_sum]
  have : (0 : ℝ) < 2 ^ k := by positivity
  rw [show (2 : ℝ) ^ (k + 1) = 2 * 2 ^ k by ring]
  field_simp

/-- The product of a function over the roots. -/
noncomputable def rprod (k : Nat) (f : ℂ → ℝ) : ℝ := ∏ j ∈ Finset.range (2 ^ k), f (rootC k j)

theorem rprod_congr (k : Nat) (f g : ℂ → ℝ) (h : ∀ w, w ^ 2 ^ k = -1 → f w = g w) : rprod k f = rprod k g :=
  Finset.prod_congr rfl fun j _ => h _ (rootC_root k j)

theorem rprod_mul (k : Nat) (f g : ℂ → ℝ) : rprod k (fun w => f w * g w) = rprod k f * rprod k g := Finset.prod_mul_distrib

theorem rprod_split (k : Nat) (f g : ℂ → ℝ) (h : ∀ w, w ^ 2 ^ (k + 1) = -1 → f w * f (-w) = g (w ^ 2)) : rprod (k + 1) f = rprod k g := by
  unfold rprod
  rw [show 2 ^ (k + 1) = 2 * 2 ^ k by ring, prod_pairs]
  apply Finset.prod_congr rfl
  intro j _
  rw [rootC_odd, h _ (rootC_root _ _), rootC_sq]
  congr 2
  omega

end Falcon
