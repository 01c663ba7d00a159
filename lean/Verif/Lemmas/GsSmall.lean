import Verif.Props.GsFloat
/-!
# The quality check of key generation at the smaller degrees

The bounds of `GsNear` with the degree kept as a parameter: `m` is the number of coefficients.
-/

namespace Falcon
open Spec Polynomial ComplexConjugate F64

/-- The product with the computed adjoint. -/
theorem gram_half_n (k : Nat) (h1 : 1 ≤ k) (h2 : k ≤ 10) (f : List F64) (hf : f.length = 2 ^ k) (hfin : ∀ x ∈ f, x.isFinite = true) (S : ℝ)
    (hS : l1 (f.map R) + 1 ≤ S) (hS2 : S ≤ 10 ^ 6) :
    ∃ af ff, Adj ieeeOps f = .ok af ∧ Mul ieeeOps f af = .ok ff ∧ af.length = 2 ^ k ∧ ff.length = 2 ^ k ∧ (∀ x ∈ af, x.isFinite = true) ∧
      (∀ x ∈ ff, x.isFinite = true) ∧ l1 (af.map R) ≤ S ∧ (∀ x ∈ ff, |R x| ≤ S ^ 2 + 1) ∧
      (∀ w ∈ rootsC k, ‖evalR (af.map R) w - conj (evalR (f.map R) w)‖ ≤ 2 ^ k * (7 / 10 ^ 14 * S)) ∧
      ∀ w ∈ rootsC k, ‖evalR (ff.map R) w - (Complex.normSq (evalR (f.map R) w) : ℂ)‖ ≤ 2 ^ k * (172 / 10 ^ 15 * S ^ 2) := by
  have l0 := l1_nonneg (f.map R)
  have S0 : 0 ≤ S := by linarith
  have hlen : (f.map R).length = 2 ^ k := by rw [List.length_map, hf]
  have hk : (2 : ℝ) ^ k ≤ 1024 := (pow_le_pow_right₀ (by norm_num) h2).trans (by norm_num)
  have k0 : (0 : ℝ) < 2 ^ k := by positivity
  obtain ⟨af, eaf, naf⟩ := Adj_near k h1 h2 f hf hfin S hS (by linarith)
  have laf : af.length = 2 ^ k := by rw [naf.length_eq, adjList_length, hlen]
  have adjl : (adjList (f.map R)).length = 2 ^ k := by rw [adjList_length, hlen]
  have haf := near_l1 naf
  rw [adjl, adjList_l1] at haf
  push_cast at haf
  have m1 : (2 : ℝ) ^ k * (7 / 10 ^ 14 * S) ≤ 1024 * (7 / 10 ^ 14 * S) := mul_le_mul_of_nonneg_right hk (by positivity)
  have laS : l1 (af.map R) ≤ S := by linarith
  obtain ⟨p, lp, dp⟩ := exists_mod k (poly (f.map R) * poly (af.map R))
  obtain ⟨ff, eff, nff⟩ := Mul_near k h1 h2 f af hf laf hfin (near_finite naf) S S (by linarith) laS (by linarith) (by linarith) p lp dp
  have vp : ∀ w ∈ rootsC k, evalR p w = evalR (f.map R) w * evalR (af.map R) w := by
    intro w hw
    have h3 := evalR_dvd k _ dp w hw
    rw [eval₂_sub, eval₂_mul, ← evalR_eq, ← evalR_eq, ← evalR_eq, sub_eq_zero] at h3
    exact h3.symm
  have em : 1 / 10 ^ 13 * (S * S) + 1 / 10 ^ 100 * (S + S + 1) ≤ 101 / 10 ^ 15 * S ^ 2 := by nlinarith
  have S2 : S ^ 2 ≤ (10 ^ 6) ^ 2 := pow_le_pow_left₀ S0 hS2 2
  have pb := coef_le k p lp (S ^ 2) (by positivity) (by
    intro w hw
    rw [vp w hw, norm_mul, pow_two]
    have w1 := rootsC_norm k w hw
    exact mul_le_mul ((evalR_norm _ w w1).trans (by linarith)) ((evalR_norm _ w w1).trans laS) (norm_nonneg _) S0)
  have aw : ∀ w ∈ rootsC k, ‖evalR (af.map R) w - conj (evalR (f.map R) w)‖ ≤ 2 ^ k * (7 / 10 ^ 14 * S) := by
    intro w hw
    have := near_eval naf w (rootsC_norm k w hw)
    rw [adjl, evalR_adj k _ hlen w hw] at this
    push_cast at this
    linarith
  have lff : ff.length = 2 ^ k := by rw [nff.length_eq, lp]
  refine ⟨af, ff, eaf, eff, laf, lff, near_finite naf, near_finite nff, laS, ?_, aw, ?_⟩
  · intro x hx
    obtain ⟨i, hi, rfl⟩ := List.getElem_of_mem hx
    have hi' : i < p.length := by rw [lp, ← lff]; exact hi
    have h3 := nff.get hi hi'
    simp only [List.get_eq_getElem] at h3
    have h4 := pb _ (List.getElem_mem hi')
    have h5 := abs_sub_abs_le_abs_sub (R ff[i]) p[i]
    have h6 := h3.2
    norm_num at S2 em h6 h4 ⊢
    linarith
  · intro w hw
    have w1 := rootsC_norm k w hw
    have h3 := near_eval nff w w1
    rw [lp, vp w hw] at h3
    push_cast at h3
    have h4 : (2 : ℝ) ^ k * (1 / 10 ^ 13 * (S * S) + 1 / 10 ^ 100 * (S + S + 1)) ≤ 2 ^ k * (101 / 10 ^ 15 * S ^ 2) :=
      mul_le_mul_of_nonneg_left em k0.le
    have h5 : ‖evalR (f.map R) w * evalR (af.map R) w - (Complex.normSq (evalR (f.map R) w) : ℂ)‖ ≤ S * (2 ^ k * (7 / 10 ^ 14 * S)) := by
      rw [← Complex.mul_conj, ← mul_sub, norm_mul]
      exact mul_le_mul ((evalR_norm _ w w1).trans (by linarith)) (aw w hw) (norm_nonneg _) S0
    have h6 := norm_add_le (evalR (ff.map R) w - evalR (f.map R) w * evalR (af.map R) w)
      (evalR (f.map R) w * evalR (af.map R) w - (Complex.normSq (evalR (f.map R) w) : ℂ))
    rw [sub_add_sub_cancel] at h6
    have h7 : S * (2 ^ k * (7 / 10 ^ 14 * S)) = 2 ^ k * (70 / 10 ^ 15 * S ^ 2) := by ring
    have h8 : 0 ≤ (2 : ℝ) ^ k * S ^ 2 := by positivity
    linarith

/-- The sums of the absolute values of a short pair. -/
theorem short_l1_n (n : Nat) (f g : List ℝ) (hf : f.length = n) (hg : g.length = n) (hn : sqNorm f + sqNorm g ≤ 16822) (m : ℝ) (hm : m = n) (m2 : 2 ≤ m) :
    (l1 f + 1) ^ 2 + (l1 g + 1) ^ 2 ≤ 17100 * m ∧ l1 f + 1 ≤ 131 * m ∧ l1 g + 1 ≤ 131 * m := by
  have l0 := l1_nonneg f
  have l0' := l1_nonneg g
  have qf := l1_sq_le f
  have qg := l1_sq_le g
  rw [hf, ← hm] at qf
  rw [hg, ← hm] at qg
  set A := l1 f
  set B := l1 g
  have AB : A ^ 2 + B ^ 2 ≤ 16822 * m := by
    have := mul_le_mul_of_nonneg_left hn (by linarith : 0 ≤ m)
    linarith
  have AB2 : A + B ≤ 139 * m - 1 := by
    apply (abs_le_of_sq_le_sq' _ (by linarith)).2
    nlinarith [sq_nonneg (A - B)]
  have hS : (A + 1) ^ 2 + (B + 1) ^ 2 ≤ 17100 * m := by nlinarith
  have one : ∀ x : ℝ, 0 ≤ x → x ^ 2 ≤ 17100 * m → x ≤ 131 * m := by
    intro x _ hx
    apply (abs_le_of_sq_le_sq' _ (by linarith)).2
    nlinarith
  exact ⟨hS, one _ (by linarith) (by linarith [sq_nonneg (B + 1)]), one _ (by linarith) (by linarith [sq_nonneg (A + 1)])⟩

/-- The computed `f f* + g g*`. -/
theorem gram_near_n (k : Nat) (h1 : 1 ≤ k) (h2 : k ≤ 10) (f g : List F64) (hf : f.length = 2 ^ k) (hg : g.length = 2 ^ k)
    (ff : ∀ x ∈ f, x.isFinite = true) (fg : ∀ x ∈ g, x.isFinite = true) (hn : sqNorm (f.map R) + sqNorm (g.map R) ≤ 16822) (m : ℝ) (hm : m = 2 ^ k) :
    ∃ af pf ag pg D, Adj ieeeOps f = .ok af ∧ Mul ieeeOps f af = .ok pf ∧ Adj ieeeOps g = .ok ag ∧ Mul ieeeOps g ag = .ok pg ∧
      Add ieeeOps pf pg = .ok D ∧ af.length = 2 ^ k ∧ ag.length = 2 ^ k ∧ D.length = 2 ^ k ∧ (∀ x ∈ af, x.isFinite = true) ∧
      (∀ x ∈ ag, x.isFinite = true) ∧ (∀ x ∈ D, x.isFinite = true) ∧ l1 (af.map R) + 1 ≤ 132 * m ∧ l1 (ag.map R) + 1 ≤ 132 * m ∧ l1 (D.map R) + 1 ≤ 17200 * m ∧
      (∀ w ∈ rootsC k, ‖evalR (af.map R) w - conj (evalR (f.map R) w)‖ ≤ 93 / 10 ^ 13 * m ^ 2) ∧
      (∀ w ∈ rootsC k, ‖evalR (ag.map R) w - conj (evalR (g.map R) w)‖ ≤ 93 / 10 ^ 13 * m ^ 2) ∧
      ∀ w ∈ rootsC k, ‖evalR (D.map R) w - ((Complex.normSq (evalR (f.map R) w) + Complex.normSq (evalR (g.map R) w) : ℝ) : ℂ)‖ ≤ 295 / 10 ^ 11 * m ^ 2 := by
  have l0 := l1_nonneg (f.map R)
  have l0' := l1_nonneg (g.map R)
  have m2 : 2 ≤ m := by
    rw [hm]
    exact (by norm_num : (2 : ℝ) ≤ 2 ^ 1).trans (pow_le_pow_right₀ (by norm_num) h1)
  have mk : m ≤ 1024 := by
    rw [hm]
    exact (pow_le_pow_right₀ (by norm_num) h2).trans (by norm_num)
  obtain ⟨hS, A131, B131⟩ := short_l1_n (2 ^ k) (f.map R) (g.map R) (by rw [List.length_map, hf]) (by rw [List.length_map, hg]) hn m (by rw [hm]; push_cast; rfl) m2
  set A := l1 (f.map R) with hA
  set B := l1 (g.map R) with hB
  obtain ⟨af, pf, e1, e2, laf, lpf, faf, fpf, baf, bpf, vaf, vpf⟩ := gram_half_n k h1 h2 f hf ff _ le_rfl (by rw [← hA]; linarith)
  obtain ⟨ag, pg, e3, e4, lag, lpg, fag, fpg, bag, bpg, vag, vpg⟩ := gram_half_n k h1 h2 g hg fg _ le_rfl (by rw [← hB]; linarith)
  rw [← hA] at baf bpf vaf vpf
  rw [← hB] at bag bpg vag vpg
  rw [← hm] at vaf vpf vag vpg
  have bA : (A + 1) ^ 2 + 1 ≤ 17101 * m := by linarith [sq_nonneg (B + 1)]
  have bB : (B + 1) ^ 2 + 1 ≤ 17101 * m := by linarith [sq_nonneg (A + 1)]
  have nD := add_list_near (17101 * m) (by linarith) pf pg (fun x hx => ⟨fpf x hx, (bpf x hx).trans bA⟩) (fun x hx => ⟨fpg x hx, (bpg x hx).trans bB⟩) (by rw [lpf, lpg])
  set D := List.zipWith F64.add pf pg with hD
  have lD : D.length = 2 ^ k := by rw [hD, List.length_zipWith, lpf, lpg, min_self]
  have lz : (List.zipWith (· + ·) (pf.map R) (pg.map R)).length = 2 ^ k := by simp [lpf, lpg]
  have vD : ∀ w ∈ rootsC k, ‖evalR (D.map R) w - ((Complex.normSq (evalR (f.map R) w) + Complex.normSq (evalR (g.map R) w) : ℝ) : ℂ)‖ ≤ 295 / 10 ^ 11 * m ^ 2 := by
    intro w hw
    have h3 := near_eval nD w (rootsC_norm k w hw)
    rw [lz, evalR_zipAdd _ _ (by simp [lpf, lpg])] at h3
    push_cast at h3
    rw [← hm] at h3
    have u1 := uu_le
    have u0 := uu_pos
    have t1 := et_le
    have t0 := et_pos
    have h4 : m * (3 * uu * (17101 * m) + et) ≤ m * (6 / 10 ^ 12 * m) := by
      apply mul_le_mul_of_nonneg_left _ (by linarith)
      have : uu * m ≤ 1 / 9 / 10 ^ 15 * m := mul_le_mul_of_nonneg_right u1 (by linarith)
      linarith
    have h5 := vpf w hw
    have h6 := vpg w hw
    have h7 : m * (172 / 10 ^ 15 * (A + 1) ^ 2) + m * (172 / 10 ^ 15 * (B + 1) ^ 2) ≤ m * (172 / 10 ^ 15 * (17100 * m)) := by
      rw [← mul_add, ← mul_add]
      exact mul_le_mul_of_nonneg_left (mul_le_mul_of_nonneg_left hS (by norm_num)) (by linarith)
    have t := norm_add_le (evalR (D.map R) w - (evalR (pf.map R) w + evalR (pg.map R) w))
      (evalR (pf.map R) w - (Complex.normSq (evalR (f.map R) w) : ℂ) + (evalR (pg.map R) w - (Complex.normSq (evalR (g.map R) w) : ℂ)))
    have t2 := norm_add_le (evalR (pf.map R) w - (Complex.normSq (evalR (f.map R) w) : ℂ)) (evalR (pg.map R) w - (Complex.normSq (evalR (g.map R) w) : ℂ))
    rw [show evalR (D.map R) w - (evalR (pf.map R) w + evalR (pg.map R) w) + (evalR (pf.map R) w - (Complex.normSq (evalR (f.map R) w) : ℂ) +
      (evalR (pg.map R) w - (Complex.normSq (evalR (g.map R) w) : ℂ))) = evalR (D.map R) w - ((Complex.normSq (evalR (f.map R) w) : ℂ) + (Complex.normSq (evalR (g.map R) w) : ℂ)) by ring] at t
    rw [Complex.ofReal_add]
    have h8 : 0 ≤ m ^ 2 := sq_nonneg m
    have e8 : m * (6 / 10 ^ 12 * m) = 6 / 10 ^ 12 * m ^ 2 := by ring
    have e9 : m * (172 / 10 ^ 15 * (17100 * m)) = 172 / 10 ^ 15 * 17100 * m ^ 2 := by ring
    linarith
  have ld : l1 (D.map R) ≤ 17101 * m := by
    have lDr : (D.map R).length = 2 ^ k := by rw [List.length_map, lD]
    have p1 := parseval k (D.map R) lDr
    have p2 := parseval k (f.map R) (by rw [List.length_map, hf])
    have p3 := parseval k (g.map R) (by rw [List.length_map, hg])
    have p4 : ∑ i ∈ Finset.range (2 ^ k), Complex.normSq (evalR (D.map R) (rootC k i)) ≤
        ∑ i ∈ Finset.range (2 ^ k), ((17100 * m + 1) * (Complex.normSq (evalR (f.map R) (rootC k i)) + Complex.normSq (evalR (g.map R) (rootC k i))) + 1) := by
      apply Finset.sum_le_sum
      intro i hi
      have hr : rootC k i ∈ rootsC k := by
        simp only [rootsC, List.mem_map]
        exact ⟨i, List.mem_range.2 (Finset.mem_range.1 hi), rfl⟩
      have w1 := rootsC_norm k _ hr
      have h3 := vD _ hr
      have d0 : 0 ≤ Complex.normSq (evalR (f.map R) (rootC k i)) + Complex.normSq (evalR (g.map R) (rootC k i)) :=
        add_nonneg (Complex.normSq_nonneg _) (Complex.normSq_nonneg _)
      have d1 : Complex.normSq (evalR (f.map R) (rootC k i)) + Complex.normSq (evalR (g.map R) (rootC k i)) ≤ 17100 * m := by
        rw [Complex.normSq_eq_norm_sq, Complex.normSq_eq_norm_sq]
        have a1 := pow_le_pow_left₀ (norm_nonneg _) (evalR_norm (f.map R) _ w1) 2
        have a2 := pow_le_pow_left₀ (norm_nonneg _) (evalR_norm (g.map R) _ w1) 2
        rw [← hA] at a1
        rw [← hB] at a2
        linarith
      generalize Complex.normSq (evalR (f.map R) (rootC k i)) + Complex.normSq (evalR (g.map R) (rootC k i)) = d at h3 d0 d1 ⊢
      have h4 := norm_sub_norm_le (evalR (D.map R) (rootC k i)) (d : ℂ)
      rw [Complex.norm_real, Real.norm_eq_abs, abs_of_nonneg d0] at h4
      rw [Complex.normSq_eq_norm_sq]
      have n0 := norm_nonneg (evalR (D.map R) (rootC k i))
      have h5 : 295 / 10 ^ 11 * m ^ 2 ≤ 1 / 100 := by nlinarith
      have h6 : ‖evalR (D.map R) (rootC k i)‖ ≤ d + 1 / 100 := by linarith
      have h7 := pow_le_pow_left₀ n0 h6 2
      have h8 : d * d ≤ 17100 * m * d := mul_le_mul_of_nonneg_right d1 d0
      nlinarith
    rw [Finset.sum_add_distrib, ← Finset.mul_sum, Finset.sum_add_distrib, p1, p2, p3, Finset.sum_const, Finset.card_range, nsmul_eq_mul] at p4
    push_cast at p4
    rw [← hm] at p4
    have p5 : sqNorm (D.map R) ≤ (17100 * m + 1) * (sqNorm (f.map R) + sqNorm (g.map R)) + 1 := by
      apply le_of_mul_le_mul_left _ (by linarith : 0 < m)
      linarith
    have p6 := l1_sq_le (D.map R)
    rw [lDr] at p6
    push_cast at p6
    rw [← hm] at p6
    have p7 : (17100 * m + 1) * (sqNorm (f.map R) + sqNorm (g.map R)) ≤ (17100 * m + 1) * 16822 := mul_le_mul_of_nonneg_left hn (by linarith)
    have p8 : m * sqNorm (D.map R) ≤ m * ((17100 * m + 1) * 16822 + 1) := mul_le_mul_of_nonneg_left (by linarith) (by linarith)
    apply (abs_le_of_sq_le_sq' _ (by linarith)).2
    nlinarith
  have small : ∀ x : ℝ, x ≤ 131 * m → m * (7 / 10 ^ 14 * x) ≤ 93 / 10 ^ 13 * m ^ 2 := by
    intro x hx
    have := mul_le_mul_of_nonneg_left (mul_le_mul_of_nonneg_left hx (by norm_num : (0 : ℝ) ≤ 7 / 10 ^ 14)) (by linarith : 0 ≤ m)
    linarith [sq_nonneg m]
  refine ⟨af, pf, ag, pg, D, e1, e2, e3, e4, ?_, laf, lag, lD, faf, fag, near_finite nD, by linarith, by linarith, by linarith,
    fun w hw => (vaf w hw).trans (small _ A131), fun w hw => (vag w hw).trans (small _ B131), vD⟩
  unfold Add
  rw [if_neg (by rw [lpf, lpg]; simp)]

/-- One half of the second Gram-Schmidt vector at a root where the divisor is small. -/
theorem quot_near_n (k : Nat) (h1 : 1 ≤ k) (h2 : k ≤ 10) (f : List ℝ) (d : ℂ → ℝ) (af D : List F64) (laf : af.length = 2 ^ k) (lD : D.length = 2 ^ k)
    (faf : ∀ x ∈ af, x.isFinite = true) (fD : ∀ x ∈ D, x.isFinite = true) (m : ℝ) (hm : m = 2 ^ k) (baf : l1 (af.map R) + 1 ≤ 132 * m)
    (bD : l1 (D.map R) + 1 ≤ 17200 * m)
    (vaf : ∀ w ∈ rootsC k, ‖evalR (af.map R) w - conj (evalR f w)‖ ≤ 93 / 10 ^ 13 * m ^ 2)
    (vD : ∀ w ∈ rootsC k, ‖evalR (D.map R) w - (d w : ℂ)‖ ≤ 295 / 10 ^ 11 * m ^ 2)
    (t : ℝ) (ht : 3 ≤ t) (ht2 : m * t ≤ 3163) (hd : ∀ w ∈ rootsC k, 1 ≤ d w * t ^ 2) (hfd : ∀ w ∈ rootsC k, Complex.normSq (evalR f w) ≤ d w) :
    ∃ r : List F64, r.length = 2 ^ k ∧ Div ieeeOps af D = .ok r ∧ (∀ x ∈ r, x.isFinite = true) ∧ sqNorm (r.map R) ≤ 1024 * 10 ^ 10 ∧
      ∀ w ∈ rootsC k, d w * t ^ 2 = 1 → 97 / 100 * (‖evalR f w‖ * t ^ 2) ≤ ‖evalR (r.map R) w‖ + 1 / 100 * t := by
  have m2 : 2 ≤ m := by
    rw [hm]
    exact (by norm_num : (2 : ℝ) ≤ 2 ^ 1).trans (pow_le_pow_right₀ (by norm_num) h1)
  have mk : m ≤ 1024 := by
    rw [hm]
    exact (pow_le_pow_right₀ (by norm_num) h2).trans (by norm_num)
  have t0 : 0 < t := by linarith
  have tu : t ≤ 1582 := by nlinarith
  have mt : m ^ 2 * t ^ 2 ≤ 10004569 := by
    rw [← mul_pow]
    exact (pow_le_pow_left₀ (by positivity) ht2 2).trans (by norm_num)
  have tt : 0 < t ^ 2 := by positivity
  -- the error is small against d
  have md : ∀ w ∈ rootsC k, m ^ 2 ≤ 10004569 * d w := by
    intro w hw
    have h3 := hd w hw
    apply le_of_mul_le_mul_right _ tt
    nlinarith
  have d0 : ∀ w ∈ rootsC k, 0 < d w := by
    intro w hw
    have := md w hw
    nlinarith
  have Dnear : ∀ w ∈ rootsC k, |‖evalR (D.map R) w‖ - d w| ≤ 296 / 10 ^ 4 * d w := by
    intro w hw
    have h3 := vD w hw
    have h4 := abs_norm_sub_norm_le (evalR (D.map R) w) (d w : ℂ)
    rw [Complex.norm_real, Real.norm_eq_abs, abs_of_pos (d0 w hw)] at h4
    have h5 := md w hw
    linarith [d0 w hw]
  have Dlow : ∀ w ∈ rootsC k, 97 / 100 * d w ≤ ‖evalR (D.map R) w‖ := by
    intro w hw
    have := (abs_le.1 (Dnear w hw)).1
    linarith [d0 w hw]
  have fle : ∀ w ∈ rootsC k, ‖evalR f w‖ ≤ t * d w := by
    intro w hw
    have h3 := hfd w hw
    have h4 := hd w hw
    have h5 := d0 w hw
    rw [Complex.normSq_eq_norm_sq] at h3
    apply (abs_le_of_sq_le_sq' _ (by positivity)).2
    nlinarith
  have δge : 1 / 10 ^ 7 ≤ 97 / 100 / t ^ 2 := by
    rw [le_div_iff₀ tt]
    nlinarith
  have δS : 31 / 10 ^ 15 * (17200 * m) ≤ 97 / 100 / t ^ 2 / 20 := by
    rw [div_div, le_div_iff₀ (by positivity)]
    nlinarith
  obtain ⟨κ, r, lκ, vκ, er, nr⟩ := Div_near k h1 h2 af D laf lD faf fD (132 * m) (17200 * m) (105 / 100 * t) (97 / 100 / t ^ 2) baf bD (by linarith) (by linarith)
    (by linarith) δge δS (by
      intro w hw
      refine le_trans ?_ (Dlow w hw)
      rw [div_le_iff₀ tt]
      have := hd w hw
      linarith) (by
      intro w hw
      have h3 := fle w hw
      have h4 := vaf w hw
      have h5 := norm_sub_norm_le (evalR (af.map R) w) (conj (evalR f w))
      rw [Complex.norm_conj] at h5
      have h6 := Dlow w hw
      have h7 := md w hw
      have h8 : 105 / 100 * t * (97 / 100 * d w) ≤ 105 / 100 * t * ‖evalR (D.map R) w‖ := mul_le_mul_of_nonneg_left h6 (by positivity)
      have h9 : 3 * d w ≤ t * d w := mul_le_mul_of_nonneg_right ht (d0 w hw).le
      linarith [d0 w hw])
  set E := 107 / 100 * (31 / 10 ^ 15 * (132 * m) / (97 / 100 / t ^ 2) + 105 / 100 * t * (31 / 10 ^ 15 * (17200 * m) / (97 / 100 / t ^ 2))) + 5 / 10 ^ 14 * (105 / 100 * t) +
    1 / 10 ^ 79 with hE
  have eE : E = 107 / 100 * (31 / 10 ^ 15 * 132 * (100 / 97) * (m * t ^ 2) + 105 / 100 * (31 / 10 ^ 15 * 17200) * (100 / 97) * (m * t ^ 2 * t)) + 5 / 10 ^ 14 * (105 / 100 * t) +
    1 / 10 ^ 79 := by
    rw [hE]
    field_simp
  have E0 : 0 ≤ E := by rw [eE]; positivity
  have mE : m * E ≤ 7 / 1000 * t := by
    have g1 : m * (m * t ^ 2) ≤ 10004569 := by linarith
    have g2 : m * (m * t ^ 2 * t) ≤ 10004569 * t := by
      have := mul_le_mul_of_nonneg_right mt t0.le
      linarith
    have e : m * E = 107 / 100 * (31 / 10 ^ 15 * 132 * (100 / 97) * (m * (m * t ^ 2)) + 105 / 100 * (31 / 10 ^ 15 * 17200) * (100 / 97) * (m * (m * t ^ 2 * t))) +
        5 / 10 ^ 14 * (105 / 100) * (m * t) + 1 / 10 ^ 79 * m := by rw [eE]; ring
    rw [e]
    norm_num at *
    linarith
  have lr : r.length = 2 ^ k := by rw [nr.length_eq, lκ]
  refine ⟨r, lr, er, near_finite nr, ?_, ?_⟩
  · have c := coef_le k κ lκ (10 ^ 4) (by norm_num) (by
      intro w hw
      rw [vκ w hw, norm_div]
      have h3 := fle w hw
      have h4 := vaf w hw
      have h5 := norm_sub_norm_le (evalR (af.map R) w) (conj (evalR f w))
      rw [Complex.norm_conj] at h5
      have h6 := Dlow w hw
      have h7 := md w hw
      have h8 := d0 w hw
      rw [div_le_iff₀ (by linarith)]
      have h9 : t * d w ≤ 1582 * d w := mul_le_mul_of_nonneg_right tu h8.le
      norm_num at *
      linarith)
    have E1 : E ≤ 10 := by nlinarith
    have := sqNorm_le_length (r.map R) (10 ^ 5) (by
      intro x hx
      obtain ⟨i, hi, rfl⟩ := List.getElem_of_mem hx
      rw [List.length_map] at hi
      have hi' : i < κ.length := by rw [← nr.length_eq]; exact hi
      have h3 := nr.get hi hi'
      simp only [List.get_eq_getElem] at h3
      rw [List.getElem_map]
      have h4 := c _ (List.getElem_mem hi')
      have h5 := abs_sub_abs_le_abs_sub (R r[i]) κ[i]
      have h6 := h3.2
      norm_num at h4 ⊢
      linarith)
    rw [List.length_map, lr] at this
    push_cast at this
    rw [← hm] at this
    have h7 := mul_le_mul_of_nonneg_right mk (by norm_num : (0 : ℝ) ≤ (10 ^ 5) ^ 2)
    norm_num at h7 this ⊢
    linarith
  · intro w hw h1'
    have h3 := near_eval nr w (rootsC_norm k w hw)
    rw [lκ, vκ w hw] at h3
    push_cast at h3
    rw [← hm] at h3
    have h4 := norm_sub_norm_le (evalR (af.map R) w / evalR (D.map R) w) (evalR (r.map R) w)
    rw [norm_sub_rev] at h4
    have h5 := vaf w hw
    have h6 := norm_sub_norm_le (conj (evalR f w)) (evalR (af.map R) w)
    rw [Complex.norm_conj, norm_sub_rev] at h6
    have h7 := (abs_le.1 (Dnear w hw)).2
    have h8 := d0 w hw
    have h9 := Dlow w hw
    have h10 : ‖evalR f w‖ - 93 / 10 ^ 13 * m ^ 2 ≤ ‖evalR (af.map R) w‖ := by linarith
    have Dp : 0 < ‖evalR (D.map R) w‖ := by linarith
    -- the quotient from below
    have h11 : 97 / 100 * (‖evalR f w‖ * t ^ 2) - 1 / 1000 * t ≤ ‖evalR (af.map R) w / evalR (D.map R) w‖ := by
      rw [norm_div, le_div_iff₀ Dp]
      have a1 : 97 / 100 * (‖evalR f w‖ * t ^ 2) * ‖evalR (D.map R) w‖ ≤ 97 / 100 * (‖evalR f w‖ * t ^ 2) * (10296 / 10 ^ 4 * d w) :=
        mul_le_mul_of_nonneg_left (by linarith) (by positivity)
      have a2 : 97 / 100 * (‖evalR f w‖ * t ^ 2) * (10296 / 10 ^ 4 * d w) = 97 / 100 * (10296 / 10 ^ 4) * ‖evalR f w‖ := by
        rw [show 97 / 100 * (‖evalR f w‖ * t ^ 2) * (10296 / 10 ^ 4 * d w) = 97 / 100 * (10296 / 10 ^ 4) * ‖evalR f w‖ * (d w * t ^ 2) by ring, h1', mul_one]
      have a3 : 1 / 1000 * t * (97 / 100 * d w) ≤ 1 / 1000 * t * ‖evalR (D.map R) w‖ := mul_le_mul_of_nonneg_left h9 (by positivity)
      have a4 : 3 * d w ≤ t * d w := mul_le_mul_of_nonneg_right ht h8.le
      have a5 := md w hw
      have a6 := norm_nonneg (evalR f w)
      linarith
    linarith

end Falcon
