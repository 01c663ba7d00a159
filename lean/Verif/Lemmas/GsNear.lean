import Verif.Props.BabaiFloat
/-!
# The Gram-Schmidt norm in IEEE arithmetic
-/

namespace Falcon
open Spec Polynomial ComplexConjugate F64

theorem near_eval {e : ℝ} {r : List F64} {p : List ℝ} (h : List.Forall₂ (RNear e) r p) (w : ℂ) (hw : ‖w‖ = 1) :
    ‖evalR (r.map R) w - evalR p w‖ ≤ p.length * e := by
  induction h with
  | nil => simp [evalR]
  | @cons a x r p h hs ih =>
    rw [List.map_cons, evalR_cons, evalR_cons, List.length_cons,
      show ((R a : ℝ) : ℂ) + w * evalR (r.map R) w - ((x : ℝ) + w * evalR p w) = ((R a - x : ℝ) : ℂ) + w * (evalR (r.map R) w - evalR p w) by push_cast; ring]
    refine (norm_add_le _ _).trans ?_
    rw [norm_mul, hw, one_mul, Complex.norm_real, Real.norm_eq_abs]
    push_cast
    linarith [h.2]

theorem near_l1 {e : ℝ} {r : List F64} {p : List ℝ} (h : List.Forall₂ (RNear e) r p) : l1 (r.map R) ≤ l1 p + p.length * e := by
  induction h with
  | nil => simp [l1]
  | @cons a x r p h hs ih =>
    rw [List.map_cons, l1_cons, l1_cons, List.length_cons]
    have := abs_sub_abs_le_abs_sub (R a) x
    push_cast
    linarith [h.2]

theorem near_finite {e : ℝ} {r : List F64} {p : List ℝ} (h : List.Forall₂ (RNear e) r p) : ∀ x ∈ r, x.isFinite = true := by
  induction h with
  | nil => simp
  | cons h hs ih =>
    intro x hx
    rcases List.mem_cons.1 hx with rfl | hx
    · exact h.1
    · exact ih x hx

theorem adjList_l1 (f : List ℝ) : l1 (adjList f) = l1 f := by
  cases f with
  | nil => rfl
  | cons a f => simp [adjList, l1, Function.comp_def]

/-- `Adj` in IEEE arithmetic. -/
theorem Adj_near_variant (va : Variant) (k : Nat) (h1 : 1 ≤ k) (h2 : k ≤ 10) (f : List F64) (hf : f.length = 2 ^ k) (hfin : ∀ x ∈ f, x.isFinite = true) (S : ℝ)
    (hS : l1 (f.map R) + 1 ≤ S) (hS2 : S ≤ 10 ^ 40) :
    ∃ r, Adj va.ops f = .ok r ∧ List.Forall₂ (RNear (7 / 10 ^ 14 * S)) r (adjList (f.map R)) := by
  have l0 := l1_nonneg (f.map R)
  have big := Big_ge'
  obtain ⟨c, ec, nc⟩ := (FFT_near'_variant va) k h1 h2 f hf hfin S hS hS2
  have hl : (f.map R).length = 2 ^ k := by rw [List.length_map, hf]
  have nc' : List.Forall₂ (CNear (31 / 10 ^ 15 * S)) (c.map va.ops.conj) ((rootsC k).map (evalR (adjList (f.map R)))) := by
    have e : (rootsC k).map (evalR (adjList (f.map R))) = ((rootsC k).map (evalR (f.map R))).map conj := by
      rw [List.map_map]
      exact List.map_congr_left fun w hw => evalR_adj k _ hl w hw
    rw [e, List.forall₂_map_left_iff, List.forall₂_map_right_iff]
    exact forall₂_mono nc fun a b h => (conj_cnear_variant va) _ _ _ h
  obtain ⟨r, er, nr⟩ := (IFFT_near_variant va) k h1 h2 (adjList (f.map R)) (by rw [adjList_length, hl]) _ (31 / 10 ^ 15 * S) S nc' (by
    intro z hz
    have := map_evalR_norm k _ z hz
    rw [adjList_l1] at this
    linarith) (by linarith) (by linarith) (by linarith)
  refine ⟨r, ?_, forall₂_mono nr fun a b h => h.mono ?_⟩
  · unfold Adj AdjFFT
    rw [ec, Go.ok_bind]
    exact er
  · refine (ifftErr_num k h2 _ _ (by linarith) (by linarith)).trans ?_
    linarith

theorem Adj_near (k : Nat) (h1 : 1 ≤ k) (h2 : k ≤ 10) (f : List F64) (hf : f.length = 2 ^ k) (hfin : ∀ x ∈ f, x.isFinite = true) (S : ℝ)
    (hS : l1 (f.map R) + 1 ≤ S) (hS2 : S ≤ 10 ^ 40) :
    ∃ r, Adj ieeeOps f = .ok r ∧ List.Forall₂ (RNear (7 / 10 ^ 14 * S)) r (adjList (f.map R)) :=
  Adj_near_variant amd64V k h1 h2 f hf hfin S hS hS2

/-- A quotient of two slots. -/
theorem divC_slot_variant (va : Variant) (n m : F64 × F64) (N D : ℂ) (En Ed V : ℝ) (hn : CNear En n N) (hm : CNear Ed m D) (hd : 1 / 10 ^ 7 ≤ ‖D‖) (hEd : Ed ≤ ‖D‖ / 20)
    (hN : ‖N‖ ≤ V * ‖D‖) (hV : V ≤ 10 ^ 25) (hd2 : ‖D‖ ≤ 10 ^ 30) (hEn : En ≤ 10 ^ 55) :
    CNear (106 / 100 * (En / ‖D‖ + V * (Ed / ‖D‖)) + 1 / 10 ^ 14 * (V + En / ‖D‖) + 1 / 10 ^ 80) (va.ops.cdiv n m) (N / D) := by
  have d0 : 0 < ‖D‖ := by linarith
  have V0 : 0 ≤ V := by
    have := (norm_nonneg N).trans hN
    by_contra hc
    push Not at hc
    nlinarith
  have En0 := hn.nonneg
  have Ed0 := hm.nonneg
  have Vd : V * ‖D‖ ≤ 10 ^ 25 * 10 ^ 30 := mul_le_mul hV hd2 d0.le (by positivity)
  have n1 : ‖cval n‖ ≤ V * ‖D‖ + En := hn.norm_le hN
  have m1 : ‖cval m‖ ≤ ‖D‖ + Ed := hm.norm_le le_rfl
  have m2 : 95 / 100 * ‖D‖ ≤ ‖cval m‖ := by
    have := norm_sub_norm_le D (cval m)
    rw [norm_sub_rev] at this
    linarith [hm.2]
  have m0 : 0 < ‖cval m‖ := by linarith
  have mne : cval m ≠ 0 := norm_pos_iff.1 m0
  have dne : D ≠ 0 := norm_pos_iff.1 d0
  obtain ⟨f, h⟩ := va.cdiv_near n m hn.1 hm.1 (by linarith) (by linarith) (by linarith)
  refine ⟨f, ?_⟩
  have e : cval n / cval m - N / D = (cval n - N) / cval m + N * (D - cval m) / (D * cval m) := by field_simp; ring
  have q1 : ‖(cval n - N) / cval m‖ ≤ En / (95 / 100 * ‖D‖) := by
    rw [norm_div]
    exact div_le_div₀ En0 hn.2 (by positivity) m2
  have q2 : ‖N * (D - cval m) / (D * cval m)‖ ≤ V * ‖D‖ * Ed / (‖D‖ * (95 / 100 * ‖D‖)) := by
    rw [norm_div, norm_mul, norm_mul, norm_sub_rev]
    apply div_le_div₀ (by positivity) (mul_le_mul hN hm.2 (norm_nonneg _) (by positivity)) (by positivity)
    exact mul_le_mul_of_nonneg_left m2 d0.le
  have e1 : En / (95 / 100 * ‖D‖) = 100 / 95 * (En / ‖D‖) := by field_simp
  have e2 : V * ‖D‖ * Ed / (‖D‖ * (95 / 100 * ‖D‖)) = 100 / 95 * (V * (Ed / ‖D‖)) := by field_simp
  rw [e1] at q1
  rw [e2] at q2
  have q3 : ‖cval n‖ / ‖cval m‖ ≤ (V * ‖D‖ + En) / (95 / 100 * ‖D‖) := div_le_div₀ (by positivity) n1 (by positivity) m2
  have e3 : (V * ‖D‖ + En) / (95 / 100 * ‖D‖) = 100 / 95 * (V + En / ‖D‖) := by field_simp
  rw [e3] at q3
  have E1 : 0 ≤ En / ‖D‖ := by positivity
  have E2 : 0 ≤ V * (Ed / ‖D‖) := by positivity
  have u0 := uu_pos
  have u1 := uu_le
  have q4 : 40 * uu * (‖cval n‖ / ‖cval m‖) ≤ 40 * (1 / 9 / 10 ^ 15) * (100 / 95 * (V + En / ‖D‖)) :=
    mul_le_mul (by linarith) q3 (by positivity) (by norm_num)
  have t := norm_add_le (cval (va.ops.cdiv n m) - cval n / cval m) (cval n / cval m - N / D)
  rw [sub_add_sub_cancel] at t
  rw [e] at t
  have t2 := norm_add_le ((cval n - N) / cval m) (N * (D - cval m) / (D * cval m))
  linarith

theorem divC_slot (n m : F64 × F64) (N D : ℂ) (En Ed V : ℝ) (hn : CNear En n N) (hm : CNear Ed m D) (hd : 1 / 10 ^ 7 ≤ ‖D‖) (hEd : Ed ≤ ‖D‖ / 20)
    (hN : ‖N‖ ≤ V * ‖D‖) (hV : V ≤ 10 ^ 25) (hd2 : ‖D‖ ≤ 10 ^ 30) (hEn : En ≤ 10 ^ 55) :
    CNear (106 / 100 * (En / ‖D‖ + V * (Ed / ‖D‖)) + 1 / 10 ^ 14 * (V + En / ‖D‖) + 1 / 10 ^ 80) (ieeeOps.cdiv n m) (N / D) :=
  divC_slot_variant amd64V n m N D En Ed V hn hm hd hEd hN hV hd2 hEn

/-- `Div` in IEEE arithmetic, for a divisor that is not too small at any root of unity. -/
theorem Div_near_variant (va : Variant) (k : Nat) (h1 : 1 ≤ k) (h2 : k ≤ 10) (a b : List F64) (la : a.length = 2 ^ k) (lb : b.length = 2 ^ k)
    (fa : ∀ x ∈ a, x.isFinite = true) (fb : ∀ x ∈ b, x.isFinite = true) (Sa Sb V δ : ℝ) (hSa : l1 (a.map R) + 1 ≤ Sa) (hSb : l1 (b.map R) + 1 ≤ Sb)
    (bSa : Sa ≤ 10 ^ 20) (bSb : Sb ≤ 10 ^ 20) (hV : V ≤ 10 ^ 20) (hδ : 1 / 10 ^ 7 ≤ δ) (hEd : 31 / 10 ^ 15 * Sb ≤ δ / 20)
    (hD : ∀ w ∈ rootsC k, δ ≤ ‖evalR (b.map R) w‖) (hN : ∀ w ∈ rootsC k, ‖evalR (a.map R) w‖ ≤ V * ‖evalR (b.map R) w‖) :
    ∃ (κ : List ℝ) (r : List F64), κ.length = 2 ^ k ∧ (∀ w ∈ rootsC k, evalR κ w = evalR (a.map R) w / evalR (b.map R) w) ∧ Div va.ops a b = .ok r ∧
      List.Forall₂ (RNear (107 / 100 * (31 / 10 ^ 15 * Sa / δ + V * (31 / 10 ^ 15 * Sb / δ)) + 5 / 10 ^ 14 * V + 1 / 10 ^ 79)) r κ := by
  have l0 := l1_nonneg (a.map R)
  have l0' := l1_nonneg (b.map R)
  have δ0 : 0 < δ := by linarith
  have hV0 : 0 ≤ V := by
    have hm : rootC k 0 ∈ rootsC k := by simp only [rootsC, List.mem_map, List.mem_range]; exact ⟨0, Nat.two_pow_pos k, rfl⟩
    have := (norm_nonneg _).trans (hN _ hm)
    have h3 := hD _ hm
    by_contra hc
    push Not at hc
    nlinarith
  have hc : IsCoprime (X ^ 2 ^ k + 1 : ℝ[X]) (poly (b.map R)) := by
    refine (isCoprime_iff_aeval_ne_zero_of_isAlgClosed ℝ ℂ _ _).2 ?_
    intro w
    by_cases hw : w ^ 2 ^ k + 1 = 0
    · right
      have hm : w ∈ rootsC k := (mem_rootsC k w).2 (by linear_combination hw)
      have := hD w hm
      intro h0
      have h3 : evalR (b.map R) w = 0 := by rw [evalR_eq]; exact h0
      rw [h3, norm_zero] at this
      linarith
    · left
      simpa using hw
  obtain ⟨κ, lκ, dκ⟩ := exists_div k (poly (a.map R)) _ hc
  have val : ∀ w ∈ rootsC k, evalR κ w = evalR (a.map R) w / evalR (b.map R) w := by
    intro w hw
    have h3 := evalR_dvd k _ dκ w hw
    rw [eval₂_sub, eval₂_mul, ← evalR_eq, ← evalR_eq, ← evalR_eq, sub_eq_zero] at h3
    have hne : evalR (b.map R) w ≠ 0 := by
      intro h0
      have := hD w hw
      rw [h0, norm_zero] at this
      linarith
    rw [eq_div_iff hne, h3]
  obtain ⟨ca, eca, na⟩ := (FFT_near'_variant va) k h1 h2 a la fa Sa hSa (by linarith)
  obtain ⟨cb, ecb, nb⟩ := (FFT_near'_variant va) k h1 h2 b lb fb Sb hSb (by linarith)
  have lca : ca.length = 2 ^ k := by rw [na.length_eq, List.length_map, rootsC_length]
  have lcb : cb.length = 2 ^ k := by rw [nb.length_eq, List.length_map, rootsC_length]
  set En := 31 / 10 ^ 15 * Sa with hEn
  set Ed := 31 / 10 ^ 15 * Sb with hEd'
  have En0 : 0 ≤ En := by rw [hEn]; linarith
  have Ed0 : 0 ≤ Ed := by rw [hEd']; linarith
  set e := 106 / 100 * (En / δ + V * (Ed / δ)) + 1 / 10 ^ 14 * (V + En / δ) + 1 / 10 ^ 80 with he
  have slots : ∀ (L : List ℂ) (ca cb : List (F64 × F64)), (∀ w ∈ L, w ∈ rootsC k) → List.Forall₂ (CNear En) ca (L.map (evalR (a.map R))) →
      List.Forall₂ (CNear Ed) cb (L.map (evalR (b.map R))) → List.Forall₂ (CNear e) (List.zipWith va.ops.cdiv ca cb) (L.map (evalR κ)) := by
    intro L
    induction L with
    | nil =>
      intro ca cb _ a1 a2
      cases a1; cases a2
      exact .nil
    | cons w L ih =>
      intro ca cb hL a1 a2
      cases a1 with | cons b1 a1 => cases a2 with | cons b2 a2 =>
      have hw := hL w (by simp)
      refine .cons ?_ (ih _ _ (fun x hx => hL x (by simp [hx])) a1 a2)
      show CNear _ _ (evalR κ w)
      rw [val w hw]
      have hd := hD w hw
      have up : ‖evalR (b.map R) w‖ ≤ 10 ^ 20 := (evalR_norm _ w (rootsC_norm k w hw)).trans (by linarith)
      refine ((divC_slot_variant va) _ _ _ _ En Ed V b1 b2 (by linarith) (by linarith) (hN w hw) (by linarith) (by linarith) (by rw [hEn]; linarith)).mono ?_
      have g1 : En / ‖evalR (b.map R) w‖ ≤ En / δ := div_le_div_of_nonneg_left En0 δ0 hd
      have g2 : Ed / ‖evalR (b.map R) w‖ ≤ Ed / δ := div_le_div_of_nonneg_left Ed0 δ0 hd
      have g3 := mul_le_mul_of_nonneg_left g2 hV0
      rw [he]
      linarith
  have hs := slots (rootsC k) ca cb (fun w h => h) na nb
  have d1 : En / δ ≤ 10 ^ 30 := by rw [div_le_iff₀ δ0, hEn]; linarith
  have d2 : Ed / δ ≤ 1 / 20 := by rw [div_le_iff₀ δ0]; linarith
  have d3 : V * (Ed / δ) ≤ V * (1 / 20) := mul_le_mul_of_nonneg_left d2 hV0
  have d10 : 0 ≤ En / δ := by positivity
  have d20 : 0 ≤ V * (Ed / δ) := by positivity
  have big := Big_ge'
  obtain ⟨r, er, nr⟩ := (IFFT_near_variant va) k h1 h2 κ lκ _ e V hs (by
    intro z hz
    obtain ⟨w, hw, rfl⟩ := List.mem_map.1 hz
    rw [val w hw, norm_div, div_le_iff₀ (by linarith [hD w hw])]
    exact hN w hw) (by rw [he]; linarith) (by rw [he]; positivity) hV0
  refine ⟨κ, r, lκ, val, ?_, forall₂_mono nr fun x y h => h.mono ?_⟩
  · unfold Div DivFFT
    rw [eca, ecb]
    simp only [Go.ok_bind, lca, lcb, ne_eq, not_true_eq_false, if_false]
    exact er
  · refine (ifftErr_num k h2 _ _ hV0 (by rw [he]; positivity)).trans ?_
    rw [he]
    linarith

theorem Div_near (k : Nat) (h1 : 1 ≤ k) (h2 : k ≤ 10) (a b : List F64) (la : a.length = 2 ^ k) (lb : b.length = 2 ^ k)
    (fa : ∀ x ∈ a, x.isFinite = true) (fb : ∀ x ∈ b, x.isFinite = true) (Sa Sb V δ : ℝ) (hSa : l1 (a.map R) + 1 ≤ Sa) (hSb : l1 (b.map R) + 1 ≤ Sb)
    (bSa : Sa ≤ 10 ^ 20) (bSb : Sb ≤ 10 ^ 20) (hV : V ≤ 10 ^ 20) (hδ : 1 / 10 ^ 7 ≤ δ) (hEd : 31 / 10 ^ 15 * Sb ≤ δ / 20)
    (hD : ∀ w ∈ rootsC k, δ ≤ ‖evalR (b.map R) w‖) (hN : ∀ w ∈ rootsC k, ‖evalR (a.map R) w‖ ≤ V * ‖evalR (b.map R) w‖) :
    ∃ (κ : List ℝ) (r : List F64), κ.length = 2 ^ k ∧ (∀ w ∈ rootsC k, evalR κ w = evalR (a.map R) w / evalR (b.map R) w) ∧ Div ieeeOps a b = .ok r ∧
      List.Forall₂ (RNear (107 / 100 * (31 / 10 ^ 15 * Sa / δ + V * (31 / 10 ^ 15 * Sb / δ)) + 5 / 10 ^ 14 * V + 1 / 10 ^ 79)) r κ :=
  Div_near_variant amd64V k h1 h2 a b la lb fa fb Sa Sb V δ hSa hSb bSa bSb hV hδ hEd hD hN

/-- The product with the computed adjoint. -/
theorem gram_half_variant (va : Variant) (k : Nat) (h1 : 1 ≤ k) (h2 : k ≤ 10) (f : List F64) (hf : f.length = 2 ^ k) (hfin : ∀ x ∈ f, x.isFinite = true) (S : ℝ)
    (hS : l1 (f.map R) + 1 ≤ S) (hS2 : S ≤ 4172) :
    ∃ af ff, Adj va.ops f = .ok af ∧ Mul va.ops f af = .ok ff ∧ af.length = 2 ^ k ∧ ff.length = 2 ^ k ∧ (∀ x ∈ af, x.isFinite = true) ∧
      (∀ x ∈ ff, x.isFinite = true) ∧ l1 (af.map R) ≤ S ∧ (∀ x ∈ ff, |R x| ≤ S ^ 2 + 1) ∧
      (∀ w ∈ rootsC k, ‖evalR (af.map R) w - conj (evalR (f.map R) w)‖ ≤ 3 / 10 ^ 7) ∧
      ∀ w ∈ rootsC k, ‖evalR (ff.map R) w - (Complex.normSq (evalR (f.map R) w) : ℂ)‖ ≤ 176 / 10 ^ 12 * S ^ 2 := by
  have l0 := l1_nonneg (f.map R)
  have S0 : 0 ≤ S := by linarith
  have hlen : (f.map R).length = 2 ^ k := by rw [List.length_map, hf]
  have hk : (2 : ℝ) ^ k ≤ 1024 := (pow_le_pow_right₀ (by norm_num) h2).trans (by norm_num)
  obtain ⟨af, eaf, naf⟩ := (Adj_near_variant va) k h1 h2 f hf hfin S hS (by linarith)
  have laf : af.length = 2 ^ k := by rw [naf.length_eq, adjList_length, hlen]
  have adjl : (adjList (f.map R)).length = 2 ^ k := by rw [adjList_length, hlen]
  have haf := near_l1 naf
  rw [adjl, adjList_l1] at haf
  push_cast at haf
  have m1 : (2 : ℝ) ^ k * (7 / 10 ^ 14 * S) ≤ 1024 * (7 / 10 ^ 14 * S) := mul_le_mul_of_nonneg_right hk (by positivity)
  have laS : l1 (af.map R) ≤ S := by linarith
  obtain ⟨p, lp, dp⟩ := exists_mod k (poly (f.map R) * poly (af.map R))
  obtain ⟨ff, eff, nff⟩ := (Mul_near_variant va) k h1 h2 f af hf laf hfin (near_finite naf) S S (by linarith) laS (by linarith) (by linarith) p lp dp
  have vp : ∀ w ∈ rootsC k, evalR p w = evalR (f.map R) w * evalR (af.map R) w := by
    intro w hw
    have h3 := evalR_dvd k _ dp w hw
    rw [eval₂_sub, eval₂_mul, ← evalR_eq, ← evalR_eq, ← evalR_eq, sub_eq_zero] at h3
    exact h3.symm
  have em : 1 / 10 ^ 13 * (S * S) + 1 / 10 ^ 100 * (S + S + 1) ≤ 101 / 10 ^ 15 * S ^ 2 := by nlinarith
  have pb := coef_le k p lp (S ^ 2) (by positivity) (by
    intro w hw
    rw [vp w hw, norm_mul, pow_two]
    have w1 := rootsC_norm k w hw
    exact mul_le_mul ((evalR_norm _ w w1).trans (by linarith)) ((evalR_norm _ w w1).trans laS) (norm_nonneg _) S0)
  have aw : ∀ w ∈ rootsC k, ‖evalR (af.map R) w - conj (evalR (f.map R) w)‖ ≤ 1024 * (7 / 10 ^ 14 * S) := by
    intro w hw
    have := near_eval naf w (rootsC_norm k w hw)
    rw [adjl, evalR_adj k _ hlen w hw] at this
    push_cast at this
    linarith
  have lff : ff.length = 2 ^ k := by rw [nff.length_eq, lp]
  have S2 : S ^ 2 ≤ 4172 ^ 2 := pow_le_pow_left₀ S0 hS2 2
  refine ⟨af, ff, eaf, eff, laf, lff, near_finite naf, near_finite nff, laS, ?_, fun w hw => (aw w hw).trans (by linarith), ?_⟩
  · intro x hx
    obtain ⟨i, hi, rfl⟩ := List.getElem_of_mem hx
    have hi' : i < p.length := by rw [lp, ← lff]; exact hi
    have h3 := nff.get hi hi'
    simp only [List.get_eq_getElem] at h3
    have h4 := pb _ (List.getElem_mem hi')
    have h5 := abs_sub_abs_le_abs_sub (R ff[i]) p[i]
    linarith [h3.2]
  · intro w hw
    have w1 := rootsC_norm k w hw
    have h3 := near_eval nff w w1
    rw [lp, vp w hw] at h3
    push_cast at h3
    have em0 : 0 ≤ 1 / 10 ^ 13 * (S * S) + 1 / 10 ^ 100 * (S + S + 1) := by positivity
    have h4 : (2 : ℝ) ^ k * (1 / 10 ^ 13 * (S * S) + 1 / 10 ^ 100 * (S + S + 1)) ≤ 1024 * (101 / 10 ^ 15 * S ^ 2) :=
      mul_le_mul hk em em0 (by norm_num)
    have h5 : ‖evalR (f.map R) w * evalR (af.map R) w - (Complex.normSq (evalR (f.map R) w) : ℂ)‖ ≤ S * (1024 * (7 / 10 ^ 14 * S)) := by
      rw [← Complex.mul_conj, ← mul_sub, norm_mul]
      exact mul_le_mul ((evalR_norm _ w w1).trans (by linarith)) (aw w hw) (norm_nonneg _) S0
    have h6 := norm_add_le (evalR (ff.map R) w - evalR (f.map R) w * evalR (af.map R) w)
      (evalR (f.map R) w * evalR (af.map R) w - (Complex.normSq (evalR (f.map R) w) : ℂ))
    rw [sub_add_sub_cancel] at h6
    have h7 : S * (1024 * (7 / 10 ^ 14 * S)) = 1024 * 7 / 10 ^ 14 * S ^ 2 := by ring
    linarith

theorem gram_half (k : Nat) (h1 : 1 ≤ k) (h2 : k ≤ 10) (f : List F64) (hf : f.length = 2 ^ k) (hfin : ∀ x ∈ f, x.isFinite = true) (S : ℝ)
    (hS : l1 (f.map R) + 1 ≤ S) (hS2 : S ≤ 4172) :
    ∃ af ff, Adj ieeeOps f = .ok af ∧ Mul ieeeOps f af = .ok ff ∧ af.length = 2 ^ k ∧ ff.length = 2 ^ k ∧ (∀ x ∈ af, x.isFinite = true) ∧
      (∀ x ∈ ff, x.isFinite = true) ∧ l1 (af.map R) ≤ S ∧ (∀ x ∈ ff, |R x| ≤ S ^ 2 + 1) ∧
      (∀ w ∈ rootsC k, ‖evalR (af.map R) w - conj (evalR (f.map R) w)‖ ≤ 3 / 10 ^ 7) ∧
      ∀ w ∈ rootsC k, ‖evalR (ff.map R) w - (Complex.normSq (evalR (f.map R) w) : ℂ)‖ ≤ 176 / 10 ^ 12 * S ^ 2 :=
  gram_half_variant amd64V k h1 h2 f hf hfin S hS hS2

theorem add_list_near (B : ℝ) (hB : B ≤ 10 ^ 50) (a b : List F64) (ha : ∀ x ∈ a, x.isFinite = true ∧ |R x| ≤ B) (hb : ∀ x ∈ b, x.isFinite = true ∧ |R x| ≤ B)
    (hl : a.length = b.length) :
    List.Forall₂ (RNear (3 * uu * B + et)) (List.zipWith F64.add a b) (List.zipWith (· + ·) (a.map R) (b.map R)) := by
  induction a generalizing b with
  | nil => simp
  | cons x a ih =>
    match b, hl with
    | y :: b, hl =>
      simp only [List.forall_mem_cons] at ha hb
      have u0 := uu_pos
      have big := Big_ge'
      have t := abs_add_le (R x) (R y)
      have hle : |R x + R y| ≤ 2 * B := by linarith [ha.1.2, hb.1.2]
      obtain ⟨h1, h2⟩ := add_near x y ha.1.1 hb.1.1 (by linarith)
      refine .cons ⟨h1, h2.trans ?_⟩ (ih b ha.2 hb.2 (by simpa using hl))
      have := mul_le_mul_of_nonneg_left hle u0.le
      have : 0 ≤ uu * B := by
        have := (abs_nonneg _).trans ha.1.2
        positivity
      linarith

theorem evalR_zipAdd (a b : List ℝ) (h : a.length = b.length) (w : ℂ) : evalR (List.zipWith (· + ·) a b) w = evalR a w + evalR b w := by
  induction a generalizing b with
  | nil =>
    cases b with
    | nil => simp [evalR]
    | cons => simp at h
  | cons x a ih =>
    match b, h with
    | y :: b, h =>
      rw [List.zipWith_cons_cons, evalR_cons, evalR_cons, evalR_cons, ih b (by simpa using h)]
      push_cast
      ring

/-- The computed `f f* + g g*`. -/
theorem gram_near_variant (va : Variant) (k : Nat) (h1 : 1 ≤ k) (h2 : k ≤ 10) (f g : List F64) (hf : f.length = 2 ^ k) (hg : g.length = 2 ^ k)
    (ff : ∀ x ∈ f, x.isFinite = true) (fg : ∀ x ∈ g, x.isFinite = true) (Sf Sg : ℝ) (hSf : l1 (f.map R) + 1 ≤ Sf) (hSg : l1 (g.map R) + 1 ≤ Sg)
    (hS : Sf ^ 2 + Sg ^ 2 ≤ 174 * 10 ^ 5) (hn : sqNorm (f.map R) + sqNorm (g.map R) ≤ 16823) :
    ∃ af pf ag pg D, Adj va.ops f = .ok af ∧ Mul va.ops f af = .ok pf ∧ Adj va.ops g = .ok ag ∧ Mul va.ops g ag = .ok pg ∧
      Add va.ops pf pg = .ok D ∧ af.length = 2 ^ k ∧ ag.length = 2 ^ k ∧ D.length = 2 ^ k ∧ (∀ x ∈ af, x.isFinite = true) ∧
      (∀ x ∈ ag, x.isFinite = true) ∧ (∀ x ∈ D, x.isFinite = true) ∧ l1 (af.map R) + 1 ≤ 4200 ∧ l1 (ag.map R) + 1 ≤ 4200 ∧ l1 (D.map R) + 1 ≤ 175 * 10 ^ 5 ∧
      (∀ w ∈ rootsC k, ‖evalR (af.map R) w - conj (evalR (f.map R) w)‖ ≤ 3 / 10 ^ 7) ∧
      (∀ w ∈ rootsC k, ‖evalR (ag.map R) w - conj (evalR (g.map R) w)‖ ≤ 3 / 10 ^ 7) ∧
      ∀ w ∈ rootsC k, ‖evalR (D.map R) w - ((Complex.normSq (evalR (f.map R) w) + Complex.normSq (evalR (g.map R) w) : ℝ) : ℂ)‖ ≤ 31 / 10 ^ 4 := by
  have l0 := l1_nonneg (f.map R)
  have l0' := l1_nonneg (g.map R)
  have Sf2 : Sf ≤ 4172 := by nlinarith
  have Sg2 : Sg ≤ 4172 := by nlinarith
  have hk : (2 : ℝ) ^ k ≤ 1024 := (pow_le_pow_right₀ (by norm_num) h2).trans (by norm_num)
  obtain ⟨af, pf, e1, e2, laf, lpf, faf, fpf, baf, bpf, vaf, vpf⟩ := (gram_half_variant va) k h1 h2 f hf ff Sf hSf Sf2
  obtain ⟨ag, pg, e3, e4, lag, lpg, fag, fpg, bag, bpg, vag, vpg⟩ := (gram_half_variant va) k h1 h2 g hg fg Sg hSg Sg2
  have nD := add_list_near (175 * 10 ^ 5) (by norm_num) pf pg (fun x hx => ⟨fpf x hx, (bpf x hx).trans (by nlinarith)⟩)
    (fun x hx => ⟨fpg x hx, (bpg x hx).trans (by nlinarith)⟩) (by rw [lpf, lpg])
  set D := List.zipWith F64.add pf pg with hD
  have lD : D.length = 2 ^ k := by rw [hD, List.length_zipWith, lpf, lpg, min_self]
  have lz : (List.zipWith (· + ·) (pf.map R) (pg.map R)).length = 2 ^ k := by simp [lpf, lpg]
  have vD : ∀ w ∈ rootsC k, ‖evalR (D.map R) w - ((Complex.normSq (evalR (f.map R) w) + Complex.normSq (evalR (g.map R) w) : ℝ) : ℂ)‖ ≤ 31 / 10 ^ 4 := by
    intro w hw
    have h3 := near_eval nD w (rootsC_norm k w hw)
    rw [lz, evalR_zipAdd _ _ (by simp [lpf, lpg])] at h3
    push_cast at h3
    have u1 := uu_le
    have u0 := uu_pos
    have t1 := et_le
    have t0 := et_pos
    have h4 : (2 : ℝ) ^ k * (3 * uu * (175 * 10 ^ 5) + et) ≤ 1024 * (1 / 10 ^ 8) := by
      apply mul_le_mul hk (by linarith) (by positivity) (by norm_num)
    have h5 := vpf w hw
    have h6 := vpg w hw
    have t := norm_add_le (evalR (D.map R) w - (evalR (pf.map R) w + evalR (pg.map R) w))
      (evalR (pf.map R) w - (Complex.normSq (evalR (f.map R) w) : ℂ) + (evalR (pg.map R) w - (Complex.normSq (evalR (g.map R) w) : ℂ)))
    have t2 := norm_add_le (evalR (pf.map R) w - (Complex.normSq (evalR (f.map R) w) : ℂ)) (evalR (pg.map R) w - (Complex.normSq (evalR (g.map R) w) : ℂ))
    rw [show evalR (D.map R) w - (evalR (pf.map R) w + evalR (pg.map R) w) + (evalR (pf.map R) w - (Complex.normSq (evalR (f.map R) w) : ℂ) +
      (evalR (pg.map R) w - (Complex.normSq (evalR (g.map R) w) : ℂ))) = evalR (D.map R) w - ((Complex.normSq (evalR (f.map R) w) : ℂ) + (Complex.normSq (evalR (g.map R) w) : ℂ)) by ring] at t
    rw [Complex.ofReal_add]
    linarith
  have ld : l1 (D.map R) ≤ 174 * 10 ^ 5 + 1000 := by
    have lDr : (D.map R).length = 2 ^ k := by rw [List.length_map, lD]
    have p1 := parseval k (D.map R) lDr
    have p2 := parseval k (f.map R) (by rw [List.length_map, hf])
    have p3 := parseval k (g.map R) (by rw [List.length_map, hg])
    have p4 : ∑ i ∈ Finset.range (2 ^ k), Complex.normSq (evalR (D.map R) (rootC k i)) ≤
        ∑ i ∈ Finset.range (2 ^ k), ((174 * 10 ^ 5 + 1) * (Complex.normSq (evalR (f.map R) (rootC k i)) + Complex.normSq (evalR (g.map R) (rootC k i))) + (174 * 10 ^ 5 + 1)) := by
      apply Finset.sum_le_sum
      intro i hi
      have hm : rootC k i ∈ rootsC k := by
        simp only [rootsC, List.mem_map]
        exact ⟨i, List.mem_range.2 (Finset.mem_range.1 hi), rfl⟩
      have w1 := rootsC_norm k _ hm
      have h3 := vD _ hm
      have d0 : 0 ≤ Complex.normSq (evalR (f.map R) (rootC k i)) + Complex.normSq (evalR (g.map R) (rootC k i)) :=
        add_nonneg (Complex.normSq_nonneg _) (Complex.normSq_nonneg _)
      have d1 : Complex.normSq (evalR (f.map R) (rootC k i)) + Complex.normSq (evalR (g.map R) (rootC k i)) ≤ 174 * 10 ^ 5 := by
        rw [Complex.normSq_eq_norm_sq, Complex.normSq_eq_norm_sq]
        have a1 := pow_le_pow_left₀ (norm_nonneg _) ((evalR_norm (f.map R) _ w1).trans (by linarith : l1 (f.map R) ≤ Sf)) 2
        have a2 := pow_le_pow_left₀ (norm_nonneg _) ((evalR_norm (g.map R) _ w1).trans (by linarith : l1 (g.map R) ≤ Sg)) 2
        linarith
      generalize Complex.normSq (evalR (f.map R) (rootC k i)) + Complex.normSq (evalR (g.map R) (rootC k i)) = d at h3 d0 d1 ⊢
      have h4 := norm_sub_norm_le (evalR (D.map R) (rootC k i)) (d : ℂ)
      rw [Complex.norm_real, Real.norm_eq_abs, abs_of_nonneg d0] at h4
      rw [Complex.normSq_eq_norm_sq]
      have n0 := norm_nonneg (evalR (D.map R) (rootC k i))
      nlinarith
    rw [Finset.sum_add_distrib, ← Finset.mul_sum, Finset.sum_add_distrib, p1, p2, p3, Finset.sum_const, Finset.card_range, nsmul_eq_mul] at p4
    push_cast at p4
    have k0 : (0 : ℝ) < 2 ^ k := by positivity
    have p5 : sqNorm (D.map R) ≤ (174 * 10 ^ 5 + 1) * (sqNorm (f.map R) + sqNorm (g.map R)) + (174 * 10 ^ 5 + 1) := by
      apply le_of_mul_le_mul_left _ k0
      linarith
    have p6 := l1_sq_le (D.map R)
    rw [lDr] at p6
    push_cast at p6
    have p7 : (2 : ℝ) ^ k * sqNorm (D.map R) ≤ 1024 * sqNorm (D.map R) := mul_le_mul_of_nonneg_right hk (sqNorm_nonneg _)
    have p8 : l1 (D.map R) ^ 2 ≤ (174 * 10 ^ 5 + 1000) ^ 2 := by norm_num at *; linarith
    exact (abs_le_of_sq_le_sq' p8 (by norm_num)).2
  refine ⟨af, pf, ag, pg, D, e1, e2, e3, e4, ?_, laf, lag, lD, faf, fag, near_finite nD, by linarith, by linarith, by linarith, vaf, vag, vD⟩
  unfold Add
  rw [if_neg (by rw [lpf, lpg]; simp)]

theorem gram_near (k : Nat) (h1 : 1 ≤ k) (h2 : k ≤ 10) (f g : List F64) (hf : f.length = 2 ^ k) (hg : g.length = 2 ^ k)
    (ff : ∀ x ∈ f, x.isFinite = true) (fg : ∀ x ∈ g, x.isFinite = true) (Sf Sg : ℝ) (hSf : l1 (f.map R) + 1 ≤ Sf) (hSg : l1 (g.map R) + 1 ≤ Sg)
    (hS : Sf ^ 2 + Sg ^ 2 ≤ 174 * 10 ^ 5) (hn : sqNorm (f.map R) + sqNorm (g.map R) ≤ 16823) :
    ∃ af pf ag pg D, Adj ieeeOps f = .ok af ∧ Mul ieeeOps f af = .ok pf ∧ Adj ieeeOps g = .ok ag ∧ Mul ieeeOps g ag = .ok pg ∧
      Add ieeeOps pf pg = .ok D ∧ af.length = 2 ^ k ∧ ag.length = 2 ^ k ∧ D.length = 2 ^ k ∧ (∀ x ∈ af, x.isFinite = true) ∧
      (∀ x ∈ ag, x.isFinite = true) ∧ (∀ x ∈ D, x.isFinite = true) ∧ l1 (af.map R) + 1 ≤ 4200 ∧ l1 (ag.map R) + 1 ≤ 4200 ∧ l1 (D.map R) + 1 ≤ 175 * 10 ^ 5 ∧
      (∀ w ∈ rootsC k, ‖evalR (af.map R) w - conj (evalR (f.map R) w)‖ ≤ 3 / 10 ^ 7) ∧
      (∀ w ∈ rootsC k, ‖evalR (ag.map R) w - conj (evalR (g.map R) w)‖ ≤ 3 / 10 ^ 7) ∧
      ∀ w ∈ rootsC k, ‖evalR (D.map R) w - ((Complex.normSq (evalR (f.map R) w) + Complex.normSq (evalR (g.map R) w) : ℝ) : ℂ)‖ ≤ 31 / 10 ^ 4 :=
  gram_near_variant amd64V k h1 h2 f g hf hg ff fg Sf Sg hSf hSg hS hn

theorem sq_fold_near_variant (va : Variant) (T : ℝ) (hT : T ≤ 10 ^ 80) (l : List F64) (fl : ∀ x ∈ l, x.isFinite = true) (r : F64) (fr : r.isFinite = true) (s : ℝ) (m : Nat)
    (hs : 0 ≤ s) (hsT : s + sqNorm (l.map R) ≤ T) (hm : m + l.length ≤ 4096) (hr : |R r - s| ≤ m * (4 * uu * T + 4 * et)) :
    (l.foldl (fun res coef => va.ops.add res (va.ops.pow2 coef)) r).isFinite = true ∧
    |R (l.foldl (fun res coef => va.ops.add res (va.ops.pow2 coef)) r) - (s + sqNorm (l.map R))| ≤ (m + l.length : Nat) * (4 * uu * T + 4 * et) := by
  induction l generalizing r s m with
  | nil =>
    refine ⟨fr, ?_⟩
    simpa [sqNorm] using hr
  | cons x l ih =>
    simp only [List.forall_mem_cons] at fl
    have e : sqNorm ((x :: l).map R) = R x ^ 2 + sqNorm (l.map R) := by simp [sqNorm]
    rw [e] at hsT
    have q0 := sqNorm_nonneg (l.map R)
    have x0 := sq_nonneg (R x)
    have u0 := uu_pos
    have t0 := et_pos
    have u1 := uu_le
    have t1 := et_num
    have big := Big_ge'
    have T0 : 0 ≤ T := by linarith
    have c0 : 0 ≤ 4 * uu * T + 4 * et := by positivity
    have hm' : (m : ℝ) ≤ 4096 := by
      have : m ≤ 4096 := by omega
      exact_mod_cast this
    have hmc : (m : ℝ) * (4 * uu * T + 4 * et) ≤ 4096 * (4 * uu * T + 4 * et) := mul_le_mul_of_nonneg_right hm' c0
    have uT : uu * T ≤ 1 / 9 / 10 ^ 15 * T := mul_le_mul_of_nonneg_right u1 T0
    have uT0 : 0 ≤ uu * T := by positivity
    have ux : uu * R x ^ 2 ≤ uu * T := mul_le_mul_of_nonneg_left (by linarith) u0.le
    have ex : |R x * R x| = R x ^ 2 := by rw [← pow_two, abs_of_nonneg x0]
    obtain ⟨fp, np⟩ := mul_near x x fl.1 fl.1 (by rw [ex]; linarith)
    rw [ex, ← pow_two] at np
    have b1 : |R r + R (mul x x)| ≤ 102 / 100 * T + 20000 * et := by
      rw [abs_le] at hr np ⊢
      constructor <;> linarith
    obtain ⟨fa, na⟩ := add_near r (mul x x) fr fp (by linarith)
    have b2 : uu * |R r + R (mul x x)| ≤ uu * (102 / 100 * T + 20000 * et) := mul_le_mul_of_nonneg_left b1 u0.le
    have b3 : uu * et ≤ 1 / 9 / 10 ^ 15 * et := mul_le_mul_of_nonneg_right u1 t0.le
    have key : |R (add r (mul x x)) - (s + R x ^ 2)| ≤ ((m + 1 : Nat) : ℝ) * (4 * uu * T + 4 * et) := by
      push_cast
      rw [abs_le] at hr np na ⊢
      constructor <;> linarith
    have := ih fl.2 (add r (mul x x)) fa (s + R x ^ 2) (m + 1) (by linarith) (by linarith) (by simp only [List.length_cons] at hm; omega) key
    rw [e, List.length_cons, show m + (l.length + 1) = m + 1 + l.length by omega, ← add_assoc]
    exact this

theorem sq_fold_near (T : ℝ) (hT : T ≤ 10 ^ 80) (l : List F64) (fl : ∀ x ∈ l, x.isFinite = true) (r : F64) (fr : r.isFinite = true) (s : ℝ) (m : Nat)
    (hs : 0 ≤ s) (hsT : s + sqNorm (l.map R) ≤ T) (hm : m + l.length ≤ 4096) (hr : |R r - s| ≤ m * (4 * uu * T + 4 * et)) :
    (l.foldl (fun res coef => ieeeOps.add res (ieeeOps.pow2 coef)) r).isFinite = true ∧
    |R (l.foldl (fun res coef => ieeeOps.add res (ieeeOps.pow2 coef)) r) - (s + sqNorm (l.map R))| ≤ (m + l.length : Nat) * (4 * uu * T + 4 * et) :=
  sq_fold_near_variant amd64V T hT l fl r fr s m hs hsT hm hr

/-- `Sqnorm` in IEEE arithmetic. -/
theorem Sqnorm_near_variant (va : Variant) (a b : List F64) (fa : ∀ x ∈ a, x.isFinite = true) (fb : ∀ x ∈ b, x.isFinite = true) (la : a.length ≤ 1024) (lb : b.length ≤ 1024)
    (hT : sqNorm (a.map R) + sqNorm (b.map R) ≤ 10 ^ 80) :
    (Sqnorm va.ops [a, b]).isFinite = true ∧ |R (Sqnorm va.ops [a, b]) - (sqNorm (a.map R) + sqNorm (b.map R))| ≤
      1 / 10 ^ 12 * (sqNorm (a.map R) + sqNorm (b.map R)) + 1 / 10 ^ 100 := by
  have a0 := sqNorm_nonneg (a.map R)
  have b0 := sqNorm_nonneg (b.map R)
  set T := sqNorm (a.map R) + sqNorm (b.map R) with hTd
  obtain ⟨z1, z2⟩ := ofInt_near 0 (by norm_num) (by norm_num)
  have u0 := uu_pos
  have t0 := et_pos
  have u1 := uu_le
  have t1 := et_num
  obtain ⟨c1, c2⟩ := (sq_fold_near_variant va) T hT a fa (va.ops.ofInt 0) z1 0 0 le_rfl (by linarith) (by omega) (by rw [z2]; simp)
  rw [zero_add, zero_add] at c2
  obtain ⟨d1, d2⟩ := (sq_fold_near_variant va) T hT b fb _ c1 (sqNorm (a.map R)) a.length a0 (by linarith) (by omega) c2
  unfold Sqnorm
  rw [List.foldl_cons, List.foldl_cons, List.foldl_nil]
  refine ⟨d1, d2.trans ?_⟩
  have hm : ((a.length + b.length : Nat) : ℝ) ≤ 2048 := by
    have : a.length + b.length ≤ 2048 := by omega
    exact_mod_cast this
  have T0 : 0 ≤ T := by linarith
  have uT : uu * T ≤ 1 / 9 / 10 ^ 15 * T := mul_le_mul_of_nonneg_right u1 T0
  have := mul_le_mul_of_nonneg_right hm (by positivity : 0 ≤ 4 * uu * T + 4 * et)
  linarith

theorem Sqnorm_near (a b : List F64) (fa : ∀ x ∈ a, x.isFinite = true) (fb : ∀ x ∈ b, x.isFinite = true) (la : a.length ≤ 1024) (lb : b.length ≤ 1024)
    (hT : sqNorm (a.map R) + sqNorm (b.map R) ≤ 10 ^ 80) :
    (Sqnorm ieeeOps [a, b]).isFinite = true ∧ |R (Sqnorm ieeeOps [a, b]) - (sqNorm (a.map R) + sqNorm (b.map R))| ≤
      1 / 10 ^ 12 * (sqNorm (a.map R) + sqNorm (b.map R)) + 1 / 10 ^ 100 :=
  Sqnorm_near_variant amd64V a b fa fb la lb hT

/-- One half of the second Gram-Schmidt vector. -/
theorem quot_near_variant (va : Variant) (k : Nat) (h1 : 1 ≤ k) (h2 : k ≤ 10) (f : List ℝ) (d : ℂ → ℝ) (af D : List F64) (laf : af.length = 2 ^ k) (lD : D.length = 2 ^ k)
    (faf : ∀ x ∈ af, x.isFinite = true) (fD : ∀ x ∈ D, x.isFinite = true) (baf : l1 (af.map R) + 1 ≤ 4200) (bD : l1 (D.map R) + 1 ≤ 175 * 10 ^ 5)
    (vaf : ∀ w ∈ rootsC k, ‖evalR (af.map R) w - conj (evalR f w)‖ ≤ 3 / 10 ^ 7) (vD : ∀ w ∈ rootsC k, ‖evalR (D.map R) w - (d w : ℂ)‖ ≤ 31 / 10 ^ 4)
    (t : ℝ) (ht : 1 / 10 ≤ t) (ht2 : t ≤ 3163 / 1000) (hd : ∀ w ∈ rootsC k, 1 ≤ d w * t ^ 2) (hfd : ∀ w ∈ rootsC k, Complex.normSq (evalR f w) ≤ d w) :
    ∃ (κ : List ℝ) (r : List F64), κ.length = 2 ^ k ∧ Div va.ops af D = .ok r ∧ List.Forall₂ (RNear (7 / 10 ^ 7 * t ^ 3)) r κ ∧
      ∀ w ∈ rootsC k, ‖evalR κ w - conj (evalR f w) / (d w : ℂ)‖ ≤ 33 / 10 ^ 4 * (‖evalR f w‖ / d w) / d w + 33 / 10 ^ 8 / d w := by
  have t0 : 0 < t := by linarith
  have t2 : t ^ 2 ≤ 1001 / 100 := by nlinarith
  have dlow : ∀ w ∈ rootsC k, 998 / 10000 ≤ d w := by
    intro w hw
    have := hd w hw
    nlinarith
  have Dlow : ∀ w ∈ rootsC k, 96 / 100 * d w ≤ ‖evalR (D.map R) w‖ := by
    intro w hw
    have h3 := vD w hw
    have h4 := norm_sub_norm_le (d w : ℂ) (evalR (D.map R) w)
    have h5 := dlow w hw
    rw [norm_sub_rev, Complex.norm_real, Real.norm_eq_abs, abs_of_nonneg (by linarith)] at h4
    linarith
  -- |f| <= t d
  have fle : ∀ w ∈ rootsC k, ‖evalR f w‖ ≤ t * d w := by
    intro w hw
    have h3 := hfd w hw
    have h4 := hd w hw
    have h5 := dlow w hw
    rw [Complex.normSq_eq_norm_sq] at h3
    apply (abs_le_of_sq_le_sq' _ (by positivity)).2
    nlinarith
  have δge : 96 / 100 / t ^ 2 ≥ 1 / 20 := by
    rw [ge_iff_le, le_div_iff₀ (by positivity)]
    linarith
  obtain ⟨κ, r, lκ, vκ, er, nr⟩ := (Div_near_variant va) k h1 h2 af D laf lD faf fD 4200 (175 * 10 ^ 5) (105 / 100 * t) (96 / 100 / t ^ 2) baf bD (by norm_num) (by norm_num)
    (by linarith) (by norm_num at δge ⊢; linarith) (by norm_num at δge ⊢; linarith) (by
      intro w hw
      refine le_trans ?_ (Dlow w hw)
      rw [div_le_iff₀ (by positivity)]
      have := hd w hw
      linarith) (by
      intro w hw
      have h3 := fle w hw
      have h4 := vaf w hw
      have h5 := norm_sub_norm_le (evalR (af.map R) w) (conj (evalR f w))
      rw [Complex.norm_conj] at h5
      have h6 := Dlow w hw
      have h7 := dlow w hw
      have h8 : 105 / 100 * t * (96 / 100 * d w) ≤ 105 / 100 * t * ‖evalR (D.map R) w‖ := mul_le_mul_of_nonneg_left h6 (by positivity)
      have h9 : 1 / 10 * (998 / 10000) ≤ t * d w := mul_le_mul ht h7 (by norm_num) t0.le
      linarith)
  refine ⟨κ, r, lκ, er, forall₂_mono nr fun x y h => h.mono ?_, ?_⟩
  · have e1 : (31 : ℝ) / 10 ^ 15 * 4200 / (96 / 100 / t ^ 2) = 31 / 10 ^ 15 * 4200 * (100 / 96) * t ^ 2 := by field_simp
    have e2 : 105 / 100 * t * ((31 : ℝ) / 10 ^ 15 * (175 * 10 ^ 5) / (96 / 100 / t ^ 2)) = 105 / 100 * (31 / 10 ^ 15 * (175 * 10 ^ 5)) * (100 / 96) * t ^ 3 := by
      field_simp
    rw [e1, e2]
    have g1 : t ^ 2 ≤ 10 * t ^ 3 := by nlinarith [sq_nonneg t]
    have g2 : t ≤ 10 * t ^ 2 := by nlinarith
    have g3 : (1 : ℝ) ≤ 10 * t := by linarith
    linarith
  · intro w hw
    have d0 : 0 < d w := by have := dlow w hw; linarith
    have D0 := Dlow w hw
    have Dp : 0 < ‖evalR (D.map R) w‖ := by have : 0 < 96 / 100 * d w := by positivity
                                            linarith
    have Dne : evalR (D.map R) w ≠ 0 := norm_pos_iff.1 Dp
    have dne : (d w : ℂ) ≠ 0 := by exact_mod_cast d0.ne'
    rw [vκ w hw]
    have e : evalR (af.map R) w / evalR (D.map R) w - conj (evalR f w) / (d w : ℂ) = (evalR (af.map R) w - conj (evalR f w)) / evalR (D.map R) w +
        conj (evalR f w) / (d w : ℂ) * ((d w : ℂ) - evalR (D.map R) w) / evalR (D.map R) w := by field_simp; ring
    rw [e]
    refine (norm_add_le _ _).trans ?_
    rw [norm_div, norm_div, norm_mul, norm_div, Complex.norm_conj, Complex.norm_real, Real.norm_eq_abs, abs_of_pos d0, norm_sub_rev (d w : ℂ)]
    have F0 : 0 ≤ ‖evalR f w‖ / d w := by positivity
    have q1 : ‖evalR (af.map R) w - conj (evalR f w)‖ / ‖evalR (D.map R) w‖ ≤ 3 / 10 ^ 7 / (96 / 100 * d w) :=
      div_le_div₀ (by norm_num) (vaf w hw) (by positivity) D0
    have q2 : ‖evalR f w‖ / d w * ‖evalR (D.map R) w - (d w : ℂ)‖ / ‖evalR (D.map R) w‖ ≤ ‖evalR f w‖ / d w * (31 / 10 ^ 4) / (96 / 100 * d w) :=
      div_le_div₀ (by positivity) (mul_le_mul_of_nonneg_left (vD w hw) F0) (by positivity) D0
    have e1 : (3 : ℝ) / 10 ^ 7 / (96 / 100 * d w) = 3 / 10 ^ 7 * (100 / 96) * (1 / d w) := by field_simp
    have e2 : ‖evalR f w‖ / d w * (31 / 10 ^ 4) / (96 / 100 * d w) = 31 / 10 ^ 4 * (100 / 96) * (‖evalR f w‖ / d w / d w) := by field_simp
    have e3 : 33 / 10 ^ 4 * (‖evalR f w‖ / d w) / d w = 33 / 10 ^ 4 * (‖evalR f w‖ / d w / d w) := by ring
    have e4 : (33 : ℝ) / 10 ^ 8 / d w = 33 / 10 ^ 8 * (1 / d w) := by ring
    rw [e1] at q1
    rw [e2] at q2
    rw [e3, e4]
    have P1 : 0 ≤ 1 / d w := by positivity
    have P2 : 0 ≤ ‖evalR f w‖ / d w / d w := by positivity
    linarith

theorem quot_near (k : Nat) (h1 : 1 ≤ k) (h2 : k ≤ 10) (f : List ℝ) (d : ℂ → ℝ) (af D : List F64) (laf : af.length = 2 ^ k) (lD : D.length = 2 ^ k)
    (faf : ∀ x ∈ af, x.isFinite = true) (fD : ∀ x ∈ D, x.isFinite = true) (baf : l1 (af.map R) + 1 ≤ 4200) (bD : l1 (D.map R) + 1 ≤ 175 * 10 ^ 5)
    (vaf : ∀ w ∈ rootsC k, ‖evalR (af.map R) w - conj (evalR f w)‖ ≤ 3 / 10 ^ 7) (vD : ∀ w ∈ rootsC k, ‖evalR (D.map R) w - (d w : ℂ)‖ ≤ 31 / 10 ^ 4)
    (t : ℝ) (ht : 1 / 10 ≤ t) (ht2 : t ≤ 3163 / 1000) (hd : ∀ w ∈ rootsC k, 1 ≤ d w * t ^ 2) (hfd : ∀ w ∈ rootsC k, Complex.normSq (evalR f w) ≤ d w) :
    ∃ (κ : List ℝ) (r : List F64), κ.length = 2 ^ k ∧ Div ieeeOps af D = .ok r ∧ List.Forall₂ (RNear (7 / 10 ^ 7 * t ^ 3)) r κ ∧
      ∀ w ∈ rootsC k, ‖evalR κ w - conj (evalR f w) / (d w : ℂ)‖ ≤ 33 / 10 ^ 4 * (‖evalR f w‖ / d w) / d w + 33 / 10 ^ 8 / d w :=
  quot_near_variant amd64V k h1 h2 f d af D laf lD faf fD baf bD vaf vD t ht ht2 hd hfd

end Falcon
