import Verif.Lemmas.FftNear
import Verif.Props.Babai
/-!
# Babai reduction in IEEE arithmetic: lemmas
-/

namespace Falcon
open Spec Polynomial ComplexConjugate F64

theorem sqNorm_nonneg (l : List ℝ) : 0 ≤ sqNorm l := by
  apply List.sum_nonneg
  intro y hy
  obtain ⟨z, _, rfl⟩ := List.mem_map.1 hy
  positivity

theorem sqNorm_split (f : List ℝ) (h : 2 ∣ f.length) : sqNorm f = sqNorm (splitPolys f).1 + sqNorm (splitPolys f).2 := by
  induction f using List.twoStepInduction with
  | nil => simp [splitPolys, sqNorm]
  | singleton x => simp at h
  | cons_cons x y f ih _ =>
    have h' : 2 ∣ f.length := by simp only [List.length_cons] at h; omega
    have := ih h'
    simp only [sqNorm, splitPolys, List.map_cons, List.sum_cons] at this ⊢
    rw [this]
    ring

theorem sum_range_pairs (m : Nat) (u : Nat → ℝ) : ∑ i ∈ Finset.range (2 * m), u i = ∑ i ∈ Finset.range m, (u (2 * i) + u (2 * i + 1)) := by
  induction m with
  | zero => simp
  | succ m ih =>
    rw [show 2 * (m + 1) = 2 * m + 1 + 1 by ring, Finset.sum_range_succ, Finset.sum_range_succ, ih, Finset.sum_range_succ]
    ring

/-- Parseval's identity for the roots of `x^n+1`. -/
theorem parseval (k : Nat) (f : List ℝ) (hf : f.length = 2 ^ k) :
    ∑ i ∈ Finset.range (2 ^ k), Complex.normSq (evalR f (rootC k i)) = 2 ^ k * sqNorm f := by
  induction k generalizing f with
  | zero =>
    match f, hf with
    | [x], _ =>
      simp [evalR, sqNorm, Complex.normSq_apply]
      ring
  | succ k ih =>
    have h2 : 2 ∣ f.length := by rw [hf, pow_succ]; exact Dvd.intro_left _ rfl
    have hl := splitPolys_length1 f
    have hl' := splitPolys_length2 f
    rw [hf, pow_succ, Nat.mul_div_cancel _ (by decide)] at hl hl'
    rw [pow_succ, mul_comm (2 ^ k) 2, sum_range_pairs]
    have e : ∀ i, Complex.normSq (evalR f (rootC (k + 1) (2 * i))) + Complex.normSq (evalR f (rootC (k + 1) (2 * i + 1))) =
        2 * (Complex.normSq (evalR (splitPolys f).1 (rootC k i)) + Complex.normSq (evalR (splitPolys f).2 (rootC k i))) := by
      intro i
      rw [evalR_split f h2, evalR_split f h2 (rootC (k + 1) (2 * i + 1)), rootC_odd, neg_sq, rootC_sq, Nat.mul_div_cancel_left _ (by decide)]
      have hw : Complex.normSq (rootC (k + 1) (2 * i)) = 1 := by rw [Complex.normSq_eq_norm_sq, rootC_norm]; norm_num
      generalize evalR (splitPolys f).1 (rootC k i) = A
      have hB : Complex.normSq (evalR (splitPolys f).2 (rootC k i)) = Complex.normSq (rootC (k + 1) (2 * i) * evalR (splitPolys f).2 (rootC k i)) := by
        rw [Complex.normSq_mul, hw, one_mul]
      rw [hB, neg_mul]
      generalize rootC (k + 1) (2 * i) * evalR (splitPolys f).2 (rootC k i) = B
      simp only [Complex.normSq_apply, Complex.add_re, Complex.add_im, Complex.neg_re, Complex.neg_im]
      ring
    rw [Finset.sum_congr rfl fun i _ => e i, ← Finset.mul_sum, Finset.sum_add_distrib, ih _ hl, ih _ hl', sqNorm_split f h2]
    push_cast
    ring

/-- The coefficients are bounded by the values at the roots. -/
theorem coef_le (k : Nat) (f : List ℝ) (hf : f.length = 2 ^ k) (M : ℝ) (hM0 : 0 ≤ M) (hM : ∀ w ∈ rootsC k, ‖evalR f w‖ ≤ M) : ∀ x ∈ f, |x| ≤ M := by
  intro x hx
  have h1 := sq_le_sqNorm f x hx
  have h2 := parseval k f hf
  have h3 : ∑ i ∈ Finset.range (2 ^ k), Complex.normSq (evalR f (rootC k i)) ≤ ∑ i ∈ Finset.range (2 ^ k), M ^ 2 := by
    apply Finset.sum_le_sum
    intro i hi
    rw [Complex.normSq_eq_norm_sq]
    exact pow_le_pow_left₀ (norm_nonneg _) (hM _ (List.mem_map_of_mem (List.mem_range.2 (Finset.mem_range.1 hi)))) 2
  rw [h2, Finset.sum_const, Finset.card_range, nsmul_eq_mul] at h3
  push_cast at h3
  have h4 : sqNorm f ≤ M ^ 2 := le_of_mul_le_mul_left h3 (by positivity)
  exact abs_le_of_sq_le_sq (h1.trans h4) hM0

/-- Cauchy's inequality. -/
theorem l1_sq_le (f : List ℝ) : l1 f ^ 2 ≤ f.length * sqNorm f := by
  induction f with
  | nil => simp [l1, sqNorm]
  | cons x f ih =>
    have e1 : l1 (x :: f) = |x| + l1 f := l1_cons x f
    have e2 : sqNorm (x :: f) = |x| ^ 2 + sqNorm f := by simp [sqNorm]
    rw [e1, e2, List.length_cons]
    push_cast
    have n0 := sqNorm_nonneg f
    have n1 := l1_nonneg f
    have a0 := abs_nonneg x
    rcases Nat.eq_zero_or_pos f.length with h0 | h0
    · rw [List.length_eq_zero_iff] at h0
      subst h0
      simp [l1, sqNorm]
    · have hm : (1 : ℝ) ≤ f.length := by exact_mod_cast h0
      generalize (f.length : ℝ) = m at hm ih
      have key : 2 * |x| * l1 f ≤ m * |x| ^ 2 + sqNorm f := by
        have : m * (2 * |x| * l1 f) ≤ m * (m * |x| ^ 2 + sqNorm f) := by nlinarith [sq_nonneg (m * |x| - l1 f)]
        exact le_of_mul_le_mul_left this (by linarith)
      nlinarith

theorem conj_cnear_variant (va : Variant) (e : ℝ) (c : F64 × F64) (z : ℂ) (h : CNear e c z) : CNear e (va.ops.conj c) (conj z) := by
  obtain ⟨f, v⟩ := conj_fin c h.1
  refine ⟨f, ?_⟩
  rw [v, ← map_sub, Complex.norm_conj]
  exact h.2

theorem conj_cnear (e : ℝ) (c : F64 × F64) (z : ℂ) (h : CNear e c z) : CNear e (ieeeOps.conj c) (conj z) :=
  conj_cnear_variant amd64V e c z h

/-- The FFT with a relative bound. -/
theorem FFT_near'_variant (va : Variant) (k : Nat) (h1 : 1 ≤ k) (h2 : k ≤ 10) (f : List F64) (hf : f.length = 2 ^ k) (hfin : ∀ x ∈ f, x.isFinite = true) (S : ℝ)
    (hS : l1 (f.map R) + 1 ≤ S) (hS2 : S ≤ 10 ^ 40) :
    ∃ c, FFT va.ops f = .ok c ∧ List.Forall₂ (CNear (31 / 10 ^ 15 * S)) c ((rootsC k).map (evalR (f.map R))) := by
  have big := Big_ge'
  have l0 := l1_nonneg (f.map R)
  obtain ⟨c, e, h⟩ := (FFT_near_variant va) k h1 h2 f hf hfin (by linarith)
  refine ⟨c, e, forall₂_mono h fun a b hab => hab.mono ?_⟩
  refine (fftErr_num k h2 _ l0).trans ?_
  linarith

theorem FFT_near' (k : Nat) (h1 : 1 ≤ k) (h2 : k ≤ 10) (f : List F64) (hf : f.length = 2 ^ k) (hfin : ∀ x ∈ f, x.isFinite = true) (S : ℝ)
    (hS : l1 (f.map R) + 1 ≤ S) (hS2 : S ≤ 10 ^ 40) :
    ∃ c, FFT ieeeOps f = .ok c ∧ List.Forall₂ (CNear (31 / 10 ^ 15 * S)) c ((rootsC k).map (evalR (f.map R))) :=
  FFT_near'_variant amd64V k h1 h2 f hf hfin S hS hS2

theorem prod_slot_variant (va : Variant) (S T : ℝ) (hS : 1 ≤ S) (hT : 1 ≤ T) (hS2 : S ≤ 10 ^ 40) (hT2 : T ≤ 10 ^ 40) (x y : F64 × F64) (X Y : ℂ)
    (hx : CNear (31 / 10 ^ 15 * S) x X) (hy : CNear (31 / 10 ^ 15 * T) y Y) (nX : ‖X‖ ≤ S) (nY : ‖Y‖ ≤ T) :
    CNear (63 / 10 ^ 15 * (S * T)) (va.ops.cmul x y) (X * Y) := by
  have big := Big_ge'
  have ST1 : 1 ≤ S * T := by nlinarith
  have ST2 : S * T ≤ 10 ^ 40 * 10 ^ 40 := mul_le_mul hS2 hT2 (by linarith) (by positivity)
  have u0 := uu_pos
  have u1 := uu_le
  have t1 := et_num
  have hc := (cmul_cnear_variant va) (31 / 10 ^ 15 * S) (31 / 10 ^ 15 * T) S T x y X Y hx hy nX nY (by nlinarith)
  refine hc.mono ?_
  have e : S * (31 / 10 ^ 15 * T) + 31 / 10 ^ 15 * S * (T + 31 / 10 ^ 15 * T) + 4 * uu * ((S + 31 / 10 ^ 15 * S) * (T + 31 / 10 ^ 15 * T)) + 8 * et
      = (62 / 10 ^ 15 + 961 / 10 ^ 30) * (S * T) + 4 * (1 + 31 / 10 ^ 15) ^ 2 * (uu * (S * T)) + 8 * et := by ring
  rw [e]
  have h1 : uu * (S * T) ≤ 1 / 9 / 10 ^ 15 * (S * T) := mul_le_mul_of_nonneg_right u1 (by linarith)
  have h2 : 4 * (1 + 31 / 10 ^ 15 : ℝ) ^ 2 * (uu * (S * T)) ≤ 5 * (1 / 9 / 10 ^ 15 * (S * T)) :=
    mul_le_mul (by norm_num) h1 (by positivity) (by norm_num)
  linarith

theorem prod_slot (S T : ℝ) (hS : 1 ≤ S) (hT : 1 ≤ T) (hS2 : S ≤ 10 ^ 40) (hT2 : T ≤ 10 ^ 40) (x y : F64 × F64) (X Y : ℂ)
    (hx : CNear (31 / 10 ^ 15 * S) x X) (hy : CNear (31 / 10 ^ 15 * T) y Y) (nX : ‖X‖ ≤ S) (nY : ‖Y‖ ≤ T) :
    CNear (63 / 10 ^ 15 * (S * T)) (ieeeOps.cmul x y) (X * Y) :=
  prod_slot_variant amd64V S T hS hT hS2 hT2 x y X Y hx hy nX nY

theorem sum_slot_variant (va : Variant) (P Q : ℝ) (hP : 1 ≤ P) (hQ : 1 ≤ Q) (hP2 : P ≤ 10 ^ 80) (hQ2 : Q ≤ 10 ^ 80) (a b : F64 × F64) (A B : ℂ)
    (ha : CNear (63 / 10 ^ 15 * P) a A) (hb : CNear (63 / 10 ^ 15 * Q) b B) (nA : ‖A‖ ≤ P) (nB : ‖B‖ ≤ Q) :
    CNear (64 / 10 ^ 15 * (P + Q)) (va.ops.cadd a b) (A + B) := by
  have big := Big_ge'
  have u0 := uu_pos
  have u1 := uu_le
  have t1 := et_num
  have h := cadd_cnear _ _ (P + Q) a b A B ha hb ((norm_add_le _ _).trans (add_le_add nA nB)) (by linarith)
  refine h.mono ?_
  have h1 : uu * (P + Q + 63 / 10 ^ 15 * P + 63 / 10 ^ 15 * Q) ≤ 1 / 9 / 10 ^ 15 * (P + Q + 63 / 10 ^ 15 * P + 63 / 10 ^ 15 * Q) :=
    mul_le_mul_of_nonneg_right u1 (by positivity)
  linarith

theorem sum_slot (P Q : ℝ) (hP : 1 ≤ P) (hQ : 1 ≤ Q) (hP2 : P ≤ 10 ^ 80) (hQ2 : Q ≤ 10 ^ 80) (a b : F64 × F64) (A B : ℂ)
    (ha : CNear (63 / 10 ^ 15 * P) a A) (hb : CNear (63 / 10 ^ 15 * Q) b B) (nA : ‖A‖ ≤ P) (nB : ‖B‖ ≤ Q) :
    CNear (64 / 10 ^ 15 * (P + Q)) (ieeeOps.cadd a b) (A + B) :=
  sum_slot_variant amd64V P Q hP hQ hP2 hQ2 a b A B ha hb nA nB

/-- The quotient of a slot by a real denominator. -/
theorem div_slot_variant (va : Variant) (n m : F64 × F64) (N : ℂ) (d En Ed V : ℝ) (hn : CNear En n N) (hm : CNear Ed m (d : ℂ)) (hd : 1 / 10 ≤ d) (hEd : Ed ≤ d / 20)
    (hN : ‖N‖ ≤ V * d) (hV : V ≤ 10 ^ 25) (hd2 : d ≤ 10 ^ 30) (hEn : En ≤ 10 ^ 55) :
    CNear (106 / 100 * (En / d + V * (Ed / d)) + 1 / 10 ^ 14 * (V + En / d) + 1 / 10 ^ 80) (va.ops.cdiv n m) (N / d) := by
  have d0 : 0 < d := by linarith
  have V0 : 0 ≤ V := by
    have := (norm_nonneg N).trans hN
    by_contra hc
    push Not at hc
    nlinarith
  have En0 := hn.nonneg
  have Ed0 := hm.nonneg
  have nd : ‖(d : ℂ)‖ = d := by rw [Complex.norm_real, Real.norm_eq_abs, abs_of_pos d0]
  have Vd : V * d ≤ 10 ^ 25 * 10 ^ 30 := mul_le_mul hV hd2 d0.le (by positivity)
  have n1 : ‖cval n‖ ≤ V * d + En := hn.norm_le hN
  have m1 : ‖cval m‖ ≤ d + Ed := hm.norm_le nd.le
  have m2 : 95 / 100 * d ≤ ‖cval m‖ := by
    have := norm_sub_norm_le (d : ℂ) (cval m)
    rw [norm_sub_rev, nd] at this
    linarith [hm.2]
  have m0 : 0 < ‖cval m‖ := by linarith
  have mne : cval m ≠ 0 := norm_pos_iff.1 m0
  have dne : (d : ℂ) ≠ 0 := by exact_mod_cast d0.ne'
  obtain ⟨f, h⟩ := va.cdiv_near n m hn.1 hm.1 (by linarith) (by linarith) (by linarith)
  refine ⟨f, ?_⟩
  have e : cval n / cval m - N / d = (cval n - N) / cval m + N * (d - cval m) / (d * cval m) := by field_simp; ring
  have q1 : ‖(cval n - N) / cval m‖ ≤ En / (95 / 100 * d) := by
    rw [norm_div]
    exact div_le_div₀ En0 hn.2 (by positivity) m2
  have q2 : ‖N * (d - cval m) / (d * cval m)‖ ≤ V * d * Ed / (d * (95 / 100 * d)) := by
    rw [norm_div, norm_mul, norm_mul, nd, norm_sub_rev]
    apply div_le_div₀ (by positivity) (mul_le_mul hN hm.2 (norm_nonneg _) (by positivity)) (by positivity)
    exact mul_le_mul_of_nonneg_left m2 d0.le
  have e1 : En / (95 / 100 * d) = 100 / 95 * (En / d) := by field_simp
  have e2 : V * d * Ed / (d * (95 / 100 * d)) = 100 / 95 * (V * (Ed / d)) := by field_simp
  rw [e1] at q1
  rw [e2] at q2
  have q3 : ‖cval n‖ / ‖cval m‖ ≤ (V * d + En) / (95 / 100 * d) := div_le_div₀ (by positivity) n1 (by positivity) m2
  have e3 : (V * d + En) / (95 / 100 * d) = 100 / 95 * (V + En / d) := by field_simp
  rw [e3] at q3
  have E1 : 0 ≤ En / d := by positivity
  have E2 : 0 ≤ V * (Ed / d) := by positivity
  have u0 := uu_pos
  have u1 := uu_le
  have q4 : 40 * uu * (‖cval n‖ / ‖cval m‖) ≤ 40 * (1 / 9 / 10 ^ 15) * (100 / 95 * (V + En / d)) :=
    mul_le_mul (by linarith) q3 (by positivity) (by norm_num)
  have t := norm_add_le (cval (va.ops.cdiv n m) - cval n / cval m) (cval n / cval m - N / d)
  rw [sub_add_sub_cancel] at t
  rw [e] at t
  have t2 := norm_add_le ((cval n - N) / cval m) (N * (d - cval m) / (d * cval m))
  linarith

theorem div_slot (n m : F64 × F64) (N : ℂ) (d En Ed V : ℝ) (hn : CNear En n N) (hm : CNear Ed m (d : ℂ)) (hd : 1 / 10 ≤ d) (hEd : Ed ≤ d / 20)
    (hN : ‖N‖ ≤ V * d) (hV : V ≤ 10 ^ 25) (hd2 : d ≤ 10 ^ 30) (hEn : En ≤ 10 ^ 55) :
    CNear (106 / 100 * (En / d + V * (Ed / d)) + 1 / 10 ^ 14 * (V + En / d) + 1 / 10 ^ 80) (ieeeOps.cdiv n m) (N / d) :=
  div_slot_variant amd64V n m N d En Ed V hn hm hd hEd hN hV hd2 hEn

theorem cauchy2 (a b c d : ℂ) (T ρ : ℝ) (hρ : 0 < ρ) (hT : 0 ≤ T) (hab : Complex.normSq a + Complex.normSq b ≤ T ^ 2)
    (hd : ρ ^ 2 ≤ Complex.normSq c + Complex.normSq d) : ‖a * conj c + b * conj d‖ ≤ T / ρ * (Complex.normSq c + Complex.normSq d) := by
  set D := Complex.normSq c + Complex.normSq d with hD
  have D0 : 0 < D := lt_of_lt_of_le (by positivity) hd
  have h : ‖a * conj c + b * conj d‖ ^ 2 ≤ (Complex.normSq a + Complex.normSq b) * D := by
    rw [← Complex.normSq_eq_norm_sq, hD]
    have h0 := Complex.normSq_nonneg (a * d - b * c)
    have e : (Complex.normSq a + Complex.normSq b) * (Complex.normSq c + Complex.normSq d) =
        Complex.normSq (a * conj c + b * conj d) + Complex.normSq (a * d - b * c) := by
      simp only [Complex.normSq_apply, Complex.add_re, Complex.add_im, Complex.mul_re, Complex.mul_im, Complex.conj_re, Complex.conj_im,
        Complex.sub_re, Complex.sub_im]
      ring
    linarith
  apply abs_le_of_sq_le_sq' _ (by positivity) |>.2
  have h2 : (Complex.normSq a + Complex.normSq b) * D ≤ T ^ 2 * D := mul_le_mul_of_nonneg_right hab D0.le
  have h3 : (T / ρ * D) ^ 2 = T ^ 2 * D * (D / ρ ^ 2) := by field_simp
  rw [h3]
  have h4 : 1 ≤ D / ρ ^ 2 := by rw [le_div_iff₀ (by positivity)]; linarith
  have h5 : 0 ≤ T ^ 2 * D := by positivity
  nlinarith

/-- One slot of the Babai quotient. -/
theorem babai_slot_variant (va : Variant) (Sf Sg TF TG : ℝ) (hSf : 1 ≤ Sf) (hSg : 1 ≤ Sg) (hTF : 1 ≤ TF) (hTG : 1 ≤ TG) (hS : Sf ^ 2 + Sg ^ 2 ≤ 174 * 10 ^ 5)
    (hTF2 : TF ≤ 10 ^ 23) (hTG2 : TG ≤ 10 ^ 23) (f' g' F' G' : F64 × F64) (f g F G : ℂ) (nf : ‖f‖ ≤ Sf) (ng : ‖g‖ ≤ Sg) (nF : ‖F‖ ≤ TF) (nG : ‖G‖ ≤ TG)
    (hf : CNear (31 / 10 ^ 15 * Sf) f' f) (hg : CNear (31 / 10 ^ 15 * Sg) g' g) (hF : CNear (31 / 10 ^ 15 * TF) F' F) (hG : CNear (31 / 10 ^ 15 * TG) G' G)
    (hd : 784 / 100 ≤ Complex.normSq f + Complex.normSq g) :
    CNear (56 / 10 ^ 9 * (TF + TG)) (va.ops.cdiv (va.ops.cadd (va.ops.cmul F' (va.ops.conj f')) (va.ops.cmul G' (va.ops.conj g')))
        (va.ops.cadd (va.ops.cmul f' (va.ops.conj f')) (va.ops.cmul g' (va.ops.conj g'))))
      ((F * conj f + G * conj g) / (f * conj f + g * conj g)) ∧
    ‖(F * conj f + G * conj g) / (f * conj f + g * conj g)‖ ≤ (TF + TG) / (28 / 10) := by
  have Sf2 : Sf ≤ 4172 := by nlinarith
  have Sg2 : Sg ≤ 4172 := by nlinarith
  have cf := (conj_cnear_variant va) _ _ _ hf
  have cg := (conj_cnear_variant va) _ _ _ hg
  have ncf : ‖conj f‖ ≤ Sf := by rw [Complex.norm_conj]; exact nf
  have ncg : ‖conj g‖ ≤ Sg := by rw [Complex.norm_conj]; exact ng
  have mul_le : ∀ (x y : ℂ) (A B : ℝ), 0 ≤ A → ‖x‖ ≤ A → ‖y‖ ≤ B → ‖x * y‖ ≤ A * B := fun x y A B hA hx hy => by
    rw [norm_mul]; exact mul_le_mul hx hy (norm_nonneg _) hA
  have p1 := (prod_slot_variant va) TF Sf hTF hSf (by linarith) (by linarith) _ _ _ _ hF cf nF ncf
  have p2 := (prod_slot_variant va) TG Sg hTG hSg (by linarith) (by linarith) _ _ _ _ hG cg nG ncg
  have p3 := (prod_slot_variant va) Sf Sf hSf hSf (by linarith) (by linarith) _ _ _ _ hf cf nf ncf
  have p4 := (prod_slot_variant va) Sg Sg hSg hSg (by linarith) (by linarith) _ _ _ _ hg cg ng ncg
  have TFS : TF * Sf ≤ 10 ^ 23 * 4172 := mul_le_mul hTF2 Sf2 (by linarith) (by positivity)
  have TGS : TG * Sg ≤ 10 ^ 23 * 4172 := mul_le_mul hTG2 Sg2 (by linarith) (by positivity)
  have TFS' : TF * Sf ≤ TF * 4172 := mul_le_mul_of_nonneg_left Sf2 (by linarith)
  have TGS' : TG * Sg ≤ TG * 4172 := mul_le_mul_of_nonneg_left Sg2 (by linarith)
  have s1 := (sum_slot_variant va) (TF * Sf) (TG * Sg) (by nlinarith) (by nlinarith) (by linarith) (by linarith) _ _ _ _ p1 p2
    (mul_le _ _ _ _ (by linarith) nF ncf) (mul_le _ _ _ _ (by linarith) nG ncg)
  have s2 := (sum_slot_variant va) (Sf * Sf) (Sg * Sg) (by nlinarith) (by nlinarith) (by nlinarith) (by nlinarith) _ _ _ _ p3 p4
    (mul_le _ _ _ _ (by linarith) nf ncf) (mul_le _ _ _ _ (by linarith) ng ncg)
  set d := Complex.normSq f + Complex.normSq g with hdd
  have ed : f * conj f + g * conj g = (d : ℂ) := by
    rw [Complex.mul_conj, Complex.mul_conj, hdd]; push_cast; rfl
  rw [ed] at s2 ⊢
  have d0 : 0 < d := by linarith
  have cN := cauchy2 F G f g (TF + TG) (28 / 10) (by norm_num) (by linarith) (by
    rw [Complex.normSq_eq_norm_sq, Complex.normSq_eq_norm_sq]
    have a1 := pow_le_pow_left₀ (norm_nonneg F) nF 2
    have a2 := pow_le_pow_left₀ (norm_nonneg G) nG 2
    nlinarith) (by rw [← hdd]; norm_num; norm_num at hd; linarith)
  rw [← hdd] at cN
  have dup : d ≤ 174 * 10 ^ 5 := by
    rw [hdd, Complex.normSq_eq_norm_sq, Complex.normSq_eq_norm_sq]
    have a1 := pow_le_pow_left₀ (norm_nonneg f) nf 2
    have a2 := pow_le_pow_left₀ (norm_nonneg g) ng 2
    linarith
  have hEd : 64 / 10 ^ 15 * (Sf * Sf + Sg * Sg) ≤ 112 / 10 ^ 8 := by nlinarith
  have q := (div_slot_variant va) _ _ _ d _ _ ((TF + TG) / (28 / 10)) s1 s2 (by linarith) (by linarith) cN (by linarith) (by linarith) (by linarith)
  have V0 : 0 ≤ (TF + TG) / (28 / 10) := by apply div_nonneg <;> linarith
  have g1 : 64 / 10 ^ 15 * (TF * Sf + TG * Sg) / d ≤ 64 / 10 ^ 15 * ((TF + TG) * 4172) / (784 / 100) := by
    apply div_le_div₀ (by nlinarith) (by linarith) (by norm_num) hd
  have g2 : 64 / 10 ^ 15 * (Sf * Sf + Sg * Sg) / d ≤ 112 / 10 ^ 8 / (784 / 100) := div_le_div₀ (by norm_num) hEd (by norm_num) hd
  have g3 : (TF + TG) / (28 / 10) * (64 / 10 ^ 15 * (Sf * Sf + Sg * Sg) / d) ≤ (TF + TG) / (28 / 10) * (112 / 10 ^ 8 / (784 / 100)) :=
    mul_le_mul_of_nonneg_left g2 V0
  constructor
  · refine q.mono ?_
    linarith
  · rw [norm_div, Complex.norm_real, Real.norm_eq_abs, abs_of_pos d0, div_le_iff₀ d0]
    exact cN

theorem babai_slot (Sf Sg TF TG : ℝ) (hSf : 1 ≤ Sf) (hSg : 1 ≤ Sg) (hTF : 1 ≤ TF) (hTG : 1 ≤ TG) (hS : Sf ^ 2 + Sg ^ 2 ≤ 174 * 10 ^ 5)
    (hTF2 : TF ≤ 10 ^ 23) (hTG2 : TG ≤ 10 ^ 23) (f' g' F' G' : F64 × F64) (f g F G : ℂ) (nf : ‖f‖ ≤ Sf) (ng : ‖g‖ ≤ Sg) (nF : ‖F‖ ≤ TF) (nG : ‖G‖ ≤ TG)
    (hf : CNear (31 / 10 ^ 15 * Sf) f' f) (hg : CNear (31 / 10 ^ 15 * Sg) g' g) (hF : CNear (31 / 10 ^ 15 * TF) F' F) (hG : CNear (31 / 10 ^ 15 * TG) G' G)
    (hd : 784 / 100 ≤ Complex.normSq f + Complex.normSq g) :
    CNear (56 / 10 ^ 9 * (TF + TG)) (ieeeOps.cdiv (ieeeOps.cadd (ieeeOps.cmul F' (ieeeOps.conj f')) (ieeeOps.cmul G' (ieeeOps.conj g')))
        (ieeeOps.cadd (ieeeOps.cmul f' (ieeeOps.conj f')) (ieeeOps.cmul g' (ieeeOps.conj g'))))
      ((F * conj f + G * conj g) / (f * conj f + g * conj g)) ∧
    ‖(F * conj f + G * conj g) / (f * conj f + g * conj g)‖ ≤ (TF + TG) / (28 / 10) :=
  babai_slot_variant amd64V Sf Sg TF TG hSf hSg hTF hTG hS hTF2 hTG2 f' g' F' G' f g F G nf ng nF nG hf hg hF hG hd

/-- The Babai coefficients in IEEE arithmetic are the rounded coefficients of a vector close to the quotient
`(F f* + G g*)/(f f* + g g*)`. -/
theorem babai_near_variant (va : Variant) (k : Nat) (h1 : 1 ≤ k) (h2 : k ≤ 10) (f g : List ℝ) (hf : f.length = 2 ^ k) (hg : g.length = 2 ^ k) (fa ga : List (F64 × F64))
    (FA GA : List F64) (hF : FA.length = 2 ^ k) (hG : GA.length = 2 ^ k) (fF : ∀ x ∈ FA, x.isFinite = true) (fG : ∀ x ∈ GA, x.isFinite = true)
    (Sf Sg TF TG : ℝ) (hSf : l1 f + 1 ≤ Sf) (hSg : l1 g + 1 ≤ Sg) (hTF : l1 (FA.map R) + 1 ≤ TF) (hTG : l1 (GA.map R) + 1 ≤ TG)
    (hS : Sf ^ 2 + Sg ^ 2 ≤ 174 * 10 ^ 5) (hTF2 : TF ≤ 10 ^ 23) (hTG2 : TG ≤ 10 ^ 23)
    (nf : List.Forall₂ (CNear (31 / 10 ^ 15 * Sf)) fa ((rootsC k).map (evalR f))) (ng : List.Forall₂ (CNear (31 / 10 ^ 15 * Sg)) ga ((rootsC k).map (evalR g)))
    (hd : ∀ w ∈ rootsC k, 784 / 100 ≤ Complex.normSq (evalR f w) + Complex.normSq (evalR g w)) :
    ∃ κ : List ℝ, κ.length = 2 ^ k ∧
      (X ^ 2 ^ k + 1 : ℝ[X]) ∣ poly κ * gramPoly f g - (poly (FA.map R) * poly (adjList f) + poly (GA.map R) * poly (adjList g)) ∧
      ∃ r : List F64, babai va.ops fa ga FA GA = .ok (RoundAll va.ops r) ∧ List.Forall₂ (RNear (57 / 10 ^ 9 * (TF + TG))) r κ := by
  have hz : ∀ w ∈ rootsC k, evalR f w ≠ 0 ∨ evalR g w ≠ 0 := by
    intro w hw
    by_contra hc
    push Not at hc
    have := hd w hw
    rw [hc.1, hc.2, map_zero, add_zero] at this
    norm_num at this
  obtain ⟨κ, hl, hdv⟩ := exists_div k (poly (FA.map R) * poly (adjList f) + poly (GA.map R) * poly (adjList g)) _ (gram_coprime k f g hf hg hz)
  refine ⟨κ, hl, hdv, ?_⟩
  obtain ⟨Fa, eFa, nF⟩ := (FFT_near'_variant va) k h1 h2 FA hF fF TF hTF (by linarith)
  obtain ⟨Ga, eGa, nG⟩ := (FFT_near'_variant va) k h1 h2 GA hG fG TG hTG (by linarith)
  have l0 := l1_nonneg f
  have l0' := l1_nonneg g
  have l0'' := l1_nonneg (FA.map R)
  have l0''' := l1_nonneg (GA.map R)
  have lfa : fa.length = 2 ^ k := by rw [nf.length_eq, List.length_map, rootsC_length]
  have lga : ga.length = 2 ^ k := by rw [ng.length_eq, List.length_map, rootsC_length]
  have lFa : Fa.length = 2 ^ k := by rw [nF.length_eq, List.length_map, rootsC_length]
  have lGa : Ga.length = 2 ^ k := by rw [nG.length_eq, List.length_map, rootsC_length]
  have val : ∀ w ∈ rootsC k, evalR κ w = (evalR (FA.map R) w * conj (evalR f w) + evalR (GA.map R) w * conj (evalR g w)) /
      (evalR f w * conj (evalR f w) + evalR g w * conj (evalR g w)) := by
    intro w hw
    have h3 := evalR_dvd k _ hdv w hw
    rw [eval₂_sub, eval₂_mul, eval₂_add, eval₂_mul, eval₂_mul, gram_eval k f g hf hg w hw, ← evalR_eq, ← evalR_eq, ← evalR_eq,
      ← evalR_eq, ← evalR_eq, evalR_adj k f hf w hw, evalR_adj k g hg w hw, sub_eq_zero] at h3
    have hne := gram_ne_zero f g w (hz w hw)
    rw [← h3, mul_div_assoc, div_self hne, mul_one]
  -- the slots
  have slots : ∀ (L : List ℂ) (fa ga Fa Ga : List (F64 × F64)), (∀ w ∈ L, w ∈ rootsC k) →
      List.Forall₂ (CNear (31 / 10 ^ 15 * Sf)) fa (L.map (evalR f)) → List.Forall₂ (CNear (31 / 10 ^ 15 * Sg)) ga (L.map (evalR g)) →
      List.Forall₂ (CNear (31 / 10 ^ 15 * TF)) Fa (L.map (evalR (FA.map R))) → List.Forall₂ (CNear (31 / 10 ^ 15 * TG)) Ga (L.map (evalR (GA.map R))) →
      List.Forall₂ (CNear (56 / 10 ^ 9 * (TF + TG)))
        (List.zipWith va.ops.cdiv (List.zipWith va.ops.cadd (List.zipWith va.ops.cmul Fa (fa.map va.ops.conj)) (List.zipWith va.ops.cmul Ga (ga.map va.ops.conj)))
          (List.zipWith va.ops.cadd (List.zipWith va.ops.cmul fa (fa.map va.ops.conj)) (List.zipWith va.ops.cmul ga (ga.map va.ops.conj))))
        (L.map (evalR κ)) := by
    intro L
    induction L with
    | nil =>
      intro fa ga Fa Ga _ a1 a2 a3 a4
      cases a1; cases a2; cases a3; cases a4
      exact .nil
    | cons w L ih =>
      intro fa ga Fa Ga hL a1 a2 a3 a4
      cases a1 with | cons b1 a1 => cases a2 with | cons b2 a2 => cases a3 with | cons b3 a3 => cases a4 with | cons b4 a4 =>
      have hw := hL w (by simp)
      have w1 := rootsC_norm k w hw
      refine .cons ?_ (ih _ _ _ _ (fun x hx => hL x (by simp [hx])) a1 a2 a3 a4)
      show CNear _ _ (evalR κ w)
      rw [val w hw]
      have en := fun l : List ℝ => evalR_norm l w w1
      exact ((babai_slot_variant va) Sf Sg TF TG (by linarith) (by linarith) (by linarith) (by linarith) hS hTF2 hTG2 _ _ _ _ _ _ _ _
        ((en f).trans (by linarith)) ((en g).trans (by linarith)) ((en _).trans (by linarith)) ((en _).trans (by linarith)) b1 b2 b3 b4 (hd w hw)).1
  have hslots := slots (rootsC k) fa ga Fa Ga (fun w h => h) nf ng nF nG
  have bnd : ∀ z ∈ (rootsC k).map (evalR κ), ‖z‖ ≤ (TF + TG) / (28 / 10) := by
    intro z hz
    obtain ⟨w, hw, rfl⟩ := List.mem_map.1 hz
    have w1 := rootsC_norm k w hw
    rw [val w hw]
    have en := fun l : List ℝ => evalR_norm l w w1
    have hc := cauchy2 (evalR (FA.map R) w) (evalR (GA.map R) w) (evalR f w) (evalR g w) (TF + TG) (28 / 10) (by norm_num) (by linarith) (by
      rw [Complex.normSq_eq_norm_sq, Complex.normSq_eq_norm_sq]
      have a1 := pow_le_pow_left₀ (norm_nonneg _) (en (FA.map R)) 2
      have a2 := pow_le_pow_left₀ (norm_nonneg _) (en (GA.map R)) 2
      have a3 : l1 (FA.map R) ≤ TF := by linarith
      have a4 : l1 (GA.map R) ≤ TG := by linarith
      nlinarith) (by have := hd w hw; norm_num at this ⊢; linarith)
    have d0 : 0 < Complex.normSq (evalR f w) + Complex.normSq (evalR g w) := by have := hd w hw; linarith
    rw [Complex.mul_conj (evalR f w), Complex.mul_conj (evalR g w), ← Complex.ofReal_add, norm_div, Complex.norm_real, Real.norm_eq_abs, abs_of_pos d0, div_le_iff₀ d0]
    exact hc
  have big := Big_ge'
  have V0 : 0 ≤ (TF + TG) / (28 / 10) := by apply div_nonneg <;> linarith
  obtain ⟨r, er, nr⟩ := (IFFT_near_variant va) k h1 h2 κ hl _ (56 / 10 ^ 9 * (TF + TG)) ((TF + TG) / (28 / 10)) hslots bnd (by linarith) (by linarith) V0
  refine ⟨r, ?_, forall₂_mono nr fun x y h => h.mono ?_⟩
  · unfold babai
    rw [eFa, eGa]
    simp only [Go.ok_bind, AdjFFT, MulFFT, AddFFT, DivFFT, List.length_map, List.length_zipWith, lfa, lga, lFa, lGa,
      min_self, ne_eq, not_true_eq_false, if_false, lt_self_iff_false]
    rw [er]
    rfl
  · refine (ifftErr_num k h2 _ _ V0 (by linarith)).trans ?_
    linarith

theorem babai_near (k : Nat) (h1 : 1 ≤ k) (h2 : k ≤ 10) (f g : List ℝ) (hf : f.length = 2 ^ k) (hg : g.length = 2 ^ k) (fa ga : List (F64 × F64))
    (FA GA : List F64) (hF : FA.length = 2 ^ k) (hG : GA.length = 2 ^ k) (fF : ∀ x ∈ FA, x.isFinite = true) (fG : ∀ x ∈ GA, x.isFinite = true)
    (Sf Sg TF TG : ℝ) (hSf : l1 f + 1 ≤ Sf) (hSg : l1 g + 1 ≤ Sg) (hTF : l1 (FA.map R) + 1 ≤ TF) (hTG : l1 (GA.map R) + 1 ≤ TG)
    (hS : Sf ^ 2 + Sg ^ 2 ≤ 174 * 10 ^ 5) (hTF2 : TF ≤ 10 ^ 23) (hTG2 : TG ≤ 10 ^ 23)
    (nf : List.Forall₂ (CNear (31 / 10 ^ 15 * Sf)) fa ((rootsC k).map (evalR f))) (ng : List.Forall₂ (CNear (31 / 10 ^ 15 * Sg)) ga ((rootsC k).map (evalR g)))
    (hd : ∀ w ∈ rootsC k, 784 / 100 ≤ Complex.normSq (evalR f w) + Complex.normSq (evalR g w)) :
    ∃ κ : List ℝ, κ.length = 2 ^ k ∧
      (X ^ 2 ^ k + 1 : ℝ[X]) ∣ poly κ * gramPoly f g - (poly (FA.map R) * poly (adjList f) + poly (GA.map R) * poly (adjList g)) ∧
      ∃ r : List F64, babai ieeeOps fa ga FA GA = .ok (RoundAll ieeeOps r) ∧ List.Forall₂ (RNear (57 / 10 ^ 9 * (TF + TG))) r κ :=
  babai_near_variant amd64V k h1 h2 f g hf hg fa ga FA GA hF hG fF fG Sf Sg TF TG hSf hSg hTF hTG hS hTF2 hTG2 nf ng hd

/-- A finite float that rounds to zero is at most one half. -/
theorem round_zero_ieee_variant (va : Variant) (a : F64) (h : a.isFinite = true) (h0 : va.ops.toInt (va.ops.round a) = 0) : |R a| ≤ 1 / 2 := by
  rcases isFinite_cases a h with ⟨s, rfl⟩ | ⟨x, rfl⟩
  · rw [R_zero]; norm_num
  · have h1 : va.toInt (round (.fin x)) = 0 := h0
    have h2 : awayInt x = 0 := by
      by_contra hne
      unfold F64.round at h1
      simp only [hne, if_false] at h1
      have ht : truncInt (F64.fin (awayInt x : Int)).val = awayInt x := by
        show truncInt ((awayInt x : Int) : ℚ) = awayInt x
        unfold truncInt
        split
        · exact Rat.floor_intCast _
        · rw [← Int.cast_neg, Rat.floor_intCast]; ring
      by_cases hr : -(2 ^ 31) ≤ awayInt x ∧ awayInt x < 2 ^ 31
      · rw [va.toInt_in _ rfl (by rw [ht]; exact hr.1) (by rw [ht]; exact hr.2), ht] at h1
        exact hne h1
      · exact va.toInt_out _ rfl (by rw [ht]; omega) h1
    have h3 : |x| ≤ 1 / 2 := by
      unfold awayInt at h2
      split at h2
      · rename_i hx
        have h4 : ⌊x + 1 / 2⌋ = 0 := h2
        rw [Int.floor_eq_iff] at h4
        rw [abs_of_nonneg hx]
        have := h4.2
        push_cast at this
        linarith
      · rename_i hx
        have h4 : ⌊-x + 1 / 2⌋ = 0 := neg_eq_zero.1 h2
        rw [Int.floor_eq_iff] at h4
        rw [abs_of_neg (lt_of_not_ge hx)]
        have := h4.2
        push_cast at this
        linarith
    rw [R_fin]
    have : |(x : ℝ)| = ((|x| : ℚ) : ℝ) := by push_cast; rfl
    rw [this]
    have : ((|x| : ℚ) : ℝ) ≤ ((1 / 2 : ℚ) : ℝ) := by exact_mod_cast h3
    norm_num at this ⊢
    exact this

theorem round_zero_ieee (a : F64) (h : a.isFinite = true) (h0 : ieeeOps.toInt (ieeeOps.round a) = 0) : |R a| ≤ 1 / 2 :=
  round_zero_ieee_variant amd64V a h h0

end Falcon
