import Verif.Lemmas.Ieee
import Mathlib.Analysis.Complex.Basic
/-!
# The standard error model of IEEE arithmetic
-/

namespace Falcon
open F64

/-- The unit roundoff. -/
noncomputable def uu : ℝ := 2 ^ (-53 : Int)

/-- Half the least positive number. -/
noncomputable def et : ℝ := 2 ^ (-1075 : Int)

/-- Sums and products up to this size cannot overflow. -/
noncomputable def Big : ℝ := 2 ^ (1000 : Int)

theorem Big_ge : 10 ^ 300 ≤ Big := by
  have h : (2 : ℝ) ^ (1000 : Int) = (2 ^ 100) ^ 10 := by
    rw [← pow_mul]; exact_mod_cast rfl
  have h2 : (10 : ℝ) ^ 300 = (10 ^ 30) ^ 10 := by rw [← pow_mul]
  unfold Big
  rw [h, h2]
  exact pow_le_pow_left₀ (by norm_num) (by norm_num) 10

theorem Big_ge' : 10 ^ 100 ≤ Big := le_trans (pow_le_pow_right₀ (by norm_num) (by norm_num)) Big_ge

theorem uu_pos : 0 < uu := by unfold uu; positivity

theorem et_pos : 0 < et := by unfold et; positivity

theorem uu_le : uu ≤ 1 / 9 / 10 ^ 15 := by unfold uu; norm_num

theorem et_le : et ≤ uu := by
  unfold et uu
  exact zpow_le_zpow_right₀ (by norm_num) (by norm_num)

theorem et_num : et ≤ 1 / 10 ^ 120 := by
  have h : (2 : ℝ) ^ (-1075 : Int) ≤ 2 ^ (-400 : Int) := zpow_le_zpow_right₀ (by norm_num) (by norm_num)
  have h2 : (2 : ℝ) ^ (-400 : Int) = 1 / (2 ^ 10) ^ 40 := by
    rw [← pow_mul, zpow_neg, one_div]
    norm_cast
  have h3 : (1 : ℝ) / (2 ^ 10) ^ 40 ≤ 1 / (10 ^ 3) ^ 40 := by
    apply one_div_le_one_div_of_le (by positivity)
    exact pow_le_pow_left₀ (by norm_num) (by norm_num) 40
  rw [show ((10 : ℝ) ^ 3) ^ 40 = 10 ^ 120 by rw [← pow_mul]] at h3
  unfold et
  rw [h2] at h
  exact h.trans h3

/-- The value of a finite datum as a real number. -/
noncomputable def R (a : F64) : ℝ := (a.val : ℝ)

theorem cast_two_zpow (k : Int) : (((2 : ℚ) ^ k : ℚ) : ℝ) = (2 : ℝ) ^ k := by push_cast; rfl

theorem isFinite_cases (a : F64) (h : a.isFinite = true) : (∃ s, a = .zero s) ∨ ∃ x, a = .fin x := by
  cases a with
  | nan => simp [isFinite, isNaN] at h
  | inf s => simp [isFinite, isNaN, isInf] at h
  | zero s => exact .inl ⟨s, rfl⟩
  | fin x => exact .inr ⟨x, rfl⟩

theorem rnd_near_rat (x : ℚ) (h0 : x ≠ 0) (h : |x| ≤ 2 ^ (1000 : Int)) :
    (rnd x).isFinite = true ∧ |(rnd x).val - x| ≤ (2 : ℚ) ^ (-53 : Int) * |x| + (2 : ℚ) ^ (-1075 : Int) := by
  have hp : 0 < |x| := abs_pos.2 h0
  have hn := nearest_abs |x| hp
  have hr : nearest |x| < two 1024 := by
    rw [two_eq]
    have h1 := (abs_le.1 hn).2
    have h2 : (2 : ℚ) ^ (-53 : Int) ≤ 1 / 2 := by norm_num
    have h3 : (2 : ℚ) ^ (-1075 : Int) ≤ (2 : ℚ) ^ (1000 : Int) := zpow_le_zpow_right₀ (by norm_num) (by norm_num)
    have h4 : (2 : ℚ) ^ (1002 : Int) = 4 * (2 : ℚ) ^ (1000 : Int) := by
      rw [show (1002 : Int) = 2 + 1000 by norm_num, zpow_add₀ (by norm_num)]; norm_num
    have h5 : (2 : ℚ) ^ (1002 : Int) < (2 : ℚ) ^ (1024 : Int) := zpow_lt_zpow_right₀ (by norm_num) (by norm_num)
    generalize (2 : ℚ) ^ (1000 : Int) = P at *
    generalize (2 : ℚ) ^ (1002 : Int) = P2 at *
    generalize (2 : ℚ) ^ (1024 : Int) = P3 at *
    generalize (2 : ℚ) ^ (-1075 : Int) = P4 at *
    have h6 : (2 : ℚ) ^ (-53 : Int) * |x| ≤ 1 / 2 * |x| := mul_le_mul_of_nonneg_right h2 hp.le
    generalize (2 : ℚ) ^ (-53 : Int) * |x| = t at *
    linarith
  unfold rnd
  simp only
  split
  · rename_i hz
    refine ⟨rfl, ?_⟩
    rw [hz] at hn
    show |0 - x| ≤ _
    rw [zero_sub, abs_neg]
    rwa [zero_sub, abs_neg, abs_abs] at hn
  · rw [if_neg (not_le.2 hr)]
    refine ⟨rfl, ?_⟩
    show |(if x < 0 then -nearest |x| else nearest |x|) - x| ≤ _
    split
    · rename_i hx
      rw [abs_of_neg hx] at hn ⊢
      rw [show -nearest (-x) - x = -(nearest (-x) - -x) by ring, abs_neg]
      exact hn
    · rename_i hx
      rw [abs_of_nonneg (not_lt.1 hx)] at hn ⊢
      exact hn

/-- Rounding a rational `x`, written for the real value. -/
theorem rnd_near (x : ℚ) (h0 : x ≠ 0) (h : |(x : ℝ)| ≤ Big) :
    (rnd x).isFinite = true ∧ |R (rnd x) - x| ≤ uu * |(x : ℝ)| + et := by
  unfold Big at h
  have h' : |x| ≤ 2 ^ (1000 : Int) := by
    have : ((|x| : ℚ) : ℝ) ≤ (((2 : ℚ) ^ (1000 : Int) : ℚ) : ℝ) := by rw [cast_two_zpow, Rat.cast_abs]; exact h
    exact_mod_cast this
  obtain ⟨h1, h2⟩ := rnd_near_rat x h0 h'
  refine ⟨h1, ?_⟩
  have h3 := (Rat.cast_le (K := ℝ)).2 h2
  rw [Rat.cast_abs, Rat.cast_sub, Rat.cast_add, Rat.cast_mul, cast_two_zpow, cast_two_zpow, Rat.cast_abs] at h3
  exact h3

theorem ofRat_near (x : ℚ) (h : |(x : ℝ)| ≤ Big) : (ofRat x).isFinite = true ∧ |R (ofRat x) - x| ≤ uu * |(x : ℝ)| + et := by
  unfold ofRat
  split
  · rename_i h0
    subst h0
    refine ⟨rfl, ?_⟩
    have : R (.zero false) = 0 := by unfold R val; simp
    rw [this]
    simp [et_pos.le]
  · rename_i h0
    exact rnd_near x h0 h

theorem R_zero (s : Bool) : R (.zero s) = 0 := by unfold R val; simp

theorem R_fin (x : ℚ) : R (.fin x) = x := rfl

theorem neg_fin (a : F64) (h : a.isFinite = true) : a.neg.isFinite = true ∧ R a.neg = -R a := by
  rcases isFinite_cases a h with ⟨s, rfl⟩ | ⟨x, rfl⟩
  · exact ⟨rfl, by simp [F64.neg, R_zero]⟩
  · refine ⟨rfl, ?_⟩
    simp [F64.neg, R_fin]

theorem finite_flags (a : F64) (h : a.isFinite = true) : a.isNaN = false ∧ a.isInf = false := by
  simpa [isFinite] using h

theorem add_near (a b : F64) (ha : a.isFinite = true) (hb : b.isFinite = true) (h : |R a + R b| ≤ Big) :
    (add a b).isFinite = true ∧ |R (add a b) - (R a + R b)| ≤ uu * |R a + R b| + et := by
  obtain ⟨a1, a2⟩ := finite_flags a ha
  obtain ⟨b1, b2⟩ := finite_flags b hb
  have e : R a + R b = ((a.val + b.val : ℚ) : ℝ) := by unfold R; push_cast; rfl
  unfold F64.add
  rw [a1, b1, a2, b2]
  simp only [Bool.or_false, Bool.false_eq_true, if_false]
  split
  · rename_i h0
    refine ⟨rfl, ?_⟩
    rw [e, h0, R_zero]
    simp [et_pos.le]
  · rename_i h0
    rw [e] at h ⊢
    exact rnd_near _ h0 h

theorem sub_near (a b : F64) (ha : a.isFinite = true) (hb : b.isFinite = true) (h : |R a - R b| ≤ Big) :
    (sub a b).isFinite = true ∧ |R (sub a b) - (R a - R b)| ≤ uu * |R a - R b| + et := by
  obtain ⟨n1, n2⟩ := neg_fin b hb
  have := add_near a b.neg ha n1 (by rw [n2, ← sub_eq_add_neg]; exact h)
  rw [n2, ← sub_eq_add_neg] at this
  exact this

theorem isZero_iff (a : F64) (h : a.isFinite = true) : a.isZero = true ∨ ∃ x, a = .fin x := by
  rcases isFinite_cases a h with ⟨s, rfl⟩ | ⟨x, rfl⟩
  · exact .inl rfl
  · exact .inr ⟨x, rfl⟩

theorem R_of_isZero (a : F64) (h : a.isZero = true) : R a = 0 := by
  cases a with
  | zero s => exact R_zero s
  | _ => simp [isZero] at h

/-- A rounded rational that may be zero only through a `fin 0` operand. -/
theorem rnd_near' (x : ℚ) (h : |(x : ℝ)| ≤ Big) : (rnd x).isFinite = true ∧ |R (rnd x) - x| ≤ uu * |(x : ℝ)| + et := by
  by_cases h0 : x = 0
  · subst h0
    have e : rnd 0 = .zero false := by decide +kernel
    rw [e]
    refine ⟨rfl, ?_⟩
    rw [R_zero]
    simp [et_pos.le]
  · exact rnd_near x h0 h

theorem mul_near (a b : F64) (ha : a.isFinite = true) (hb : b.isFinite = true) (h : |R a * R b| ≤ Big) :
    (mul a b).isFinite = true ∧ |R (mul a b) - R a * R b| ≤ uu * |R a * R b| + et := by
  obtain ⟨a1, a2⟩ := finite_flags a ha
  obtain ⟨b1, b2⟩ := finite_flags b hb
  have e : R a * R b = ((a.val * b.val : ℚ) : ℝ) := by unfold R; push_cast; rfl
  unfold F64.mul
  rw [a1, b1, a2, b2]
  simp only [Bool.or_false, Bool.false_eq_true, if_false]
  split
  · rename_i h0
    refine ⟨rfl, ?_⟩
    rw [R_zero]
    have : R a * R b = 0 := by
      rw [Bool.or_eq_true] at h0
      rcases h0 with h0 | h0
      · rw [R_of_isZero a h0, zero_mul]
      · rw [R_of_isZero b h0, mul_zero]
    rw [this]
    simp [et_pos.le]
  · rw [e] at h ⊢
    exact rnd_near' _ h

theorem div_near (a b : F64) (ha : a.isFinite = true) (hb : b.isFinite = true) (h0 : R b ≠ 0) (h : |R a / R b| ≤ Big) :
    (div a b).isFinite = true ∧ |R (div a b) - R a / R b| ≤ uu * |R a / R b| + et := by
  obtain ⟨a1, a2⟩ := finite_flags a ha
  obtain ⟨b1, b2⟩ := finite_flags b hb
  have e : R a / R b = ((a.val / b.val : ℚ) : ℝ) := by unfold R; push_cast; rfl
  have hz : b.isZero = false := by
    cases hc : b.isZero with
    | false => rfl
    | true => exact absurd (R_of_isZero b hc) h0
  unfold F64.div
  rw [a1, b1, a2, b2, hz]
  simp only [Bool.or_false, Bool.false_eq_true, if_false]
  split
  · rename_i h1
    refine ⟨rfl, ?_⟩
    rw [R_zero, R_of_isZero a h1]
    simp [et_pos.le]
  · rw [e] at h ⊢
    exact rnd_near' _ h

/-! ### Complex numbers -/

/-- The value of a pair of finite data. -/
noncomputable def cval (c : F64 × F64) : ℂ := ⟨R c.1, R c.2⟩

/-- Both parts are finite. -/
def cfin (c : F64 × F64) : Prop := c.1.isFinite = true ∧ c.2.isFinite = true

/-- A complex error with both parts bounded relative to a complex number and absolutely. -/
theorem norm_parts (z w : ℂ) (p q : ℝ) (hp : 0 ≤ p) (hq : 0 ≤ q) (h1 : |z.re| ≤ p * |w.re| + q) (h2 : |z.im| ≤ p * |w.im| + q) :
    ‖z‖ ≤ p * ‖w‖ + 2 * q := by
  set v : ℂ := ⟨p * |w.re|, p * |w.im|⟩
  set t : ℂ := ⟨q, q⟩
  have e1 : ‖z‖ ≤ ‖v + t‖ := by
    rw [Complex.norm_def, Complex.norm_def]
    apply Real.sqrt_le_sqrt
    rw [Complex.normSq_apply, Complex.normSq_apply, ← abs_mul_abs_self z.re, ← abs_mul_abs_self z.im]
    have g1 : (v + t).re = p * |w.re| + q := rfl
    have g2 : (v + t).im = p * |w.im| + q := rfl
    rw [g1, g2]
    exact add_le_add (mul_self_le_mul_self (abs_nonneg _) h1) (mul_self_le_mul_self (abs_nonneg _) h2)
  have e2 : ‖v‖ = p * ‖w‖ := by
    rw [Complex.norm_def, Complex.norm_def, Complex.normSq_apply, Complex.normSq_apply]
    have : v.re * v.re + v.im * v.im = p ^ 2 * (w.re * w.re + w.im * w.im) := by
      show p * |w.re| * (p * |w.re|) + p * |w.im| * (p * |w.im|) = _
      rw [← abs_mul_abs_self w.re, ← abs_mul_abs_self w.im]
      ring
    rw [this, Real.sqrt_mul (by positivity), Real.sqrt_sq hp]
  have e3 : ‖t‖ ≤ 2 * q := by
    refine (Complex.norm_le_abs_re_add_abs_im t).trans ?_
    show |q| + |q| ≤ _
    rw [abs_of_nonneg hq]
    linarith
  calc ‖z‖ ≤ _ := e1
    _ ≤ _ := norm_add_le _ _
    _ ≤ _ := by rw [e2]; linarith

theorem cadd_near (x y : F64 × F64) (hx : cfin x) (hy : cfin y) (h : ‖cval x + cval y‖ ≤ Big) :
    cfin (ieeeOps.cadd x y) ∧ ‖cval (ieeeOps.cadd x y) - (cval x + cval y)‖ ≤ uu * ‖cval x + cval y‖ + 2 * et := by
  obtain ⟨f1, n1⟩ := add_near x.1 y.1 hx.1 hy.1 ((Complex.abs_re_le_norm (cval x + cval y)).trans h)
  obtain ⟨f2, n2⟩ := add_near x.2 y.2 hx.2 hy.2 ((Complex.abs_im_le_norm (cval x + cval y)).trans h)
  exact ⟨⟨f1, f2⟩, norm_parts _ (cval x + cval y) uu et uu_pos.le et_pos.le n1 n2⟩

theorem csub_near (x y : F64 × F64) (hx : cfin x) (hy : cfin y) (h : ‖cval x - cval y‖ ≤ Big) :
    cfin (ieeeOps.csub x y) ∧ ‖cval (ieeeOps.csub x y) - (cval x - cval y)‖ ≤ uu * ‖cval x - cval y‖ + 2 * et := by
  obtain ⟨f1, n1⟩ := sub_near x.1 y.1 hx.1 hy.1 ((Complex.abs_re_le_norm (cval x - cval y)).trans h)
  obtain ⟨f2, n2⟩ := sub_near x.2 y.2 hx.2 hy.2 ((Complex.abs_im_le_norm (cval x - cval y)).trans h)
  exact ⟨⟨f1, f2⟩, norm_parts _ (cval x - cval y) uu et uu_pos.le et_pos.le n1 n2⟩

theorem cneg_fin (x : F64 × F64) (hx : cfin x) : cfin (ieeeOps.cneg x) ∧ cval (ieeeOps.cneg x) = -cval x := by
  obtain ⟨f1, n1⟩ := neg_fin x.1 hx.1
  obtain ⟨f2, n2⟩ := neg_fin x.2 hx.2
  exact ⟨⟨f1, f2⟩, Complex.ext n1 n2⟩

theorem conj_fin (x : F64 × F64) (hx : cfin x) : cfin (ieeeOps.conj x) ∧ cval (ieeeOps.conj x) = (starRingEnd ℂ) (cval x) := by
  obtain ⟨f2, n2⟩ := neg_fin x.2 hx.2
  exact ⟨⟨hx.1, f2⟩, Complex.ext rfl n2⟩

/-- One rounded sum of two rounded products `p = ab`, `q = cd`. -/
theorem two_products (M : ℝ) (p q p' q' s : ℝ) (hM : |p| + |q| ≤ M) (hp : |p' - p| ≤ uu * |p| + et) (hq : |q' - q| ≤ uu * |q| + et)
    (hs : |s - (p' + q')| ≤ uu * |p' + q'| + et) : |s - (p + q)| ≤ 21 / 10 * uu * M + 4 * et := by
  have u0 := uu_pos
  have u1 := uu_le
  have e0 := et_pos
  have M0 : 0 ≤ M := le_trans (by positivity) hM
  have a1 : |p' + q' - (p + q)| ≤ uu * M + 2 * et := by
    calc |p' + q' - (p + q)| = |(p' - p) + (q' - q)| := by ring_nf
      _ ≤ |p' - p| + |q' - q| := abs_add_le _ _
      _ ≤ uu * (|p| + |q|) + 2 * et := by linarith
      _ ≤ _ := by gcongr
  have a2 : |p' + q'| ≤ M + uu * M + 2 * et := by
    have : |p' + q'| ≤ |p + q| + |p' + q' - (p + q)| := by
      have := abs_add_le (p + q) (p' + q' - (p + q))
      rwa [add_sub_cancel] at this
    have h3 := abs_add_le p q
    linarith
  have a3 : |s - (p + q)| ≤ |s - (p' + q')| + |p' + q' - (p + q)| := by
    have := abs_add_le (s - (p' + q')) (p' + q' - (p + q))
    rwa [sub_add_sub_cancel] at this
  have a4 : uu * |p' + q'| ≤ uu * (M + uu * M + 2 * et) := mul_le_mul_of_nonneg_left a2 u0.le
  have a5 : uu * (uu * M) ≤ 1 / 10 * (uu * M) := by
    have : 0 ≤ uu * M := by positivity
    have : uu ≤ 1 / 10 := u1.trans (by norm_num)
    gcongr
  have a6 : uu * (2 * et) ≤ et := by
    have : uu ≤ 1 / 2 := u1.trans (by norm_num)
    nlinarith
  linarith

theorem abs_le_of_near (x y M : ℝ) (h : |x - y| ≤ uu * |y| + et) (hy : |y| ≤ M) : |x| ≤ 2 * M + 1 := by
  have u0 := uu_pos
  have u1 : uu ≤ 1 := uu_le.trans (by norm_num)
  have e1 : et ≤ 1 := et_le.trans u1
  have : |x| ≤ |y| + |x - y| := by
    have := abs_add_le y (x - y)
    rwa [add_sub_cancel] at this
  have : uu * |y| ≤ 1 * |y| := mul_le_mul_of_nonneg_right u1 (abs_nonneg _)
  linarith

theorem cmul_near (x y : F64 × F64) (hx : cfin x) (hy : cfin y) (h : 8 * (‖cval x‖ * ‖cval y‖) ≤ Big) :
    cfin (ieeeOps.cmul x y) ∧ ‖cval (ieeeOps.cmul x y) - cval x * cval y‖ ≤ 4 * uu * (‖cval x‖ * ‖cval y‖) + 8 * et := by
  set M := ‖cval x‖ * ‖cval y‖ with hMdef
  have M0 : 0 ≤ M := by positivity
  have big : 100 ≤ Big := le_trans (by norm_num) Big_ge'
  have cs : ∀ a b c d : ℝ, a * a + b * b = ‖cval x‖ ^ 2 → c * c + d * d = ‖cval y‖ ^ 2 → |a * c| + |b * d| ≤ M := by
    intro a b c d h1 h2
    rw [hMdef, ← abs_of_nonneg (show 0 ≤ ‖cval x‖ * ‖cval y‖ by positivity)]
    rw [abs_mul, abs_mul, ← abs_of_nonneg (show 0 ≤ |a| * |c| + |b| * |d| by positivity)]
    apply sq_le_sq.1
    rw [mul_pow, ← h1, ← h2, ← abs_mul_abs_self a, ← abs_mul_abs_self b, ← abs_mul_abs_self c, ← abs_mul_abs_self d]
    nlinarith [sq_nonneg (|a| * |d| - |b| * |c|)]
  have nx : R x.1 * R x.1 + R x.2 * R x.2 = ‖cval x‖ ^ 2 := by rw [← Complex.normSq_eq_norm_sq, Complex.normSq_apply]; rfl
  have ny : R y.1 * R y.1 + R y.2 * R y.2 = ‖cval y‖ ^ 2 := by rw [← Complex.normSq_eq_norm_sq, Complex.normSq_apply]; rfl
  have ny' : R y.2 * R y.2 + R y.1 * R y.1 = ‖cval y‖ ^ 2 := by rw [add_comm]; exact ny
  have c1 := cs _ _ _ _ nx ny
  have c2 := cs _ _ _ _ nx ny'
  have lim : ∀ t : ℝ, |t| ≤ M → |t| ≤ Big := by
    intro t ht
    linarith
  have m11 := mul_near x.1 y.1 hx.1 hy.1 (lim _ (by have := abs_nonneg (R x.2 * R y.2); linarith))
  have m22 := mul_near x.2 y.2 hx.2 hy.2 (lim _ (by have := abs_nonneg (R x.1 * R y.1); linarith))
  have m12 := mul_near x.1 y.2 hx.1 hy.2 (lim _ (by have := abs_nonneg (R x.2 * R y.1); linarith))
  have m21 := mul_near x.2 y.1 hx.2 hy.1 (lim _ (by have := abs_nonneg (R x.1 * R y.2); linarith))
  have b11 := abs_le_of_near _ _ M m11.2 (by have := abs_nonneg (R x.2 * R y.2); linarith)
  have b22 := abs_le_of_near _ _ M m22.2 (by have := abs_nonneg (R x.1 * R y.1); linarith)
  have b12 := abs_le_of_near _ _ M m12.2 (by have := abs_nonneg (R x.2 * R y.1); linarith)
  have b21 := abs_le_of_near _ _ M m21.2 (by have := abs_nonneg (R x.1 * R y.2); linarith)
  have s1 := sub_near _ _ m11.1 m22.1 (by have := abs_sub (R (mul x.1 y.1)) (R (mul x.2 y.2)); linarith)
  have s2 := add_near _ _ m12.1 m21.1 (by have := abs_add_le (R (mul x.1 y.2)) (R (mul x.2 y.1)); linarith)
  refine ⟨⟨s1.1, s2.1⟩, ?_⟩
  have t1 := two_products M (R x.1 * R y.1) (-(R x.2 * R y.2)) (R (mul x.1 y.1)) (-R (mul x.2 y.2)) (R (sub (mul x.1 y.1) (mul x.2 y.2)))
    (by rw [abs_neg]; exact c1) m11.2 (by rw [abs_neg, ← abs_neg]; convert m22.2 using 2; ring) (by rw [← sub_eq_add_neg]; exact s1.2)
  have t2 := two_products M (R x.1 * R y.2) (R x.2 * R y.1) (R (mul x.1 y.2)) (R (mul x.2 y.1)) (R (add (mul x.1 y.2) (mul x.2 y.1)))
    c2 m12.2 m21.2 s2.2
  have e1 : (cval (ieeeOps.cmul x y) - cval x * cval y).re =
      R (sub (mul x.1 y.1) (mul x.2 y.2)) - (R x.1 * R y.1 + -(R x.2 * R y.2)) := by
    rw [Complex.sub_re, Complex.mul_re, ← sub_eq_add_neg]; rfl
  have e2 : (cval (ieeeOps.cmul x y) - cval x * cval y).im =
      R (add (mul x.1 y.2) (mul x.2 y.1)) - (R x.1 * R y.2 + R x.2 * R y.1) := by
    rw [Complex.sub_im, Complex.mul_im]; rfl
  set d := cval (ieeeOps.cmul x y) - cval x * cval y
  set B := 21 / 10 * uu * M + 4 * et
  have B0 : 0 ≤ B := le_trans (abs_nonneg _) t1
  rw [← e1] at t1
  rw [← e2] at t2
  have : ‖d‖ ^ 2 ≤ (3 / 2 * B) ^ 2 := by
    rw [← Complex.normSq_eq_norm_sq, Complex.normSq_apply, ← abs_mul_abs_self d.re, ← abs_mul_abs_self d.im]
    have h1 := mul_self_le_mul_self (abs_nonneg _) t1
    have h2 := mul_self_le_mul_self (abs_nonneg _) t2
    nlinarith
  have h3 := abs_le_of_sq_le_sq' this (by positivity)
  have h4 : 0 ≤ uu * M := mul_nonneg uu_pos.le M0
  have h5 := et_pos
  calc ‖d‖ ≤ 3 / 2 * B := h3.2
    _ ≤ _ := by simp only [B]; linarith

end Falcon
