import Verif.Spec.Fma
import Verif.Lemmas.Round
import Verif.Props.Approx
import Verif.Props.Entropy
/-!
# C94: fused multiply-add and the conversions of other platforms
-/

namespace Falcon
open F64 Spec

/-- The register holds a number with the value `x`. -/
def Reg.is : Reg → ℝ → Prop
  | .num a, x => a.isFinite = true ∧ x = R a
  | .prod a b, x => (a.isFinite = true ∧ b.isFinite = true) ∧ x = R a * R b

/-- Rounding of a number of moderate size, with an error relative to a bound. -/
theorem round_mid (q : ℚ) (s : Bool) (M : ℝ) (h : |(q : ℝ)| ≤ 2 * M) (hM : M ≤ 10 ^ 31) (h0 : M = 0 ∨ 1 / 10 ^ 30 ≤ M) :
    ((if q = 0 then .zero s else rnd q).isFinite = true ∧ |R (if q = 0 then .zero s else rnd q) - q| ≤ 3 * uu * M) ∧
      (rnd q).isFinite = true ∧ |R (rnd q) - q| ≤ 3 * uu * M := by
  have hp : 0 ≤ M := by rcases h0 with h0 | h0 <;> [rw [h0]; exact le_trans (by norm_num) h0]
  have hu := uu_pos
  have key : (rnd q).isFinite = true ∧ |R (rnd q) - q| ≤ 3 * uu * M := by
    by_cases q0 : q = 0
    · subst q0
      have e : rnd 0 = .zero false := by decide +kernel
      rw [e]
      refine ⟨rfl, ?_⟩
      rw [R_zero]
      simp only [Rat.cast_zero, sub_zero, abs_zero]
      positivity
    · have big : |(q : ℝ)| ≤ Big := by
        have := Big_ge'
        have : (2 : ℝ) * 10 ^ 31 ≤ 10 ^ 100 := by norm_num
        linarith
      obtain ⟨f, n⟩ := rnd_near q q0 big
      refine ⟨f, n.trans ?_⟩
      have M0 : 1 / 10 ^ 30 ≤ M := by
        rcases h0 with h0 | h0
        · rw [h0, mul_zero] at h
          exact absurd (by exact_mod_cast abs_nonpos_iff.1 h) q0
        · exact h0
      have e1 : et ≤ uu * (1 / 10 ^ 30) := by
        unfold et uu
        have : (2 : ℝ) ^ (-1075 : Int) ≤ 2 ^ (-53 : Int) * 2 ^ (-100 : Int) := by
          rw [← zpow_add₀ (by norm_num)]
          exact zpow_le_zpow_right₀ (by norm_num) (by norm_num)
        refine this.trans (mul_le_mul_of_nonneg_left ?_ (by positivity))
        norm_num
      have e2 : uu * (1 / 10 ^ 30) ≤ uu * M := mul_le_mul_of_nonneg_left M0 hu.le
      have e3 : uu * |(q : ℝ)| ≤ uu * (2 * M) := mul_le_mul_of_nonneg_left h hu.le
      linarith
  refine ⟨?_, key⟩
  split
  · rename_i q0
    refine ⟨rfl, ?_⟩
    rw [R_zero, q0]
    simp only [Rat.cast_zero, sub_zero, abs_zero]
    positivity
  · exact key

theorem mid_cases {x : ℝ} (h : Mid x) : (|x| = 0 ∨ 1 / 10 ^ 30 ≤ |x|) ∧ |x| ≤ 10 ^ 30 := by
  rcases h with rfl | ⟨h1, h2⟩
  · exact ⟨.inl (by simp), by simp⟩
  · exact ⟨.inr h1, h2⟩

/-- A product of moderate size, rounded. -/
theorem mul_mid (a b : F64) (ha : a.isFinite = true) (hb : b.isFinite = true) (M : ℝ) (h : |R a * R b| ≤ 2 * M) (hM : M ≤ 10 ^ 31)
    (h0 : M = 0 ∨ 1 / 10 ^ 30 ≤ M) : (mul a b).isFinite = true ∧ |R (mul a b) - R a * R b| ≤ 3 * uu * M := by
  obtain ⟨a1, a2⟩ := finite_flags a ha
  obtain ⟨b1, b2⟩ := finite_flags b hb
  have e : R a * R b = ((a.val * b.val : ℚ) : ℝ) := by unfold R; push_cast; rfl
  have hp : 0 ≤ M := by rcases h0 with h0 | h0 <;> [rw [h0]; exact le_trans (by norm_num) h0]
  unfold F64.mul
  rw [a1, b1, a2, b2]
  simp only [Bool.or_false, Bool.false_eq_true, if_false]
  split
  · rename_i hz
    refine ⟨rfl, ?_⟩
    rw [R_zero]
    have : R a * R b = 0 := by
      rw [Bool.or_eq_true] at hz
      rcases hz with hz | hz
      · rw [R_of_isZero a hz, zero_mul]
      · rw [R_of_isZero b hz, mul_zero]
    rw [this]
    simp only [sub_zero, abs_zero]
    have := uu_pos
    positivity
  · rw [e] at h ⊢
    exact (round_mid _ false M h hM h0).2

/-- The rounded value of a register. -/
theorem v_near (a : Reg) (x : ℝ) (h : a.is x) (m : Mid x) : a.v.isFinite = true ∧ |R a.v - x| ≤ 3 * uu * |x| := by
  obtain ⟨m1, m2⟩ := mid_cases m
  have := uu_pos
  cases a with
  | num a =>
    refine ⟨h.1, ?_⟩
    rw [h.2]
    simp only [Reg.v, sub_self, abs_zero]
    positivity
  | prod a b =>
    obtain ⟨⟨h1, h2⟩, h3⟩ := h
    rw [h3] at m1 m2 ⊢
    exact mul_mid a b h1 h2 _ (by linarith [abs_nonneg (R a * R b)]) (by linarith [show (10 : ℝ) ^ 30 ≤ 10 ^ 31 by norm_num]) m1

/-- A small integer in a register is rounded to itself. -/
theorem v_int (a : Reg) (k : Int) (h1 : -(2 ^ 53) ≤ k) (h2 : k ≤ 2 ^ 53) (h : a.is k) : a.v.isFinite = true ∧ a.v.val = k := by
  cases a with
  | num a => exact ⟨h.1, by have := h.2; unfold R at this; exact_mod_cast this.symm⟩
  | prod a b =>
    obtain ⟨⟨f1, f2⟩, h3⟩ := h
    obtain ⟨a1, a2⟩ := finite_flags a f1
    obtain ⟨b1, b2⟩ := finite_flags b f2
    have e : a.val * b.val = (k : ℚ) := by unfold R at h3; exact_mod_cast h3.symm
    show (F64.mul a b).isFinite = true ∧ (F64.mul a b).val = k
    unfold F64.mul
    rw [a1, b1, a2, b2, e]
    simp only [Bool.or_false, Bool.false_eq_true, if_false]
    split
    · rename_i hz
      have k0 : (k : ℚ) = 0 := by
        rw [← e]
        rw [Bool.or_eq_true] at hz
        rcases hz with hz | hz
        · have := R_of_isZero a hz
          have : a.val = 0 := by unfold R at this; exact_mod_cast this
          rw [this, zero_mul]
        · have := R_of_isZero b hz
          have : b.val = 0 := by unfold R at this; exact_mod_cast this
          rw [this, mul_zero]
      exact ⟨rfl, by rw [k0]; rfl⟩
    · by_cases k0 : k = 0
      · subst k0
        decide +kernel
      · have := ofRat_int k h1 h2
        unfold ofRat at this
        rw [if_neg (by exact_mod_cast k0), if_neg k0] at this
        rw [this]
        exact ⟨rfl, rfl⟩

theorem fma_mid (a b c : F64) (ha : a.isFinite = true) (hb : b.isFinite = true) (hc : c.isFinite = true) (M : ℝ)
    (h : |R a * R b + R c| ≤ 2 * M) (hM : M ≤ 10 ^ 31) (h0 : M = 0 ∨ 1 / 10 ^ 30 ≤ M) :
    (fma a b c).isFinite = true ∧ |R (fma a b c) - (R a * R b + R c)| ≤ 3 * uu * M := by
  obtain ⟨a1, a2⟩ := finite_flags a ha
  obtain ⟨b1, b2⟩ := finite_flags b hb
  obtain ⟨c1, c2⟩ := finite_flags c hc
  have e : R a * R b + R c = ((a.val * b.val + c.val : ℚ) : ℝ) := by unfold R; push_cast; rfl
  unfold F64.fma
  rw [a1, b1, c1, a2, b2, c2]
  simp only [Bool.or_false, Bool.false_eq_true, if_false]
  rw [e] at h ⊢
  exact (round_mid _ _ M h hM h0).1

theorem add_mid (a c : F64) (ha : a.isFinite = true) (hc : c.isFinite = true) (M : ℝ)
    (h : |R a + R c| ≤ 2 * M) (hM : M ≤ 10 ^ 31) (h0 : M = 0 ∨ 1 / 10 ^ 30 ≤ M) :
    (add a c).isFinite = true ∧ |R (add a c) - (R a + R c)| ≤ 3 * uu * M := by
  obtain ⟨a1, a2⟩ := finite_flags a ha
  obtain ⟨c1, c2⟩ := finite_flags c hc
  have e : R a + R c = ((a.val + c.val : ℚ) : ℝ) := by unfold R; push_cast; rfl
  unfold F64.add
  rw [a1, c1, a2, c2]
  simp only [Bool.or_false, Bool.false_eq_true, if_false]
  rw [e] at h ⊢
  exact (round_mid _ _ M h hM h0).1

theorem uu_tol : 100 * uu ≤ tol := by unfold uu tol; norm_num

/-- The error of a difference whose operands are off by a little. -/
theorem diff_error {z u v x y : ℝ} (hu : |u - x| ≤ 3 * uu * |x|) (hv : |v - y| ≤ 3 * uu * |y|) (hz : |z - (u - v)| ≤ 3 * uu * (|x| + |y|)) :
    |z - (x - y)| ≤ tol * (|x| + |y|) := by
  have e : z - (x - y) = (z - (u - v)) + ((u - x) - (v - y)) := by ring
  rw [e]
  have h1 := abs_add_le (z - (u - v)) ((u - x) - (v - y))
  have h2 := abs_sub (u - x) (v - y)
  have h3 := mul_le_mul_of_nonneg_right uu_tol (add_nonneg (abs_nonneg x) (abs_nonneg y))
  have := mul_nonneg uu_pos.le (add_nonneg (abs_nonneg x) (abs_nonneg y))
  linarith

theorem diff_bound {u v x y : ℝ} (hu : |u - x| ≤ 3 * uu * |x|) (hv : |v - y| ≤ 3 * uu * |y|) : |u - v| ≤ 2 * (|x| + |y|) := by
  have e : u - v = (u - x) - (v - y) + (x - y) := by ring
  rw [e]
  have h1 := abs_add_le ((u - x) - (v - y)) (x - y)
  have h2 := abs_sub (u - x) (v - y)
  have h4 := abs_sub x y
  have hu1 : 3 * uu ≤ 1 := by have := uu_le; linarith [show (1 : ℝ) / 9 / 10 ^ 15 ≤ 1 / 3 by norm_num]
  have h5 := mul_le_mul_of_nonneg_right hu1 (abs_nonneg x)
  have h6 := mul_le_mul_of_nonneg_right hu1 (abs_nonneg y)
  linarith

theorem sum_mid {x y : ℝ} (hx : Mid x) (hy : Mid y) : |x| + |y| ≤ 10 ^ 31 ∧ (|x| + |y| = 0 ∨ 1 / 10 ^ 30 ≤ |x| + |y|) := by
  obtain ⟨x1, x2⟩ := mid_cases hx
  obtain ⟨y1, y2⟩ := mid_cases hy
  refine ⟨by linarith [show (2 : ℝ) * 10 ^ 30 ≤ 10 ^ 31 by norm_num], ?_⟩
  rcases x1 with x1 | x1
  · rw [x1, zero_add]; exact y1
  · right; linarith [abs_nonneg y]

theorem exact_self (x : ℝ) : |x - x| ≤ 3 * uu * |x| := by
  have := uu_pos
  simp only [sub_self, abs_zero]
  positivity

theorem floor_fin (a : F64) (h : a.isFinite = true) : (F64.floor a).isFinite = true ∧ R (F64.floor a) = ⌊R a⌋ := by
  rcases isFinite_cases a h with ⟨s, rfl⟩ | ⟨x, rfl⟩
  · refine ⟨rfl, ?_⟩
    show R (.zero s) = _
    rw [R_zero]
    simp
  · have e : (⌊((x : ℚ) : ℝ)⌋ : Int) = x.floor := by rw [Rat.floor_cast]; rfl
    show (if x.floor = 0 then F64.zero false else .fin x.floor).isFinite = true ∧ R (if x.floor = 0 then F64.zero false else .fin x.floor) = _
    rw [R_fin, e]
    split
    · rename_i h0
      exact ⟨rfl, by rw [R_zero, h0]; simp⟩
    · exact ⟨rfl, by rw [R_fin]; push_cast; rfl⟩

/-- Every platform is accurate enough. -/
noncomputable def platformApprox (P : Platform) : Approx P.ops tol where
  is := Reg.is
  lit q hq := by
    obtain ⟨h1, h2⟩ := mid_cases hq
    have r := (round_mid q false |(q : ℝ)| (by linarith [abs_nonneg (q : ℝ)]) (by linarith [show (10 : ℝ) ^ 30 ≤ 10 ^ 31 by norm_num]) h1).1
    refine ⟨R (ofRat q), ⟨?_, rfl⟩, ?_⟩
    · exact r.1
    · refine r.2.trans (mul_le_mul_of_nonneg_right ?_ (abs_nonneg _))
      linarith [uu_tol, uu_pos]
  ofInt k h1 h2 := by
    show (ofRat (k : ℚ)).isFinite = true ∧ (k : ℝ) = R (ofRat k)
    rw [ofRat_int k h1 h2]
    split
    · rename_i h0
      rw [h0]
      exact ⟨rfl, by rw [R_zero]; simp⟩
    · exact ⟨rfl, by rw [R_fin]; push_cast; rfl⟩
  toInt a k h1 h2 h := by
    obtain ⟨f, e⟩ := v_int a k (by omega) (by omega) h
    show P.toInt a.v = k
    have t : truncInt a.v.val = k := by rw [e, truncInt_int]
    rw [P.toInt_in _ f (by rw [t]; exact h1) (by rw [t]; exact h2), t]
  floorInt a k h1 h2 h := by
    obtain ⟨f, e⟩ := v_int a k h1 h2 h
    obtain ⟨g1, g2⟩ := floor_fin a.v f
    refine ⟨g1, ?_⟩
    rw [g2]
    have : R a.v = (k : ℝ) := by unfold R; rw [e]; push_cast; rfl
    rw [this, Int.floor_intCast]
  floor a x m h := by
    obtain ⟨f, e⟩ := v_near a x h m
    obtain ⟨g1, g2⟩ := floor_fin a.v f
    refine ⟨R a.v, e.trans (mul_le_mul_of_nonneg_right ?_ (abs_nonneg _)), g1, g2.symm⟩
    linarith [uu_tol, uu_pos]
  lt a b x y mx my hx hy h := by
    obtain ⟨f, e⟩ := v_near a x hx mx
    obtain ⟨g, d⟩ := v_near b y hy my
    obtain ⟨a1, a2⟩ := finite_flags _ f
    obtain ⟨b1, b2⟩ := finite_flags _ g
    show F64.lt a.v b.v = true
    unfold F64.lt
    rw [a1, b1, a2, b2]
    simp only [Bool.or_false, Bool.false_eq_true, if_false]
    apply decide_eq_true
    have : R a.v < R b.v := by
      have e1 := (abs_le.1 e).2
      have d1 := (abs_le.1 d).1
      have h1 := mul_le_mul_of_nonneg_right (show 3 * uu ≤ tol by linarith [uu_tol, uu_pos]) (abs_nonneg x)
      have h2 := mul_le_mul_of_nonneg_right (show 3 * uu ≤ tol by linarith [uu_tol, uu_pos]) (abs_nonneg y)
      linarith
    unfold R at this
    exact_mod_cast this
  sub a b x y mx my hx hy := by
    obtain ⟨f, e⟩ := v_near a x hx mx
    obtain ⟨g, d⟩ := v_near b y hy my
    obtain ⟨M1, M2⟩ := sum_mid mx my
    have plain : ∃ z, Reg.is (.num (F64.sub a.v b.v)) z ∧ |z - (x - y)| ≤ tol * (|x| + |y|) := by
      obtain ⟨n1, n2⟩ := neg_fin b.v g
      obtain ⟨r1, r2⟩ := add_mid a.v b.v.neg f n1 (|x| + |y|) (by rw [n2, ← sub_eq_add_neg]; exact diff_bound e d) M1 M2
      rw [n2, ← sub_eq_add_neg] at r2
      exact ⟨R (F64.sub a.v b.v), ⟨r1, rfl⟩, diff_error e d r2⟩
    show ∃ z, Reg.is (P.sub a b) z ∧ |z - (x - y)| ≤ tol * (|x| + |y|)
    unfold Platform.sub
    split
    · rename_i b _ _ _ u w _
      obtain ⟨⟨f1, f2⟩, f3⟩ := hx
      obtain ⟨n1, n2⟩ := neg_fin b.v g
      have d' := exact_self x
      obtain ⟨r1, r2⟩ := fma_mid u w b.v.neg f1 f2 n1 (|x| + |y|) (by rw [n2, ← sub_eq_add_neg, ← f3]; exact diff_bound d' d) M1 M2
      rw [n2, ← sub_eq_add_neg, ← f3] at r2
      exact ⟨_, ⟨r1, rfl⟩, diff_error d' d r2⟩
    · rename_i a _ _ _ u w _
      obtain ⟨⟨f1, f2⟩, f3⟩ := hy
      obtain ⟨n1, n2⟩ := neg_fin u f1
      have d' := exact_self y
      have q : R u.neg * R w + R a.v = R a.v - y := by rw [n2, f3]; ring
      obtain ⟨r1, r2⟩ := fma_mid u.neg w a.v n1 f2 f (|x| + |y|) (by rw [q]; exact diff_bound e d') M1 M2
      rw [q] at r2
      exact ⟨_, ⟨r1, rfl⟩, diff_error e d' r2⟩
    · exact plain
  mul a b x y mx my _ hx hy := by
    obtain ⟨f, e⟩ := v_near a x hx mx
    obtain ⟨g, d⟩ := v_near b y hy my
    refine ⟨R a.v * R b.v, ⟨⟨f, g⟩, rfl⟩, (mul_error e d).trans (mul_le_mul_of_nonneg_right ?_ (abs_nonneg _))⟩
    have := uu_tol
    have := uu_le
    nlinarith [uu_pos]
  div a b x y mx my mq y0 hx hy := by
    obtain ⟨f, e⟩ := v_near a x hx mx
    obtain ⟨g, d⟩ := v_near b y hy my
    have u1 := uu_pos
    have u2 : uu ≤ 1 / 100 := by linarith [uu_le, show (1 : ℝ) / 9 / 10 ^ 15 ≤ 1 / 100 by norm_num]
    obtain ⟨n0, q⟩ := div_error (s := 7 * uu) e d y0 (by linarith) (by nlinarith)
    obtain ⟨m1, m2⟩ := mid_cases mq
    obtain ⟨a1, a2⟩ := finite_flags _ f
    obtain ⟨b1, b2⟩ := finite_flags _ g
    have hz : b.v.isZero = false := by
      cases hc : b.v.isZero with
      | false => rfl
      | true => exact absurd (R_of_isZero _ hc) n0
    have eq : R a.v / R b.v = ((a.v.val / b.v.val : ℚ) : ℝ) := by unfold R; push_cast; rfl
    have bd : |R a.v / R b.v| ≤ 2 * |x / y| := by
      have := abs_add_le (R a.v / R b.v - x / y) (x / y)
      rw [sub_add_cancel] at this
      have := mul_le_mul_of_nonneg_right (show 7 * uu ≤ 1 by linarith) (abs_nonneg (x / y))
      linarith
    have key : (F64.div a.v b.v).isFinite = true ∧ |R (F64.div a.v b.v) - R a.v / R b.v| ≤ 3 * uu * |x / y| := by
      unfold F64.div
      rw [a1, b1, a2, b2, hz]
      simp only [Bool.or_false, Bool.false_eq_true, if_false]
      split
      · rename_i h1
        refine ⟨rfl, ?_⟩
        rw [R_zero, R_of_isZero _ h1]
        simp only [zero_div, sub_zero, abs_zero]
        positivity
      · rw [eq] at bd ⊢
        exact (round_mid _ false _ bd (by linarith [show (10 : ℝ) ^ 30 ≤ 10 ^ 31 by norm_num]) m1).2
    refine ⟨R (F64.div a.v b.v), ⟨key.1, rfl⟩, ?_⟩
    have h1 := abs_add_le (R (F64.div a.v b.v) - R a.v / R b.v) (R a.v / R b.v - x / y)
    rw [sub_add_sub_cancel] at h1
    have h2 := mul_le_mul_of_nonneg_right uu_tol (abs_nonneg (x / y))
    have h3 := mul_nonneg u1.le (abs_nonneg (x / y))
    linarith [key.2]
  pow2 a x mx mq hx := by
    obtain ⟨f, e⟩ := v_near a x hx mx
    have u1 := uu_pos
    have u2 : uu ≤ 1 / 100 := by linarith [uu_le, show (1 : ℝ) / 9 / 10 ^ 15 ≤ 1 / 100 by norm_num]
    have q := mul_error e e
    rw [← pow_two x] at q
    have q' : |R a.v * R a.v - x ^ 2| ≤ 7 * uu * |x ^ 2| := q.trans (mul_le_mul_of_nonneg_right (by nlinarith) (abs_nonneg _))
    obtain ⟨m1, m2⟩ := mid_cases mq
    have bd : |R a.v * R a.v| ≤ 2 * |x ^ 2| := by
      have := abs_add_le (R a.v * R a.v - x ^ 2) (x ^ 2)
      rw [sub_add_cancel] at this
      have := mul_le_mul_of_nonneg_right (show 7 * uu ≤ 1 by linarith) (abs_nonneg (x ^ 2))
      linarith
    obtain ⟨r1, r2⟩ := mul_mid a.v a.v f f |x ^ 2| bd (by linarith [show (10 : ℝ) ^ 30 ≤ 10 ^ 31 by norm_num]) m1
    refine ⟨R (F64.mul a.v a.v), ⟨r1, rfl⟩, ?_⟩
    have h1 := abs_add_le (R (F64.mul a.v a.v) - R a.v * R a.v) (R a.v * R a.v - x ^ 2)
    rw [sub_add_sub_cancel] at h1
    have h2 := mul_le_mul_of_nonneg_right uu_tol (abs_nonneg (x ^ 2))
    have h3 := mul_nonneg u1.le (abs_nonneg (x ^ 2))
    linarith
  toUInt64 a x h1 h2 hx := by
    have ax : |x| = x := abs_of_nonneg (by linarith)
    have mx : Mid x := .inr (by
      rw [ax]
      exact ⟨by linarith [show (1 : ℝ) / 10 ^ 30 ≤ 1 by norm_num], by linarith [show (2 : ℝ) ^ 63 - 2 ^ 50 ≤ 10 ^ 30 by norm_num]⟩)
    obtain ⟨f, e⟩ := v_near a x hx mx
    refine ⟨R a.v, e.trans (mul_le_mul_of_nonneg_right (by linarith [uu_tol, uu_pos]) (abs_nonneg _)), ?_⟩
    rw [ax] at e
    obtain ⟨e1, e2⟩ := abs_le.1 e
    have u1 := uu_pos
    have u2 := uu_le
    have p : 0 ≤ R a.v := by nlinarith
    have q : R a.v < 2 ^ 63 := by nlinarith
    have t : truncInt a.v.val = ⌊R a.v⌋ := by
      have e : (⌊R a.v⌋ : Int) = a.v.val.floor := by unfold R; rw [Rat.floor_cast]; rfl
      unfold truncInt
      rw [if_pos (by unfold R at p; exact_mod_cast p), e]
    have t1 : 0 ≤ ⌊R a.v⌋ := Int.floor_nonneg.2 p
    have t2 : ⌊R a.v⌋ < 2 ^ 63 := Int.floor_lt.2 (by push_cast; linarith)
    show (P.toUInt64 a.v).toNat = _
    rw [P.toUInt64_in _ f (by omega) (by omega), t]
    rw [← Int.floor_toNat]
    generalize ⌊R a.v⌋ = k at t1 t2
    unfold UInt64.ofInt
    rw [UInt64.toNat_ofNat']
    omega

/-! ### C94 -/

/-- C94: the sampler of key generation takes the same decisions on every platform. -/
theorem C94_platform (P : Platform) : KeyArith P.ops := C94_precision (platformApprox P)

/-- C94: the candidates drawn by key generation are the same on every platform, wherever products are fused and however conversions behave
out of range. -/
theorem C94_same (P Q : Platform) (rand : Rand) (fuel : Nat) (n : UInt16) (pos : Nat) :
    GenPoly P.ops rand fuel n pos = GenPoly Q.ops rand fuel n pos ∧ GenPoly P.ops rand fuel n pos = GenPoly ieeeOps rand fuel n pos :=
  ⟨C94_candidates (C94_platform P) (C94_platform Q) rand fuel n pos, C94_candidates (C94_platform P) key_ieee rand fuel n pos⟩

/-- C94: on every platform `GeneratePrivateKey` panics only if the random source fails. -/
theorem C94_no_panic (P : Platform) (rand : Rand) (fuel : Nat) (n : UInt16) (pos : Nat)
    (h : GeneratePrivateKey P.ops rand fuel n pos = .panic) : ∃ i, pos ≤ i ∧ rand i = none :=
  C94_panics (C94_platform P) rand fuel n pos h

/-- Fusing does change results: squaring `1 + 2^-30` and subtracting `1 + 2^-29` gives zero with two roundings and `2^-60` with one. -/
example : Platform.amd64.sub (Platform.mul (.num (.fin (1 + 1 / 2 ^ 30))) (.num (.fin (1 + 1 / 2 ^ 30)))) (.num (.fin (1 + 1 / 2 ^ 29))) = .num (.zero false) ∧
    Platform.arm64.sub (Platform.mul (.num (.fin (1 + 1 / 2 ^ 30))) (.num (.fin (1 + 1 / 2 ^ 30)))) (.num (.fin (1 + 1 / 2 ^ 29))) = .num (.fin (1 / 2 ^ 60)) := by
  decide +kernel

/-- The two platforms also convert differently out of range. -/
example : Platform.amd64.toInt (.fin (2 ^ 70)) = -(2 ^ 63) ∧ Platform.arm64.toInt (.fin (2 ^ 70)) = 2 ^ 63 - 1 := by decide +kernel

/-- Fusing changes the exponent of a sample of key generation, but not the shift amount. -/
example : ∃ b < 2, ∃ z0 < 19,
    sampleExponent Platform.amd64.ops (Platform.amd64.ops.ofInt 0) (Platform.amd64.ops.lit 1.43300980528773) b z0 ≠
      sampleExponent Platform.arm64.ops (Platform.arm64.ops.ofInt 0) (Platform.arm64.ops.lit 1.43300980528773) b z0 := by
  refine ⟨1, by norm_num, 15, by norm_num, ?_⟩
  decide +kernel

end Falcon
