import Verif.Spec.Fma
import Verif.Lemmas.CDiv
/-!
# The rounding errors of complex products and quotients with fused multiply-add
-/

namespace Falcon
open F64

theorem fma_near (x y c : F64) (hx : x.isFinite = true) (hy : y.isFinite = true) (hc : c.isFinite = true) (h : |R x * R y + R c| ≤ Big) :
    (fma x y c).isFinite = true ∧ |R (fma x y c) - (R x * R y + R c)| ≤ uu * |R x * R y + R c| + et := by
  obtain ⟨x1, x2⟩ := finite_flags x hx
  obtain ⟨y1, y2⟩ := finite_flags y hy
  obtain ⟨c1, c2⟩ := finite_flags c hc
  have e : R x * R y + R c = ((x.val * y.val + c.val : ℚ) : ℝ) := by unfold R; push_cast; rfl
  have u0 := uu_pos
  have t0 := et_pos
  unfold fma
  rw [x1, y1, c1, x2, y2, c2]
  simp only [Bool.or_false, Bool.false_eq_true, if_false]
  rw [e] at h ⊢
  split
  · rename_i hz
    refine ⟨rfl, ?_⟩
    rw [R_zero, hz]
    simp only [Rat.cast_zero, sub_zero, abs_zero]
    positivity
  · exact rnd_near' _ h

namespace Reg

/-- The register holds a finite number or a product of finite numbers, of size at most `M`. -/
def ok (M : ℝ) : Reg → Prop
  | .num a => a.isFinite = true ∧ |R a| ≤ M
  | .prod x y => (x.isFinite = true ∧ y.isFinite = true) ∧ |R x * R y| ≤ M

/-- `p` is the number in the register, or the product up to one rounding. -/
def apx (p : ℝ) : Reg → Prop
  | .num a => p = R a
  | .prod x y => |p - R x * R y| ≤ uu * |R x * R y| + et

theorem v_apx (a : Reg) (M : ℝ) (hM : M ≤ Big) (h : a.ok M) : a.v.isFinite = true ∧ a.apx (R a.v) ∧ |R a.v| ≤ 2 * M + 1 := by
  cases a with
  | num a => exact ⟨h.1, rfl, by have := h.2; have := abs_nonneg (R a); show |R a| ≤ _; linarith⟩
  | prod x y =>
    have m := mul_near x y h.1.1 h.1.2 (h.2.trans hM)
    exact ⟨m.1, m.2, abs_le_of_near _ _ M m.2 h.2⟩

theorem prod_apx (x y : F64) : (Reg.prod x y).apx (R x * R y) := by
  show |R x * R y - R x * R y| ≤ _
  rw [sub_self, abs_zero]
  have := uu_pos
  have := et_pos
  positivity

end Reg

namespace Platform

theorem add_cases (P : Platform) (a b : Reg) : P.add a b = .num (F64.add a.v b.v) ∨
    (∃ x y, a = .prod x y ∧ P.add a b = .num (fma x y b.v)) ∨ ∃ x y, b = .prod x y ∧ P.add a b = .num (fma x y a.v) := by
  unfold Platform.add
  cases P.fuseAdd a b <;> cases a <;> cases b <;> simp

theorem sub_cases (P : Platform) (a b : Reg) : P.sub a b = .num (F64.sub a.v b.v) ∨
    (∃ x y, a = .prod x y ∧ P.sub a b = .num (fma x y b.v.neg)) ∨ ∃ x y, b = .prod x y ∧ P.sub a b = .num (fma x.neg y a.v) := by
  unfold Platform.sub
  cases P.fuseSub a b <;> cases a <;> cases b <;> simp

/-- A sum, whichever product is fused. -/
theorem add_near (P : Platform) (a b : Reg) (M : ℝ) (hM : 6 * M + 8 ≤ Big) (ha : a.ok M) (hb : b.ok M) :
    ∃ p q, a.apx p ∧ b.apx q ∧ (P.add a b).v.isFinite = true ∧ |R (P.add a b).v - (p + q)| ≤ uu * |p + q| + et := by
  have M0 : 0 ≤ M := by cases a <;> exact (abs_nonneg _).trans ha.2
  obtain ⟨fa, pa, na⟩ := a.v_apx M (by linarith) ha
  obtain ⟨fb, pb, nb⟩ := b.v_apx M (by linarith) hb
  rcases P.add_cases a b with e | ⟨x, y, rfl, e⟩ | ⟨x, y, rfl, e⟩
  · rw [e]
    have := Falcon.add_near a.v b.v fa fb (by have := abs_add_le (R a.v) (R b.v); linarith)
    exact ⟨_, _, pa, pb, this.1, this.2⟩
  · rw [e]
    have := fma_near x y b.v ha.1.1 ha.1.2 fb (by have := abs_add_le (R x * R y) (R b.v); have := ha.2; linarith)
    exact ⟨_, _, Reg.prod_apx x y, pb, this.1, this.2⟩
  · rw [e]
    have := fma_near x y a.v hb.1.1 hb.1.2 fa (by have := abs_add_le (R x * R y) (R a.v); have := hb.2; linarith)
    exact ⟨_, _, pa, Reg.prod_apx x y, this.1, by rw [add_comm (R a.v)]; exact this.2⟩

/-- A difference, whichever product is fused. -/
theorem sub_near (P : Platform) (a b : Reg) (M : ℝ) (hM : 6 * M + 8 ≤ Big) (ha : a.ok M) (hb : b.ok M) :
    ∃ p q, a.apx p ∧ b.apx q ∧ (P.sub a b).v.isFinite = true ∧ |R (P.sub a b).v - (p - q)| ≤ uu * |p - q| + et := by
  have M0 : 0 ≤ M := by cases a <;> exact (abs_nonneg _).trans ha.2
  obtain ⟨fa, pa, na⟩ := a.v_apx M (by linarith) ha
  obtain ⟨fb, pb, nb⟩ := b.v_apx M (by linarith) hb
  rcases P.sub_cases a b with e | ⟨x, y, rfl, e⟩ | ⟨x, y, rfl, e⟩
  · rw [e]
    have := Falcon.sub_near a.v b.v fa fb (by have := abs_sub (R a.v) (R b.v); linarith)
    exact ⟨_, _, pa, pb, this.1, this.2⟩
  · rw [e]
    obtain ⟨n1, n2⟩ := neg_fin b.v fb
    have := fma_near x y b.v.neg ha.1.1 ha.1.2 n1 (by rw [n2, ← sub_eq_add_neg]; have := abs_sub (R x * R y) (R b.v); have := ha.2; linarith)
    rw [n2, ← sub_eq_add_neg] at this
    exact ⟨_, _, Reg.prod_apx x y, pb, this.1, this.2⟩
  · rw [e]
    obtain ⟨n1, n2⟩ := neg_fin x hb.1.1
    have e' : R x.neg * R y + R a.v = R a.v - R x * R y := by rw [n2]; ring
    have := fma_near x.neg y a.v n1 hb.1.2 fa (by rw [e']; have := abs_sub (R a.v) (R x * R y); have := hb.2; linarith)
    rw [e'] at this
    exact ⟨_, _, pa, Reg.prod_apx x y, this.1, this.2⟩

/-- Complex multiplication on numbers in memory. -/
def cmul (P : Platform) (x y : F64 × F64) : F64 × F64 :=
  ((P.sub (.prod x.1 y.1) (.prod x.2 y.2)).v, (P.add (.prod x.1 y.2) (.prod x.2 y.1)).v)

/-- Complex multiplication has the error bound of amd64, whichever products are fused. -/
theorem cmul_near (P : Platform) (x y : F64 × F64) (hx : cfin x) (hy : cfin y) (h : 8 * (‖cval x‖ * ‖cval y‖) ≤ Big) :
    cfin (P.cmul x y) ∧ ‖cval (P.cmul x y) - cval x * cval y‖ ≤ 4 * uu * (‖cval x‖ * ‖cval y‖) + 8 * et := by
  set M := ‖cval x‖ * ‖cval y‖ with hMdef
  have M0 : 0 ≤ M := by positivity
  have big : 100 ≤ Big := le_trans (by norm_num) Big_ge'
  have cs : ∀ a b c d : ℝ, a * a + b * b = ‖cval x‖ ^ 2 → c * c + d * d = ‖cval y‖ ^ 2 → |a * c| + |b * d| ≤ M := by
    intro a b c d h1 h2
    rw [hMdef, ← abs_of_nonneg (show 0 ≤ ‖cval x‖ * ‖cval y‖ by positivity)]
    rw [abs_mul, abs_mul, ← abs_of_nonneg (show 0 ≤ |a| * |c| + |b| * |d| by positivity)]
    apply sq_le_sq.1
    rw [mul_pow, ← h1, ← h2, ← abs_mul_abs_self a, ← abs_mul_abs_self b, ← abs_mul_abs_self c, ← abs_mul_abs_self d]
    nlinarith [sq_nonneg (|a| * |d| - |b| * |c|)]
  have nx : R x.1 * R x.1 + R x.2 * R x.2 = ‖cval x‖ ^ 2 := by rw [← Complex.normSq_eq_norm_sq, Complex.normSq_apply]; rfl
  have ny : R y.1 * R y.1 + R y.2 * R y.2 = ‖cval y‖ ^ 2 := by rw [← Complex.normSq_eq_norm_sq, Complex.normSq_apply]; rfl
  have ny' : R y.2 * R y.2 + R y.1 * R y.1 = ‖cval y‖ ^ 2 := by rw [add_comm]; exact ny
  have c1 := cs _ _ _ _ nx ny
  have c2 := cs _ _ _ _ nx ny'
  have n1 := abs_nonneg (R x.1 * R y.1)
  have n2 := abs_nonneg (R x.2 * R y.2)
  have n3 := abs_nonneg (R x.1 * R y.2)
  have n4 := abs_nonneg (R x.2 * R y.1)
  obtain ⟨p1, q1, m11, m22, f1, s1⟩ := P.sub_near (.prod x.1 y.1) (.prod x.2 y.2) M (by linarith) ⟨⟨hx.1, hy.1⟩, by linarith⟩ ⟨⟨hx.2, hy.2⟩, by linarith⟩
  obtain ⟨p2, q2, m12, m21, f2, s2⟩ := P.add_near (.prod x.1 y.2) (.prod x.2 y.1) M (by linarith) ⟨⟨hx.1, hy.2⟩, by linarith⟩ ⟨⟨hx.2, hy.1⟩, by linarith⟩
  change |q1 - R x.2 * R y.2| ≤ uu * |R x.2 * R y.2| + et at m22
  refine ⟨⟨f1, f2⟩, ?_⟩
  have t1 := two_products M (R x.1 * R y.1) (-(R x.2 * R y.2)) p1 (-q1) (R (P.sub (.prod x.1 y.1) (.prod x.2 y.2)).v)
    (by rw [abs_neg]; exact c1) m11 (by rw [abs_neg, ← abs_neg]; convert m22 using 2; ring) (by rw [← sub_eq_add_neg]; exact s1)
  have t2 := two_products M (R x.1 * R y.2) (R x.2 * R y.1) p2 q2 (R (P.add (.prod x.1 y.2) (.prod x.2 y.1)).v)
    c2 m12 m21 s2
  have e1 : (cval (P.cmul x y) - cval x * cval y).re =
      R (P.sub (.prod x.1 y.1) (.prod x.2 y.2)).v - (R x.1 * R y.1 + -(R x.2 * R y.2)) := by
    rw [Complex.sub_re, Complex.mul_re, ← sub_eq_add_neg]; rfl
  have e2 : (cval (P.cmul x y) - cval x * cval y).im =
      R (P.add (.prod x.1 y.2) (.prod x.2 y.1)).v - (R x.1 * R y.2 + R x.2 * R y.1) := by
    rw [Complex.sub_im, Complex.mul_im]; rfl
  set d := cval (P.cmul x y) - cval x * cval y
  set B := 21 / 10 * uu * M + 4 * et
  have B0 : 0 ≤ B := le_trans (abs_nonneg _) t1
  rw [← e1] at t1
  rw [← e2] at t2
  have : ‖d‖ ^ 2 ≤ (3 / 2 * B) ^ 2 := by
    rw [← Complex.normSq_eq_norm_sq, Complex.normSq_apply, ← abs_mul_abs_self d.re, ← abs_mul_abs_self d.im]
    have h1 := mul_self_le_mul_self (abs_nonneg _) t1
    have h2 := mul_self_le_mul_self (abs_nonneg _) t2
    nlinarith
  have h3 := abs_le_of_sq_le_sq' this (by positivity)
  have h4 : 0 ≤ uu * M := mul_nonneg uu_pos.le M0
  have h5 := et_pos
  calc ‖d‖ ≤ 3 / 2 * B := h3.2
    _ ≤ _ := by simp only [B]; linarith

/-- The two halves of `complex128div`, whichever products are fused. -/
theorem smith_half (P : Platform) (a b c d : F64) (ha : a.isFinite = true) (hb : b.isFinite = true) (hc : c.isFinite = true) (hd : d.isFinite = true) (X : ℝ)
    (hX : X ≤ 10 ^ 60) (aX : |R a| ≤ X) (bX : |R b| ≤ X) (hcd : |R d| ≤ |R c|) (hlow : 1 / 10 ^ 30 ≤ |R c|) (hup : |R c| ≤ 10 ^ 60) :
    let ratio := div d c
    let denom := (P.add (.num c) (.prod ratio d)).v
    let D := (R c ^ 2 + R d ^ 2) / R c
    ratio.isFinite = true ∧ denom.isFinite = true ∧ |R c| ≤ |D| ∧
    (div (P.add (.num a) (.prod b ratio)).v denom).isFinite = true ∧ (div (P.sub (.num b) (.prod a ratio)).v denom).isFinite = true ∧
    (div (P.add (.prod b ratio) (.num a)).v denom).isFinite = true ∧ (div (P.sub (.prod b ratio) (.num a)).v denom).isFinite = true ∧
    |R (div (P.add (.num a) (.prod b ratio)).v denom) - (R a + R b * (R d / R c)) / D| ≤ 17 * (uu * (X / |D|)) + 3 * (et / |D|) + et ∧
    |R (div (P.sub (.num b) (.prod a ratio)).v denom) - (R b - R a * (R d / R c)) / D| ≤ 17 * (uu * (X / |D|)) + 3 * (et / |D|) + et ∧
    |R (div (P.add (.prod b ratio) (.num a)).v denom) - (R b * (R d / R c) + R a) / D| ≤ 17 * (uu * (X / |D|)) + 3 * (et / |D|) + et ∧
    |R (div (P.sub (.prod b ratio) (.num a)).v denom) - (R b * (R d / R c) - R a) / D| ≤ 17 * (uu * (X / |D|)) + 3 * (et / |D|) + et := by
  have big := Big_ge'
  have u0 := uu_pos
  have u1 : uu ≤ 1 / 10 ^ 4 := uu_le.trans (by norm_num)
  have t1 : et ≤ 1 := et_num.trans (by norm_num)
  have t0 := et_pos
  have c0 : R c ≠ 0 := by
    intro h
    rw [h, abs_zero] at hlow
    norm_num at hlow
  have X0 : 0 ≤ X := (abs_nonneg _).trans aX
  have rq : |R d / R c| ≤ 1 := by
    rw [abs_div]
    exact (div_le_one (abs_pos.2 c0)).2 hcd
  obtain ⟨f1, n1⟩ := div_near d c hd hc c0 (by linarith)
  have r2 := abs_le_of_near _ _ 1 n1 rq
  have lim1 : |R (div d c) * R d| ≤ Big := by
    rw [abs_mul]
    have := mul_le_mul r2 (hcd.trans hup) (abs_nonneg _) (by norm_num)
    linarith
  have lim2 : |R (div d c) * R d| ≤ 3 * 10 ^ 60 := by
    rw [abs_mul]
    have := mul_le_mul r2 (hcd.trans hup) (abs_nonneg _) (by norm_num)
    linarith
  obtain ⟨pc, m, ec, n2, f3, n3⟩ := P.add_near (.num c) (.prod (div d c) d) (3 * 10 ^ 60) (by linarith) ⟨hc, by linarith⟩ ⟨⟨f1, hd⟩, lim2⟩
  change pc = R c at ec
  subst ec
  have eD : (R c ^ 2 + R d ^ 2) / R c = R c + R d / R c * R d := by field_simp
  obtain ⟨r1, cD, eD'⟩ := smith_den (R c) (R d) (R d / R c) _ _ _ ((R c ^ 2 + R d ^ 2) / R c) c0 hcd rfl eD
    (le_trans (by norm_num) hlow) n1 n2 n3
  set D := (R c ^ 2 + R d ^ 2) / R c with hD
  have D0 : 0 < |D| := lt_of_lt_of_le (abs_pos.2 c0) cD
  -- products with the ratio
  have prod : ∀ t : F64, t.isFinite = true → |R t| ≤ X → (Reg.prod t (div d c)).ok (3 * X) := by
    intro t ht tX
    refine ⟨⟨ht, f1⟩, ?_⟩
    rw [abs_mul, mul_comm]
    have := mul_le_mul r2 tX (abs_nonneg _) (by norm_num)
    linarith
  have num : ∀ t : F64, t.isFinite = true → |R t| ≤ X → (Reg.num t).ok (3 * X) := fun t ht tX => ⟨ht, by linarith⟩
  have XD : X / |D| ≤ 10 ^ 90 := by
    rw [div_le_iff₀ D0]
    have : (10 : ℝ) ^ 90 * (1 / 10 ^ 30) ≤ 10 ^ 90 * |D| := by
      have := hlow.trans cD
      gcongr
    have e : (10 : ℝ) ^ 90 * (1 / 10 ^ 30) = 10 ^ 60 := by norm_num
    linarith
  have ED : et / |D| ≤ 10 ^ 90 := by
    rw [div_le_iff₀ D0]
    have : (10 : ℝ) ^ 90 * (1 / 10 ^ 30) ≤ 10 ^ 90 * |D| := by
      have := hlow.trans cD
      gcongr
    have e : (10 : ℝ) ^ 90 * (1 / 10 ^ 30) = 10 ^ 60 := by norm_num
    linarith
  -- the final division
  have fin : ∀ (N : F64) (s t m : ℝ), N.isFinite = true → |m - t * R (div d c)| ≤ uu * |t * R (div d c)| + et →
      |R N - (s + m)| ≤ uu * |s + m| + et → |s| ≤ X → |t| ≤ X → (div N (P.add (.num c) (.prod (div d c) d)).v).isFinite = true ∧
      |R (div N (P.add (.num c) (.prod (div d c) d)).v) - (s + t * (R d / R c)) / D| ≤ 17 * (uu * (X / |D|)) + 3 * (et / |D|) + et := by
    intro N s t m hN hm hNn hs ht
    obtain ⟨d0, -, b, -⟩ := smith_quot s t _ _ m (R N) D (R (P.add (.num c) (.prod (div d c) d)).v) (R N / R (P.add (.num c) (.prod (div d c) d)).v) X rq n1 hm hNn eD' D0
      (fun _ => by rw [sub_self, abs_zero]; positivity) hs ht
    obtain ⟨f, n⟩ := div_near N _ hN f3 d0 (by linarith)
    exact ⟨f, (smith_quot s t _ _ m (R N) D _ (R (div N (P.add (.num c) (.prod (div d c) d)).v)) X rq n1 hm hNn eD' D0 (fun _ => n) hs ht).2.2.2⟩
  obtain ⟨p1, m1, e1, k1, g1, s1⟩ := P.add_near (.num a) (.prod b (div d c)) (3 * X) (by linarith) (num a ha aX) (prod b hb bX)
  obtain ⟨p2, m2, e2, k2, g2, s2⟩ := P.sub_near (.num b) (.prod a (div d c)) (3 * X) (by linarith) (num b hb bX) (prod a ha aX)
  obtain ⟨m3, p3, k3, e3, g3, s3⟩ := P.add_near (.prod b (div d c)) (.num a) (3 * X) (by linarith) (prod b hb bX) (num a ha aX)
  obtain ⟨m4, p4, k4, e4, g4, s4⟩ := P.sub_near (.prod b (div d c)) (.num a) (3 * X) (by linarith) (prod b hb bX) (num a ha aX)
  change p1 = R a at e1
  change p2 = R b at e2
  change p3 = R a at e3
  change p4 = R a at e4
  change |m2 - R a * R (div d c)| ≤ uu * |R a * R (div d c)| + et at k2
  subst e1 e2 e3 e4
  have q1 := fin _ (R a) (R b) m1 g1 k1 s1 aX bX
  have q2 := fin _ (R b) (-R a) (-m2) g2 (by rw [neg_mul, abs_neg, ← abs_neg]; convert k2 using 2; ring)
    (by rw [← sub_eq_add_neg]; exact s2) bX (by rw [abs_neg]; exact aX)
  have q3 := fin _ (R a) (R b) m3 g3 k3 (by rw [add_comm (R a)]; exact s3) aX bX
  have q4 := fin _ (-R a) (R b) m4 g4 k4 (by rw [neg_add_eq_sub]; exact s4) (by rw [abs_neg]; exact aX) bX
  refine ⟨f1, f3, cD, q1.1, q2.1, q3.1, q4.1, q1.2, ?_, ?_, ?_⟩
  · convert q2.2 using 4; ring
  · convert q3.2 using 4; ring
  · convert q4.2 using 4; ring

/-- Complex division compiled with fusing: the relative error is at most `40u`, up to underflow. -/
theorem smith_near (P : Platform) (x y : F64 × F64) (hx : cfin x) (hy : cfin y) (hX : ‖cval x‖ ≤ 10 ^ 60) (hlow : 1 / 10 ^ 29 ≤ ‖cval y‖) (hup : ‖cval y‖ ≤ 10 ^ 60) :
    cfin (P.smith x y) ∧ ‖cval (P.smith x y) - cval x / cval y‖ ≤ 40 * uu * (‖cval x‖ / ‖cval y‖) + 1 / 10 ^ 80 := by
  obtain ⟨a, b⟩ := x
  obtain ⟨c, d⟩ := y
  obtain ⟨ha, hb⟩ := hx
  obtain ⟨hc, hd⟩ := hy
  simp only at ha hb hc hd
  set X := ‖cval (a, b)‖
  set Y := ‖cval (c, d)‖ with hY
  have u0 := uu_pos
  have t0 := et_pos
  have aX : |R a| ≤ X := Complex.abs_re_le_norm (cval (a, b))
  have bX : |R b| ≤ X := Complex.abs_im_le_norm (cval (a, b))
  have cY : |R c| ≤ Y := Complex.abs_re_le_norm (cval (c, d))
  have dY : |R d| ≤ Y := Complex.abs_im_le_norm (cval (c, d))
  have Ysq : Y ^ 2 = R c ^ 2 + R d ^ 2 := by
    rw [hY, ← Complex.normSq_eq_norm_sq, Complex.normSq_apply]
    show R c * R c + R d * R d = _
    ring
  have X0 : 0 ≤ X := norm_nonneg _
  have Y0 : 0 < Y := lt_of_lt_of_le (by norm_num) hlow
  obtain ⟨ac1, ac2⟩ := abs_fin c hc
  obtain ⟨ad1, ad2⟩ := abs_fin d hd
  have Rc : R (abs c) = |R c| := by unfold R; rw [ac2]; push_cast; rfl
  have Rd : R (abs d) = |R d| := by unfold R; rw [ad2]; push_cast; rfl
  have hn := finite_flags c hc
  have hn' := finite_flags d hd
  -- from the components to the norm
  have fin : ∀ (e f : F64) (D : ℝ), e.isFinite = true → f.isFinite = true → Y ≤ |D| →
      |R e - (cval (a, b) / cval (c, d)).re| ≤ 17 * (uu * (X / |D|)) + 3 * (et / |D|) + et →
      |R f - (cval (a, b) / cval (c, d)).im| ≤ 17 * (uu * (X / |D|)) + 3 * (et / |D|) + et →
      cfin (e, f) ∧ ‖cval (e, f) - cval (a, b) / cval (c, d)‖ ≤ 40 * uu * (X / Y) + 1 / 10 ^ 80 := by
    intro e f D he hf hD h1 h2
    refine ⟨⟨he, hf⟩, ?_⟩
    refine (Complex.norm_le_abs_re_add_abs_im _).trans ?_
    have g1 : |(cval (e, f) - cval (a, b) / cval (c, d)).re| ≤ 17 * (uu * (X / |D|)) + 3 * (et / |D|) + et := by
      rw [Complex.sub_re]; exact h1
    have g2 : |(cval (e, f) - cval (a, b) / cval (c, d)).im| ≤ 17 * (uu * (X / |D|)) + 3 * (et / |D|) + et := by
      rw [Complex.sub_im]; exact h2
    have g3 : X / |D| ≤ X / Y := by gcongr
    have g4 : et / |D| ≤ et / Y := by gcongr
    have g5 : et / Y ≤ (1 / 10 ^ 120) / (1 / 10 ^ 29) := by
      have := et_num
      gcongr
    have g6 : (1 / 10 ^ 120) / (1 / 10 ^ 29) = (1 / 10 ^ 91 : ℝ) := by norm_num
    have g7 : uu * (X / |D|) ≤ uu * (X / Y) := mul_le_mul_of_nonneg_left g3 u0.le
    have g8 := et_num
    have g9 : 0 ≤ uu * (X / Y) := by positivity
    linarith
  have nonan : ∀ e : F64, e.isFinite = true → e.isNaN = false := fun e h => (finite_flags e h).1
  by_cases hcd : |R c| < |R d|
  · have hl : F64.lt (abs c) (abs d) = true := (lt_fin _ _ ac1 ad1).2 (by rw [Rc, Rd]; exact hcd)
    have d0 : R d ≠ 0 := by
      intro h
      rw [h, abs_zero] at hcd
      exact absurd hcd (not_lt.2 (abs_nonneg _))
    have hlow' : 1 / 10 ^ 30 ≤ |R d| := by
      by_contra hcon
      push Not at hcon
      have e1 : R c ^ 2 ≤ R d ^ 2 := sq_le_sq.2 hcd.le
      have e2 : R d ^ 2 < (1 / 10 ^ 30) ^ 2 := by rw [← sq_abs]; exact pow_lt_pow_left₀ hcon (abs_nonneg _) (by norm_num)
      have e3 : (1 / 10 ^ 29) ^ 2 ≤ Y ^ 2 := by gcongr
      have e4 : (2 * (1 / 10 ^ 30) ^ 2 : ℝ) < (1 / 10 ^ 29) ^ 2 := by norm_num
      linarith
    obtain ⟨-, -, hD, -, -, f3, -, -, -, n3, -⟩ := P.smith_half b a d c hb ha hd hc X hX bX aX hcd.le hlow' (dY.trans hup)
    obtain ⟨-, -, -, -, -, -, f4, -, -, -, n4⟩ := P.smith_half a b d c ha hb hd hc X hX aX bX hcd.le hlow' (dY.trans hup)
    have hDY : Y ≤ |(R d ^ 2 + R c ^ 2) / R d| := by
      rw [abs_div, abs_of_nonneg (by positivity : 0 ≤ R d ^ 2 + R c ^ 2), add_comm (R d ^ 2), ← Ysq, le_div_iff₀ (abs_pos.2 d0)]
      nlinarith
    have e : P.smith (a, b) (c, d) = (div (P.add (.prod a (div c d)) (.num b)).v (P.add (.num d) (.prod (div c d) c)).v,
        div (P.sub (.prod b (div c d)) (.num a)).v (P.add (.num d) (.prod (div c d) c)).v) := by
      show P.smith (a, b) (c, d) = _
      unfold smith
      simp only [hl, Bool.not_true, Bool.false_and, Bool.false_eq_true, if_false, nonan _ f3, nonan _ f4, Bool.or_false]
    rw [e]
    refine fin _ _ _ f3 f4 hDY ?_ ?_
    · convert n3 using 3
      rw [Complex.div_re, Complex.normSq_apply]
      show R a * R c / (R c * R c + R d * R d) + R b * R d / (R c * R c + R d * R d) = _
      have : R c * R c + R d * R d ≠ 0 := by have := Ysq; nlinarith
      have : R d ^ 2 + R c ^ 2 ≠ 0 := by rw [add_comm, ← Ysq]; positivity
      field_simp
      ring
    · convert n4 using 3
      rw [Complex.div_im, Complex.normSq_apply]
      show R b * R c / (R c * R c + R d * R d) - R a * R d / (R c * R c + R d * R d) = _
      have : R c * R c + R d * R d ≠ 0 := by have := Ysq; nlinarith
      have : R d ^ 2 + R c ^ 2 ≠ 0 := by rw [add_comm, ← Ysq]; positivity
      field_simp
      ring
  · have hcd' := not_lt.1 hcd
    have hl : F64.lt (abs c) (abs d) = false := by
      cases h : F64.lt (abs c) (abs d) with
      | false => rfl
      | true =>
        have := (lt_fin _ _ ac1 ad1).1 h
        rw [Rc, Rd] at this
        exact absurd this hcd
    have hlow' : 1 / 10 ^ 30 ≤ |R c| := by
      by_contra hcon
      push Not at hcon
      have e1 : R d ^ 2 ≤ R c ^ 2 := sq_le_sq.2 hcd'
      have e2 : R c ^ 2 < (1 / 10 ^ 30) ^ 2 := by rw [← sq_abs]; exact pow_lt_pow_left₀ hcon (abs_nonneg _) (by norm_num)
      have e3 : (1 / 10 ^ 29) ^ 2 ≤ Y ^ 2 := by gcongr
      have e4 : (2 * (1 / 10 ^ 30) ^ 2 : ℝ) < (1 / 10 ^ 29) ^ 2 := by norm_num
      linarith
    have c0 : R c ≠ 0 := by
      intro h
      rw [h, abs_zero] at hlow'
      norm_num at hlow'
    obtain ⟨-, -, hD, f1, f2, -, -, n1, n2, -, -⟩ := P.smith_half a b c d ha hb hc hd X hX aX bX hcd' hlow' (cY.trans hup)
    have hDY : Y ≤ |(R c ^ 2 + R d ^ 2) / R c| := by
      rw [abs_div, abs_of_nonneg (by positivity : 0 ≤ R c ^ 2 + R d ^ 2), ← Ysq, le_div_iff₀ (abs_pos.2 c0)]
      nlinarith
    have e : P.smith (a, b) (c, d) = (div (P.add (.num a) (.prod b (div d c))).v (P.add (.num c) (.prod (div d c) d)).v,
        div (P.sub (.num b) (.prod a (div d c))).v (P.add (.num c) (.prod (div d c) d)).v) := by
      show P.smith (a, b) (c, d) = _
      unfold smith
      simp only [hl, hn.1, hn'.1, Bool.not_false, Bool.true_and, if_true, nonan _ f1, nonan _ f2, Bool.or_false, Bool.false_eq_true, if_false]
    rw [e]
    refine fin _ _ _ f1 f2 hDY ?_ ?_
    · convert n1 using 3
      rw [Complex.div_re, Complex.normSq_apply]
      show R a * R c / (R c * R c + R d * R d) + R b * R d / (R c * R c + R d * R d) = _
      have : R c * R c + R d * R d ≠ 0 := by have := Ysq; nlinarith
      have : R c ^ 2 + R d ^ 2 ≠ 0 := by rw [← Ysq]; positivity
      field_simp
    · convert n2 using 3
      rw [Complex.div_im, Complex.normSq_apply]
      show R b * R c / (R c * R c + R d * R d) - R a * R d / (R c * R c + R d * R d) = _
      have : R c * R c + R d * R d ≠ 0 := by have := Ysq; nlinarith
      have : R c ^ 2 + R d ^ 2 ≠ 0 := by rw [← Ysq]; positivity
      field_simp

end Platform

end Falcon
