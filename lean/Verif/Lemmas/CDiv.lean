import Verif.Lemmas.Round
/-!
# The rounding error of complex division

`complex128div` of the Go runtime divides by Smith's method.
-/

namespace Falcon
open F64

theorem et_le_uu : et ≤ uu / 10 ^ 60 := by
  have h1 := et_num
  have h2 : (1 : ℝ) / 10 ^ 16 ≤ uu := by unfold uu; norm_num
  have : (1 : ℝ) / 10 ^ 120 ≤ 1 / 10 ^ 16 / 10 ^ 60 := by norm_num
  have : 1 / 10 ^ 16 / 10 ^ 60 ≤ uu / 10 ^ 60 := by gcongr
  linarith

/-- The product with the rounded ratio. -/
theorem smith_prod (t r r' m X : ℝ) (hr : |r| ≤ 1) (hr' : |r' - r| ≤ uu * |r| + et) (hm : |m - t * r'| ≤ uu * |t * r'| + et) (ht : |t| ≤ X) :
    |m - t * r| ≤ 21 / 10 * (uu * X) + et := by
  have u0 := uu_pos
  have u1 : uu ≤ 1 / 10 ^ 4 := uu_le.trans (by norm_num)
  have t1 := et_le_uu
  have t0 := et_pos
  have X0 : 0 ≤ X := (abs_nonneg _).trans ht
  have a1 : |r' - r| ≤ 101 / 100 * uu := by nlinarith
  have a2 : |r'| ≤ 102 / 100 := by
    have := abs_add_le r (r' - r)
    rw [add_sub_cancel] at this
    linarith
  have a3 : |t * r'| ≤ X * (102 / 100) := by
    rw [abs_mul]
    exact mul_le_mul ht a2 (abs_nonneg _) X0
  have a4 : |t * (r' - r)| ≤ X * (101 / 100 * uu) := by
    rw [abs_mul]
    exact mul_le_mul ht a1 (abs_nonneg _) X0
  have a5 := abs_add_le (m - t * r') (t * (r' - r))
  rw [show m - t * r' + t * (r' - r) = m - t * r by ring] at a5
  have a6 : uu * |t * r'| ≤ uu * (X * (102 / 100)) := mul_le_mul_of_nonneg_left a3 u0.le
  have : 0 ≤ uu * X := by positivity
  linarith

/-- The denominator. -/
theorem smith_den (c d r r' m D' D : ℝ) (hc : c ≠ 0) (hcd : |d| ≤ |c|) (hr : r = d / c) (hD : D = c + r * d) (hlow : 1 / 10 ^ 50 ≤ |c|)
    (hr' : |r' - r| ≤ uu * |r| + et) (hm : |m - r' * d| ≤ uu * |r' * d| + et) (hD' : |D' - (c + m)| ≤ uu * |c + m| + et) :
    |r| ≤ 1 ∧ |c| ≤ |D| ∧ |D' - D| ≤ 5 * uu * |D| := by
  have u0 := uu_pos
  have u1 : uu ≤ 1 / 10 ^ 4 := uu_le.trans (by norm_num)
  have t1 := et_le_uu
  have t0 := et_pos
  have c0 : 0 < |c| := abs_pos.2 hc
  have r1 : |r| ≤ 1 := by
    rw [hr, abs_div]
    exact (div_le_one c0).2 hcd
  have dD : |D| = |c| + d ^ 2 / |c| := by
    have e : D = (c ^ 2 + d ^ 2) / c := by rw [hD, hr]; field_simp
    rw [e, abs_div, abs_of_nonneg (by positivity : 0 ≤ c ^ 2 + d ^ 2), ← sq_abs c]
    field_simp
  have cD : |c| ≤ |D| := by rw [dD]; have : 0 ≤ d ^ 2 / |c| := by positivity
                            linarith
  refine ⟨r1, cD, ?_⟩
  have p := smith_prod d r r' m |c| r1 hr' (by rw [mul_comm d]; exact hm) hcd
  have q : |c + m - D| ≤ 21 / 10 * (uu * |c|) + et := by
    rw [hD, show c + m - (c + r * d) = m - d * r by ring]
    exact p
  have n : |c + m| ≤ |D| + (21 / 10 * (uu * |c|) + et) := by
    have := abs_add_le D (c + m - D)
    rw [add_sub_cancel] at this
    linarith
  have s := abs_add_le (D' - (c + m)) (c + m - D)
  rw [sub_add_sub_cancel] at s
  have h1 : uu * |c + m| ≤ uu * (|D| + (21 / 10 * (uu * |c|) + et)) := mul_le_mul_of_nonneg_left n u0.le
  have h2 : uu * |c| ≤ uu * |D| := mul_le_mul_of_nonneg_left cD u0.le
  have h3 : uu * (uu * |c|) ≤ 1 / 10 ^ 4 * (uu * |c|) := mul_le_mul_of_nonneg_right u1 (by positivity)
  have h4 : uu * et ≤ 1 / 10 ^ 4 * et := mul_le_mul_of_nonneg_right u1 t0.le
  have h5 : uu * (1 / 10 ^ 50) ≤ uu * |D| := mul_le_mul_of_nonneg_left (hlow.trans cD) u0.le
  linarith

/-- One component of the quotient. -/
theorem smith_quot (s t r r' m N D D' q X : ℝ) (hr : |r| ≤ 1) (hr' : |r' - r| ≤ uu * |r| + et) (hm : |m - t * r'| ≤ uu * |t * r'| + et)
    (hN : |N - (s + m)| ≤ uu * |s + m| + et) (hD : |D' - D| ≤ 5 * uu * |D|) (hD0 : 0 < |D|) (hq : D' ≠ 0 → |q - N / D'| ≤ uu * |N / D'| + et)
    (hs : |s| ≤ X) (ht : |t| ≤ X) : D' ≠ 0 ∧ |N| ≤ 3 * X + 1 ∧ |N / D'| ≤ 3 * (X / |D|) + 3 * (et / |D|) ∧
      |q - (s + t * r) / D| ≤ 17 * (uu * (X / |D|)) + 3 * (et / |D|) + et := by
  have u0 := uu_pos
  have u1 : uu ≤ 1 / 10 ^ 4 := uu_le.trans (by norm_num)
  have t1 := et_le_uu
  have t0 := et_pos
  have X0 : 0 ≤ X := (abs_nonneg _).trans ht
  have UX0 : 0 ≤ uu * X := by positivity
  have p := smith_prod t r r' m X hr hr' hm ht
  have b1 : |t * r| ≤ X := by
    rw [abs_mul]
    calc |t| * |r| ≤ X * 1 := mul_le_mul ht hr (abs_nonneg _) X0
      _ = X := mul_one X
  have b2 : |s + t * r| ≤ 2 * X := (abs_add_le _ _).trans (by linarith)
  have b3 : |s + m| ≤ 2 * X + (21 / 10 * (uu * X) + et) := by
    have := abs_add_le (s + t * r) (m - t * r)
    rw [show s + t * r + (m - t * r) = s + m by ring] at this
    linarith
  have b4 : |N - (s + t * r)| ≤ 42 / 10 * (uu * X) + 22 / 10 * et := by
    have := abs_add_le (N - (s + m)) (m - t * r)
    rw [show N - (s + m) + (m - t * r) = N - (s + t * r) by ring] at this
    have h1 : uu * |s + m| ≤ uu * (2 * X + (21 / 10 * (uu * X) + et)) := mul_le_mul_of_nonneg_left b3 u0.le
    have h3 : uu * (uu * X) ≤ 1 / 10 ^ 4 * (uu * X) := mul_le_mul_of_nonneg_right u1 UX0
    have h4 : uu * et ≤ 1 / 10 ^ 4 * et := mul_le_mul_of_nonneg_right u1 t0.le
    linarith
  have b5 : 99 / 100 * |D| ≤ |D'| := by
    have := abs_sub_abs_le_abs_sub D D'
    rw [abs_sub_comm] at this
    have h5 : 5 * uu * |D| ≤ 5 * (1 / 10 ^ 4) * |D| := by gcongr
    linarith
  have b6 : 0 < |D'| := by linarith
  have D'0 : D' ≠ 0 := abs_pos.1 b6
  have D0 : D ≠ 0 := abs_pos.1 hD0
  have UX1 : uu * X ≤ 1 / 10 ^ 4 * X := mul_le_mul_of_nonneg_right u1 X0
  have t1' : et ≤ 1 / 10 ^ 4 := by linarith
  have bN : |N| ≤ 3 * X + 1 := by
    have := abs_add_le (s + t * r) (N - (s + t * r))
    rw [add_sub_cancel] at this
    linarith
  -- the quotient of the computed parts
  have key : |N / D' - (s + t * r) / D| ≤ 146 / 10 * (uu * (X / |D|)) + 23 / 10 * (et / |D|) := by
    have e : N / D' - (s + t * r) / D = (N - (s + t * r)) / D' + (s + t * r) * (D - D') / (D * D') := by
      field_simp; ring
    rw [e]
    refine (abs_add_le _ _).trans ?_
    have g1 : |(N - (s + t * r)) / D'| ≤ (42 / 10 * (uu * X) + 22 / 10 * et) / (99 / 100 * |D|) := by
      rw [abs_div]
      gcongr
    have g2 : |(s + t * r) * (D - D') / (D * D')| ≤ (2 * X) * (5 * uu * |D|) / (|D| * (99 / 100 * |D|)) := by
      rw [abs_div, abs_mul, abs_mul, abs_sub_comm D D']
      gcongr
    have e1 : (42 / 10 * (uu * X) + 22 / 10 * et) / (99 / 100 * |D|) = 420 / 99 * (uu * (X / |D|)) + 220 / 99 * (et / |D|) := by
      field_simp
      ring
    have e2 : (2 * X) * (5 * uu * |D|) / (|D| * (99 / 100 * |D|)) = 1000 / 99 * (uu * (X / |D|)) := by
      field_simp
      ring
    rw [e1] at g1
    rw [e2] at g2
    have : 0 ≤ uu * (X / |D|) := by positivity
    have : 0 ≤ et / |D| := by positivity
    linarith
  have XD0 : 0 ≤ X / |D| := by positivity
  have ED0 : 0 ≤ et / |D| := by positivity
  have UXD : uu * (X / |D|) ≤ 1 / 10 ^ 4 * (X / |D|) := mul_le_mul_of_nonneg_right u1 XD0
  have b7 : |(s + t * r) / D| ≤ 2 * (X / |D|) := by
    rw [abs_div, ← mul_div_assoc]
    gcongr
  have b8 : |N / D'| ≤ 2 * (X / |D|) + (146 / 10 * (uu * (X / |D|)) + 23 / 10 * (et / |D|)) := by
    have := abs_add_le ((s + t * r) / D) (N / D' - (s + t * r) / D)
    rw [add_sub_cancel] at this
    linarith
  refine ⟨D'0, bN, by linarith, ?_⟩
  have h := abs_add_le (q - N / D') (N / D' - (s + t * r) / D)
  rw [sub_add_sub_cancel] at h
  have h1 := hq D'0
  have h2 : uu * |N / D'| ≤ uu * (2 * (X / |D|) + (146 / 10 * (uu * (X / |D|)) + 23 / 10 * (et / |D|))) := mul_le_mul_of_nonneg_left b8 u0.le
  have h3 : uu * (uu * (X / |D|)) ≤ 1 / 10 ^ 4 * (uu * (X / |D|)) := mul_le_mul_of_nonneg_right u1 (by positivity)
  have h4 : uu * (et / |D|) ≤ 1 / 10 ^ 4 * (et / |D|) := mul_le_mul_of_nonneg_right u1 ED0
  have h5 : 0 ≤ uu * (X / |D|) := by positivity
  linarith

theorem abs_fin (a : F64) (h : a.isFinite = true) : (abs a).isFinite = true ∧ (abs a).val = |a.val| := by
  rcases isFinite_cases a h with ⟨s, rfl⟩ | ⟨x, rfl⟩
  · exact ⟨rfl, by simp [F64.abs, F64.val]⟩
  · exact ⟨rfl, rfl⟩

theorem lt_fin (a b : F64) (ha : a.isFinite = true) (hb : b.isFinite = true) : F64.lt a b = true ↔ R a < R b := by
  obtain ⟨a1, a2⟩ := finite_flags a ha
  obtain ⟨b1, b2⟩ := finite_flags b hb
  unfold F64.lt R
  rw [a1, b1, a2, b2]
  simp

/-- The two halves of `complex128div`. -/
theorem smith_half (a b c d : F64) (ha : a.isFinite = true) (hb : b.isFinite = true) (hc : c.isFinite = true) (hd : d.isFinite = true) (X : ℝ)
    (hX : X ≤ 10 ^ 60) (aX : |R a| ≤ X) (bX : |R b| ≤ X) (hcd : |R d| ≤ |R c|) (hlow : 1 / 10 ^ 30 ≤ |R c|) (hup : |R c| ≤ 10 ^ 60) :
    let ratio := div d c
    let denom := add c (mul ratio d)
    let D := (R c ^ 2 + R d ^ 2) / R c
    ratio.isFinite = true ∧ denom.isFinite = true ∧ |R c| ≤ |D| ∧
    (div (add a (mul b ratio)) denom).isFinite = true ∧ (div (sub b (mul a ratio)) denom).isFinite = true ∧
    (div (add (mul b ratio) a) denom).isFinite = true ∧ (div (sub (mul b ratio) a) denom).isFinite = true ∧
    |R (div (add a (mul b ratio)) denom) - (R a + R b * (R d / R c)) / D| ≤ 17 * (uu * (X / |D|)) + 3 * (et / |D|) + et ∧
    |R (div (sub b (mul a ratio)) denom) - (R b - R a * (R d / R c)) / D| ≤ 17 * (uu * (X / |D|)) + 3 * (et / |D|) + et ∧
    |R (div (add (mul b ratio) a) denom) - (R b * (R d / R c) + R a) / D| ≤ 17 * (uu * (X / |D|)) + 3 * (et / |D|) + et ∧
    |R (div (sub (mul b ratio) a) denom) - (R b * (R d / R c) - R a) / D| ≤ 17 * (uu * (X / |D|)) + 3 * (et / |D|) + et := by
  have big := Big_ge'
  have u0 := uu_pos
  have u1 : uu ≤ 1 / 10 ^ 4 := uu_le.trans (by norm_num)
  have t1 : et ≤ 1 := et_num.trans (by norm_num)
  have t0 := et_pos
  have c0 : R c ≠ 0 := by
    intro h
    rw [h, abs_zero] at hlow
    norm_num at hlow
  have X0 : 0 ≤ X := (abs_nonneg _).trans aX
  have rq : |R d / R c| ≤ 1 := by
    rw [abs_div]
    exact (div_le_one (abs_pos.2 c0)).2 hcd
  obtain ⟨f1, n1⟩ := div_near d c hd hc c0 (by linarith)
  have r2 := abs_le_of_near _ _ 1 n1 rq
  have lim1 : |R (div d c) * R d| ≤ Big := by
    rw [abs_mul]
    have := mul_le_mul r2 (hcd.trans hup) (abs_nonneg _) (by norm_num)
    linarith
  obtain ⟨f2, n2⟩ := mul_near (div d c) d f1 hd lim1
  have m2 : |R (mul (div d c) d)| ≤ 2 * (3 * 10 ^ 60) + 1 := abs_le_of_near _ _ _ n2 (by
    rw [abs_mul]
    have := mul_le_mul r2 (hcd.trans hup) (abs_nonneg _) (by norm_num)
    linarith)
  obtain ⟨f3, n3⟩ := add_near c (mul (div d c) d) hc f2 (by
    have := abs_add_le (R c) (R (mul (div d c) d))
    linarith)
  have eD : (R c ^ 2 + R d ^ 2) / R c = R c + R d / R c * R d := by field_simp
  obtain ⟨r1, cD, eD'⟩ := smith_den (R c) (R d) (R d / R c) _ _ _ ((R c ^ 2 + R d ^ 2) / R c) c0 hcd rfl eD
    (le_trans (by norm_num) hlow) n1 n2 n3
  set D := (R c ^ 2 + R d ^ 2) / R c with hD
  have D0 : 0 < |D| := lt_of_lt_of_le (abs_pos.2 c0) cD
  -- products with the ratio
  have prod : ∀ t : F64, t.isFinite = true → |R t| ≤ X → (mul t (div d c)).isFinite = true ∧
      |R (mul t (div d c)) - R t * R (div d c)| ≤ uu * |R t * R (div d c)| + et ∧ |R (mul t (div d c))| ≤ 6 * X + 1 := by
    intro t ht tX
    have hp : |R t * R (div d c)| ≤ 3 * X := by
      rw [abs_mul, mul_comm]
      have := mul_le_mul r2 tX (abs_nonneg _) (by norm_num)
      linarith
    obtain ⟨f, n⟩ := mul_near t (div d c) ht f1 (by linarith)
    refine ⟨f, n, ?_⟩
    have := abs_le_of_near _ _ _ n hp
    linarith
  obtain ⟨pa1, pa2, pa3⟩ := prod a ha aX
  obtain ⟨pb1, pb2, pb3⟩ := prod b hb bX
  have XD : X / |D| ≤ 10 ^ 90 := by
    rw [div_le_iff₀ D0]
    have : (10 : ℝ) ^ 90 * (1 / 10 ^ 30) ≤ 10 ^ 90 * |D| := by
      have := hlow.trans cD
      gcongr
    have e : (10 : ℝ) ^ 90 * (1 / 10 ^ 30) = 10 ^ 60 := by norm_num
    linarith
  have ED : et / |D| ≤ 10 ^ 90 := by
    rw [div_le_iff₀ D0]
    have : (10 : ℝ) ^ 90 * (1 / 10 ^ 30) ≤ 10 ^ 90 * |D| := by
      have := hlow.trans cD
      gcongr
    have e : (10 : ℝ) ^ 90 * (1 / 10 ^ 30) = 10 ^ 60 := by norm_num
    linarith
  -- the final division
  have fin : ∀ (N : F64) (s t m : ℝ), N.isFinite = true → |m - t * R (div d c)| ≤ uu * |t * R (div d c)| + et →
      |R N - (s + m)| ≤ uu * |s + m| + et → |s| ≤ X → |t| ≤ X → (div N (add c (mul (div d c) d))).isFinite = true ∧
      |R (div N (add c (mul (div d c) d))) - (s + t * (R d / R c)) / D| ≤ 17 * (uu * (X / |D|)) + 3 * (et / |D|) + et := by
    intro N s t m hN hm hNn hs ht
    obtain ⟨d0, -, b, -⟩ := smith_quot s t _ _ m (R N) D (R (add c (mul (div d c) d))) (R N / R (add c (mul (div d c) d))) X rq n1 hm hNn eD' D0
      (fun _ => by rw [sub_self, abs_zero]; positivity) hs ht
    obtain ⟨f, n⟩ := div_near N _ hN f3 d0 (by linarith)
    exact ⟨f, (smith_quot s t _ _ m (R N) D _ (R (div N (add c (mul (div d c) d)))) X rq n1 hm hNn eD' D0 (fun _ => n) hs ht).2.2.2⟩
  have s1 := add_near a (mul b (div d c)) ha pb1 (by have := abs_add_le (R a) (R (mul b (div d c))); linarith)
  have s2 := sub_near b (mul a (div d c)) hb pa1 (by have := abs_sub (R b) (R (mul a (div d c))); linarith)
  have s3 := add_near (mul b (div d c)) a pb1 ha (by have := abs_add_le (R (mul b (div d c))) (R a); linarith)
  have s4 := sub_near (mul b (div d c)) a pb1 ha (by have := abs_sub (R (mul b (div d c))) (R a); linarith)
  have q1 := fin _ (R a) (R b) _ s1.1 pb2 s1.2 aX bX
  have q2 := fin _ (R b) (-R a) (-R (mul a (div d c))) s2.1 (by rw [neg_mul, abs_neg, ← abs_neg]; convert pa2 using 2; ring)
    (by rw [← sub_eq_add_neg]; exact s2.2) bX (by rw [abs_neg]; exact aX)
  have q3 := fin _ (R a) (R b) _ s3.1 pb2 (by rw [add_comm (R a)]; exact s3.2) aX bX
  have q4 := fin _ (-R a) (R b) _ s4.1 pb2 (by rw [neg_add_eq_sub]; exact s4.2) (by rw [abs_neg]; exact aX) bX
  refine ⟨f1, f3, cD, q1.1, q2.1, q3.1, q4.1, q1.2, ?_, ?_, ?_⟩
  · convert q2.2 using 4; ring
  · convert q3.2 using 4; ring
  · convert q4.2 using 4; ring

/-- Complex division: the relative error is at most `40u`, up to underflow. -/
theorem cdiv_near (x y : F64 × F64) (hx : cfin x) (hy : cfin y) (hX : ‖cval x‖ ≤ 10 ^ 60) (hlow : 1 / 10 ^ 29 ≤ ‖cval y‖) (hup : ‖cval y‖ ≤ 10 ^ 60) :
    cfin (ieeeOps.cdiv x y) ∧ ‖cval (ieeeOps.cdiv x y) - cval x / cval y‖ ≤ 40 * uu * (‖cval x‖ / ‖cval y‖) + 1 / 10 ^ 80 := by
  obtain ⟨a, b⟩ := x
  obtain ⟨c, d⟩ := y
  obtain ⟨ha, hb⟩ := hx
  obtain ⟨hc, hd⟩ := hy
  simp only at ha hb hc hd
  set X := ‖cval (a, b)‖
  set Y := ‖cval (c, d)‖ with hY
  have u0 := uu_pos
  have t0 := et_pos
  have aX : |R a| ≤ X := Complex.abs_re_le_norm (cval (a, b))
  have bX : |R b| ≤ X := Complex.abs_im_le_norm (cval (a, b))
  have cY : |R c| ≤ Y := Complex.abs_re_le_norm (cval (c, d))
  have dY : |R d| ≤ Y := Complex.abs_im_le_norm (cval (c, d))
  have Ysq : Y ^ 2 = R c ^ 2 + R d ^ 2 := by
    rw [hY, ← Complex.normSq_eq_norm_sq, Complex.normSq_apply]
    show R c * R c + R d * R d = _
    ring
  have X0 : 0 ≤ X := norm_nonneg _
  have Y0 : 0 < Y := lt_of_lt_of_le (by norm_num) hlow
  obtain ⟨ac1, ac2⟩ := abs_fin c hc
  obtain ⟨ad1, ad2⟩ := abs_fin d hd
  have Rc : R (abs c) = |R c| := by unfold R; rw [ac2]; push_cast; rfl
  have Rd : R (abs d) = |R d| := by unfold R; rw [ad2]; push_cast; rfl
  have hn := finite_flags c hc
  have hn' := finite_flags d hd
  -- from the components to the norm
  have fin : ∀ (e f : F64) (D : ℝ), e.isFinite = true → f.isFinite = true → Y ≤ |D| →
      |R e - (cval (a, b) / cval (c, d)).re| ≤ 17 * (uu * (X / |D|)) + 3 * (et / |D|) + et →
      |R f - (cval (a, b) / cval (c, d)).im| ≤ 17 * (uu * (X / |D|)) + 3 * (et / |D|) + et →
      cfin (e, f) ∧ ‖cval (e, f) - cval (a, b) / cval (c, d)‖ ≤ 40 * uu * (X / Y) + 1 / 10 ^ 80 := by
    intro e f D he hf hD h1 h2
    refine ⟨⟨he, hf⟩, ?_⟩
    refine (Complex.norm_le_abs_re_add_abs_im _).trans ?_
    have g1 : |(cval (e, f) - cval (a, b) / cval (c, d)).re| ≤ 17 * (uu * (X / |D|)) + 3 * (et / |D|) + et := by
      rw [Complex.sub_re]; exact h1
    have g2 : |(cval (e, f) - cval (a, b) / cval (c, d)).im| ≤ 17 * (uu * (X / |D|)) + 3 * (et / |D|) + et := by
      rw [Complex.sub_im]; exact h2
    have g3 : X / |D| ≤ X / Y := by gcongr
    have g4 : et / |D| ≤ et / Y := by gcongr
    have g5 : et / Y ≤ (1 / 10 ^ 120) / (1 / 10 ^ 29) := by
      have := et_num
      gcongr
    have g6 : (1 / 10 ^ 120) / (1 / 10 ^ 29) = (1 / 10 ^ 91 : ℝ) := by norm_num
    have g7 : uu * (X / |D|) ≤ uu * (X / Y) := mul_le_mul_of_nonneg_left g3 u0.le
    have g8 := et_num
    have g9 : 0 ≤ uu * (X / Y) := by positivity
    linarith
  have nonan : ∀ e : F64, e.isFinite = true → e.isNaN = false := fun e h => (finite_flags e h).1
  by_cases hcd : |R c| < |R d|
  · have hl : F64.lt (abs c) (abs d) = true := (lt_fin _ _ ac1 ad1).2 (by rw [Rc, Rd]; exact hcd)
    have d0 : R d ≠ 0 := by
      intro h
      rw [h, abs_zero] at hcd
      exact absurd hcd (not_lt.2 (abs_nonneg _))
    have hlow' : 1 / 10 ^ 30 ≤ |R d| := by
      by_contra hcon
      push Not at hcon
      have e1 : R c ^ 2 ≤ R d ^ 2 := sq_le_sq.2 hcd.le
      have e2 : R d ^ 2 < (1 / 10 ^ 30) ^ 2 := by rw [← sq_abs]; exact pow_lt_pow_left₀ hcon (abs_nonneg _) (by norm_num)
      have e3 : (1 / 10 ^ 29) ^ 2 ≤ Y ^ 2 := by gcongr
      have e4 : (2 * (1 / 10 ^ 30) ^ 2 : ℝ) < (1 / 10 ^ 29) ^ 2 := by norm_num
      linarith
    obtain ⟨-, -, hD, -, -, f3, -, -, -, n3, -⟩ := smith_half b a d c hb ha hd hc X hX bX aX hcd.le hlow' (dY.trans hup)
    obtain ⟨-, -, -, -, -, -, f4, -, -, -, n4⟩ := smith_half a b d c ha hb hd hc X hX aX bX hcd.le hlow' (dY.trans hup)
    have hDY : Y ≤ |(R d ^ 2 + R c ^ 2) / R d| := by
      rw [abs_div, abs_of_nonneg (by positivity : 0 ≤ R d ^ 2 + R c ^ 2), add_comm (R d ^ 2), ← Ysq, le_div_iff₀ (abs_pos.2 d0)]
      nlinarith
    have e : ieeeOps.cdiv (a, b) (c, d) = (div (add (mul a (div c d)) b) (add d (mul (div c d) c)),
        div (sub (mul b (div c d)) a) (add d (mul (div c d) c))) := by
      show F64.cdiv (a, b) (c, d) = _
      unfold F64.cdiv
      simp only [hl, Bool.not_true, Bool.false_and, Bool.false_eq_true, if_false, nonan _ f3, nonan _ f4, Bool.or_false]
    rw [e]
    refine fin _ _ _ f3 f4 hDY ?_ ?_
    · convert n3 using 3
      rw [Complex.div_re, Complex.normSq_apply]
      show R a * R c / (R c * R c + R d * R d) + R b * R d / (R c * R c + R d * R d) = _
      have : R c * R c + R d * R d ≠ 0 := by have := Ysq; nlinarith
      have : R d ^ 2 + R c ^ 2 ≠ 0 := by rw [add_comm, ← Ysq]; positivity
      field_simp
      ring
    · convert n4 using 3
      rw [Complex.div_im, Complex.normSq_apply]
      show R b * R c / (R c * R c + R d * R d) - R a * R d / (R c * R c + R d * R d) = _
      have : R c * R c + R d * R d ≠ 0 := by have := Ysq; nlinarith
      have : R d ^ 2 + R c ^ 2 ≠ 0 := by rw [add_comm, ← Ysq]; positivity
      field_simp
      ring
  · have hcd' := not_lt.1 hcd
    have hl : F64.lt (abs c) (abs d) = false := by
      cases h : F64.lt (abs c) (abs d) with
      | false => rfl
      | true =>
        have := (lt_fin _ _ ac1 ad1).1 h
        rw [Rc, Rd] at this
        exact absurd this hcd
    have hlow' : 1 / 10 ^ 30 ≤ |R c| := by
      by_contra hcon
      push Not at hcon
      have e1 : R d ^ 2 ≤ R c ^ 2 := sq_le_sq.2 hcd'
      have e2 : R c ^ 2 < (1 / 10 ^ 30) ^ 2 := by rw [← sq_abs]; exact pow_lt_pow_left₀ hcon (abs_nonneg _) (by norm_num)
      have e3 : (1 / 10 ^ 29) ^ 2 ≤ Y ^ 2 := by gcongr
      have e4 : (2 * (1 / 10 ^ 30) ^ 2 : ℝ) < (1 / 10 ^ 29) ^ 2 := by norm_num
      linarith
    have c0 : R c ≠ 0 := by
      intro h
      rw [h, abs_zero] at hlow'
      norm_num at hlow'
    obtain ⟨-, -, hD, f1, f2, -, -, n1, n2, -, -⟩ := smith_half a b c d ha hb hc hd X hX aX bX hcd' hlow' (cY.trans hup)
    have hDY : Y ≤ |(R c ^ 2 + R d ^ 2) / R c| := by
      rw [abs_div, abs_of_nonneg (by positivity : 0 ≤ R c ^ 2 + R d ^ 2), ← Ysq, le_div_iff₀ (abs_pos.2 c0)]
      nlinarith
    have e : ieeeOps.cdiv (a, b) (c, d) = (div (add a (mul b (div d c))) (add c (mul (div d c) d)),
        div (sub b (mul a (div d c))) (add c (mul (div d c) d))) := by
      show F64.cdiv (a, b) (c, d) = _
      unfold F64.cdiv
      simp only [hl, hn.1, hn'.1, Bool.not_false, Bool.true_and, if_true, nonan _ f1, nonan _ f2, Bool.or_false, Bool.false_eq_true, if_false]
    rw [e]
    refine fin _ _ _ f1 f2 hDY ?_ ?_
    · convert n1 using 3
      rw [Complex.div_re, Complex.normSq_apply]
      show R a * R c / (R c * R c + R d * R d) + R b * R d / (R c * R c + R d * R d) = _
      have : R c * R c + R d * R d ≠ 0 := by have := Ysq; nlinarith
      have : R c ^ 2 + R d ^ 2 ≠ 0 := by rw [← Ysq]; positivity
      field_simp
    · convert n2 using 3
      rw [Complex.div_im, Complex.normSq_apply]
      show R b * R c / (R c * R c + R d * R d) - R a * R d / (R c * R c + R d * R d) = _
      have : R c * R c + R d * R d ≠ 0 := by have := Ysq; nlinarith
      have : R c ^ 2 + R d ^ 2 ≠ 0 := by rw [← Ysq]; positivity
      field_simp

/-- IEEE arithmetic in which complex products, complex quotients and the conversion to `int` may be computed in another way than on amd64, within the
error bounds of amd64. The variants of interest are those of `Platform` (`Platform.variant`), in which products are fused with additions. -/
structure Variant where
  cmul : F64 × F64 → F64 × F64 → F64 × F64
  cdiv : F64 × F64 → F64 × F64 → F64 × F64
  toInt : F64 → Int
  cmul_near : ∀ x y, cfin x → cfin y → 8 * (‖cval x‖ * ‖cval y‖) ≤ Big →
    cfin (cmul x y) ∧ ‖cval (cmul x y) - cval x * cval y‖ ≤ 4 * uu * (‖cval x‖ * ‖cval y‖) + 8 * et
  cdiv_near : ∀ x y, cfin x → cfin y → ‖cval x‖ ≤ 10 ^ 60 → 1 / 10 ^ 29 ≤ ‖cval y‖ → ‖cval y‖ ≤ 10 ^ 60 →
    cfin (cdiv x y) ∧ ‖cval (cdiv x y) - cval x / cval y‖ ≤ 40 * uu * (‖cval x‖ / ‖cval y‖) + 1 / 10 ^ 80
  toInt_in : ∀ a : F64, a.isFinite = true → -(2 ^ 31) ≤ truncInt a.val → truncInt a.val < 2 ^ 31 → toInt a = truncInt a.val
  toInt_out : ∀ a : F64, a.isFinite = true → (truncInt a.val < -(2 ^ 31) ∨ 2 ^ 31 ≤ truncInt a.val) → toInt a ≠ 0

/-- The arithmetic of a variant. -/
abbrev Variant.ops (W : Variant) : FloatOps := { ieeeOps with cmul := W.cmul, cdiv := W.cdiv, toInt := W.toInt }

/-- The type `int` has 64 bits. -/
def Variant.Wide (W : Variant) : Prop :=
  ∀ a : F64, a.isFinite = true → -(2 ^ 63) ≤ truncInt a.val → truncInt a.val < 2 ^ 63 → W.toInt a = truncInt a.val

/-- The variant that is IEEE arithmetic on amd64. -/
def amd64V : Variant where
  cmul := ieeeOps.cmul
  cdiv := ieeeOps.cdiv
  toInt := ieeeOps.toInt
  cmul_near := cmul_near
  cdiv_near := cdiv_near
  toInt_in a h h1 h2 := by
    show toI64 a = _
    unfold toI64
    rw [h, decide_eq_true (show -(2 ^ 63) ≤ truncInt a.val by omega), decide_eq_true (show truncInt a.val < 2 ^ 63 by omega)]
    rfl
  toInt_out a h h1 := by
    show toI64 a ≠ 0
    unfold toI64
    split
    · omega
    · norm_num

theorem amd64V_wide : amd64V.Wide := by
  intro a h h1 h2
  show toI64 a = _
  unfold toI64
  rw [h, decide_eq_true h1, decide_eq_true h2]
  rfl

theorem amd64V_ops : amd64V.ops = ieeeOps := rfl

theorem truncInt_cast (k : Int) : truncInt (k : ℚ) = k := by
  unfold truncInt
  split
  · exact Rat.floor_intCast _
  · rw [← Int.cast_neg, Rat.floor_intCast]; ring

theorem Variant.toInt_zero (va : Variant) (s : Bool) : va.toInt (.zero s) = 0 := by
  have h : truncInt (F64.zero s).val = 0 := by
    show truncInt 0 = 0
    exact_mod_cast truncInt_cast 0
  rw [va.toInt_in _ rfl (by rw [h]; norm_num) (by rw [h]; norm_num), h]

theorem Variant.toInt_int (va : Variant) (k : Int) (h1 : -(2 ^ 31) ≤ k) (h2 : k < 2 ^ 31) : va.toInt (.fin k) = k := by
  have h : truncInt (F64.fin k).val = k := truncInt_cast k
  rw [va.toInt_in _ rfl (by rw [h]; exact h1) (by rw [h]; exact h2), h]

theorem Variant.Wide.toInt_int {va : Variant} (hw : va.Wide) (k : Int) (h1 : -(2 ^ 63) ≤ k) (h2 : k < 2 ^ 63) : va.toInt (.fin k) = k := by
  have h : truncInt (F64.fin k).val = k := truncInt_cast k
  rw [hw _ rfl (by rw [h]; exact h1) (by rw [h]; exact h2), h]

end Falcon
