import Verif.Lemmas.Int32Reduce
/-!
# `reduce` on 386 with the constants 7675 and 5531

These are the relative norms of the pair of degree 4 in Verif/Props/Platform32.lean. The quotients exceed `2^31`, are converted to `-2^31`, and grow.
-/

namespace Falcon
open F64

/-- A rounded positive number. -/
theorem rd_ge (v : ℚ) (h : 1 ≤ v) (hl : v ≤ lim) : 99 / 100 * v ≤ rd v := by
  have hp : 0 < v := lt_of_lt_of_le one_pos h
  have h0 : v ≠ 0 := hp.ne'
  have hv : |v| = v := abs_of_pos hp
  have h1 := (rnd_near_rat v h0 (hv.le.trans (hl.trans (by rw [lim])))).2
  unfold rd ofRat
  rw [if_neg h0]
  have h2 := (abs_le.1 h1).1
  rw [hv] at h2
  have e1 : (2 : ℚ) ^ (-53 : Int) ≤ 1 / 1000 := by norm_num
  have e2 : (2 : ℚ) ^ (-1075 : Int) ≤ 1 / 1000 := by
    refine le_trans (zpow_le_zpow_right₀ (by norm_num) (by norm_num : (-1075 : Int) ≤ -10)) ?_
    norm_num
  clear h1 hl hv
  generalize (2 : ℚ) ^ (-53 : Int) = p at *
  generalize (2 : ℚ) ^ (-1075 : Int) = r at *
  have e3 := mul_le_mul_of_nonneg_right e1 hp.le
  linarith

/-- `babai_cst` with another conversion to `int`. -/
theorem babai_with (t : F64 → Int) (hz : ∀ s, t (F64.round (.zero s)) = 0) (k : Nat) (h1 : 1 ≤ k) (h2 : k ≤ 10) {a b A B D N : ℚ}
    (pA : Rp A) (pB : Rp B) (ba : |a| ≤ 2 ^ 65) (bb : |b| ≤ 2 ^ 65) (bA : |A| ≤ 2 ^ 65) (bB : |B| ≤ 2 ^ 65)
    (hD : D = rd (rd (a * a) + rd (b * b))) (hN : N = rd (rd (A * a) + rd (B * b))) (d1 : 1 ≤ D) (v : ℚ) (hv : v = rd (N / D)) (v0 : v ≠ 0)
    (f g : List (F64 × F64)) (hf : AllC (2 ^ k) a f) (hg : AllC (2 ^ k) b g) (F G : List F64) (hF : List.Forall₂ Is F (cst (2 ^ k) A))
    (hG : List.Forall₂ Is G (cst (2 ^ k) B)) : babai (opsWith t) f g F G = .ok (cst (2 ^ k) (t (F64.round (.fin v)))) := by
  have L := lim_ge
  have e65 : (2 : ℚ) ^ 65 ≤ lim := le_trans (by norm_num) L
  obtain ⟨c1, e1, l1, q1⟩ := FFT_cst k h1 h2 A pA (bA.trans e65) F hF
  obtain ⟨c2, e2, l2, q2⟩ := FFT_cst k h1 h2 B pB (bB.trans e65) G hG
  have s1 : AllC (2 ^ k) A c1 := ⟨l1, q1⟩
  have s2 : AllC (2 ^ k) B c2 := ⟨l2, q2⟩
  have is : ∀ x : ℚ, ∃ y, Is y x := fun x => by
    by_cases h : x = 0
    · exact ⟨.zero false, .inl ⟨h, _, rfl⟩⟩
    · exact ⟨.fin x, .inr ⟨h, rfl⟩⟩
  obtain ⟨xa, ia⟩ := is a
  obtain ⟨xb, ib⟩ := is b
  obtain ⟨xA, iA⟩ := is A
  obtain ⟨xB, iB⟩ := is B
  obtain ⟨d1', d2, d3, d4, -⟩ := sNum_is ia ib ia ib ba bb ba bb
  obtain ⟨n1, n2, n3, n4, -⟩ := sNum_is ia ib iA iB ba bb bA bB
  rw [← hD] at d4
  rw [← hN] at n4
  have D0 : D ≠ 0 := by linarith
  have hq : |N / D| ≤ 2 ^ 135 := by
    rw [abs_div, abs_of_pos (by linarith : 0 < D)]
    exact (div_le_self (abs_nonneg _) d1).trans n4
  obtain ⟨x1, y1, z1⟩ := hf.mul hf.adj (d1'.trans (by norm_num))
  obtain ⟨x2, y2, z2⟩ := hg.mul hg.adj (d2.trans (by norm_num))
  obtain ⟨x3, y3, z3⟩ := z1.add z2 (d3.trans (by norm_num))
  obtain ⟨x4, y4, z4⟩ := s1.mul hf.adj (n1.trans (by norm_num))
  obtain ⟨x5, y5, z5⟩ := s2.mul hg.adj (n2.trans (by norm_num))
  obtain ⟨x6, y6, z6⟩ := z4.add z5 (n3.trans (by norm_num))
  rw [← hD] at z3
  rw [← hN] at z6
  obtain ⟨x7, y7, z7⟩ := z6.div z3 D0 (hN ▸ rp_rd _) (hD ▸ rp_rd _) (n4.trans (by norm_num)) (d4.trans (by norm_num)) (hq.trans (by norm_num))
  have lq : |N / D| ≤ lim := hq.trans (le_trans (by norm_num) L)
  have rq := rd_le _ lq
  rw [← hv] at rq z7
  obtain ⟨r, e8, hr⟩ := IFFT_cst k h1 h2 _ (hv ▸ rp_rd (N / D)) (by linarith) x7 z7.1 z7.2
  have m : ∀ a b, MulFFT (opsWith t) a b = MulFFT ieeeOps a b := fun _ _ => rfl
  have d : ∀ a b, DivFFT (opsWith t) a b = DivFFT ieeeOps a b := fun _ _ => rfl
  have a' : ∀ a b, AddFFT (opsWith t) a b = AddFFT ieeeOps a b := fun _ _ => rfl
  have j : ∀ a, AdjFFT (opsWith t) a = AdjFFT ieeeOps a := fun _ => rfl
  unfold babai
  rw [FFT_with, e1, Go.ok_bind, FFT_with, e2, Go.ok_bind, j, j, m, y1, Go.ok_bind, m, y2, Go.ok_bind, a', y3, Go.ok_bind, m, y4, Go.ok_bind, m, y5,
    Go.ok_bind, a', y6, Go.ok_bind, d, y7, Go.ok_bind, IFFT_with, e8, Go.ok_bind, Go.pure_eq, roundAll_with t _ _ v0 hz r hr]

/-- The conversion of a positive number that does not fit. -/
theorem toI32_big (v : ℚ) (h : 2 ^ 31 ≤ v) : toI32 (F64.round (.fin v)) = -(2 ^ 31) := by
  have hf : (2 : Int) ^ 31 ≤ (v + 1 / 2).floor := by
    show (2 : Int) ^ 31 ≤ ⌊v + 1 / 2⌋
    rw [Int.le_floor]
    push_cast
    linarith
  have ha : awayInt v = (v + 1 / 2).floor := by
    unfold awayInt
    rw [if_pos (by linarith)]
  show toI32 (if awayInt v = 0 then .zero (decide (v < 0)) else .fin (awayInt v)) = _
  rw [ha, if_neg (by omega)]
  unfold toI32
  generalize (v + 1 / 2).floor = m at hf
  rw [show val (.fin (m : ℚ)) = m from rfl, truncInt_int, if_neg]
  simp only [Bool.and_eq_true, decide_eq_true_eq]
  omega

/-- A non-negative integer below `2^53` is converted exactly. -/
theorem adjV_exact (S : Nat) (F : Int) (h0 : 0 ≤ F / 2 ^ (S - 53)) (h : F / 2 ^ (S - 53) < 2 ^ 53) : adjV S F = ((F / 2 ^ (S - 53) : Int) : ℚ) := by
  unfold adjV
  rw [Int.shiftRight_eq_div_pow]
  push_cast
  generalize F / 2 ^ (S - 53) = m at h0 h
  have hb : bigInt64 m = m := by
    unfold bigInt64 i64
    simp only [Int.bmod_def]
    split <;> split <;> (try split) <;> omega
  rw [hb]
  have a0 : |(m : ℚ)| < 2 ^ 53 := by
    rw [abs_lt]
    constructor
    · have : (0 : ℚ) ≤ m := by exact_mod_cast h0
      linarith
    · exact_mod_cast h
  exact Rp.rd ⟨m, 0, by simp, by simpa using a0, by norm_num⟩ (a0.le.trans (le_trans (by norm_num) lim_ge))

/-- The solutions of the inner equation that keep growing. -/
structure Grow (F G : Int) : Prop where
  det : 7675 * G - 5531 * F = 12289
  big : 7675 * (3 * 2 ^ 30) ≤ F
  big' : 5531 * (3 * 2 ^ 30) ≤ G

/-- The leading parts. -/
theorem grow_lead (n : Nat) (F G : Int) (h : Grow F G) (S : Nat) (hS : sizeOf2 (cst n F) (cst n G) = .ok S) :
    53 ≤ S ∧ (7675 * (3 * 2 ^ 30) ≤ F / 2 ^ (S - 53) ∧ F / 2 ^ (S - 53) < 2 ^ 53) ∧ 5531 * (3 * 2 ^ 30) ≤ G / 2 ^ (S - 53) ∧ G / 2 ^ (S - 53) < 2 ^ 53 := by
  obtain ⟨h1, h2, h3⟩ := sizeOf2_spec _ _ S hS
  obtain ⟨hd, hF, hG⟩ := h
  have hp : (0 : Int) < 2 ^ (S - 53) := by positivity
  have up : ∀ v : Int, v ∈ cst n F ++ cst n G → 0 ≤ v → v / 2 ^ (S - 53) < 2 ^ 53 := by
    intro v hv h0
    have h4 := h2 v hv
    have h5 : v < 2 ^ S := by
      rw [show v = (v.natAbs : Int) by omega]
      exact_mod_cast h4
    refine Int.ediv_lt_of_lt_mul hp ?_
    rwa [← pow_add, show 53 + (S - 53) = S by omega]
  have lo : 7675 * (3 * 2 ^ 30) * 2 ^ (S - 53) ≤ F ∧ 5531 * (3 * 2 ^ 30) * 2 ^ (S - 53) ≤ G := by
    rcases h3 with rfl | ⟨h56, v, hv, hb⟩
    · simp only [Nat.sub_self, pow_zero, mul_one]
      exact ⟨hF, hG⟩
    · have e : (2 : Nat) ^ (S - 8) = 2 ^ 45 * 2 ^ (S - 53) := by rw [← pow_add, show 45 + (S - 53) = S - 8 by omega]
      rw [e] at hb
      have h6 : (2 : Int) ^ 45 * 2 ^ (S - 53) ≤ (v.natAbs : Int) := by exact_mod_cast hb
      have hz : (1 : Int) ≤ 2 ^ (S - 53) := hp
      clear up h1 h2 hS h56 e hb
      generalize (2 : Int) ^ (S - 53) = Z at *
      norm_num at hF hG h6 ⊢
      simp only [cst, List.mem_append, List.mem_cons, List.mem_replicate] at hv
      rcases hv with (rfl | ⟨-, rfl⟩) | (rfl | ⟨-, rfl⟩)
      · rw [abs_of_nonneg (by linarith)] at h6
        constructor <;> linarith
      · exfalso
        simp only [abs_zero] at h6
        linarith
      · rw [abs_of_nonneg (by linarith)] at h6
        constructor <;> linarith
      · exfalso
        simp only [abs_zero] at h6
        linarith
  refine ⟨h1, ⟨(Int.le_ediv_iff_mul_le hp).2 lo.1, up F (by simp [cst]) (by omega)⟩, (Int.le_ediv_iff_mul_le hp).2 lo.2, up G (by simp [cst]) (by omega)⟩

theorem grow_quot (x y : ℚ) (hx : 7675 * (3 * 2 ^ 30) ≤ x) (hy : 5531 * (3 * 2 ^ 30) ≤ y) (hx' : x ≤ 2 ^ 53) (hy' : y ≤ 2 ^ 53) :
    (2 : ℚ) ^ 31 ≤ rd (rd (rd (x * 7675) + rd (y * 5531)) / 89497586) := by
  have L := lim_ge
  norm_num at hx hy hx' hy'
  have L' : (2 : ℚ) ^ 135 ≤ lim := le_trans (by norm_num) L
  norm_num at L'
  have a1 := rd_ge (x * 7675) (by linarith) (by linarith)
  have a2 := rd_ge (y * 5531) (by linarith) (by linarith)
  have b1 := rd_le (x * 7675) (by rw [abs_of_nonneg (by linarith)]; linarith)
  have b2 := rd_le (y * 5531) (by rw [abs_of_nonneg (by linarith)]; linarith)
  rw [abs_of_nonneg (by linarith : (0 : ℚ) ≤ x * 7675), abs_of_nonneg (by linarith)] at b1
  rw [abs_of_nonneg (by linarith : (0 : ℚ) ≤ y * 5531), abs_of_nonneg (by linarith)] at b2
  generalize rd (x * 7675) = u at *
  generalize rd (y * 5531) = w at *
  have a3 := rd_ge (u + w) (by linarith) (by linarith)
  have b3 := rd_le (u + w) (by rw [abs_of_nonneg (by linarith)]; linarith)
  rw [abs_of_nonneg (by linarith : (0 : ℚ) ≤ u + w), abs_of_nonneg (by linarith)] at b3
  generalize rd (u + w) = z at *
  have a4 := rd_ge (z / 89497586) (by rw [le_div_iff₀ (by norm_num)]; linarith) (by rw [div_le_iff₀ (by norm_num)]; linarith)
  refine le_trans ?_ a4
  norm_num
  linarith

theorem grow_loop (k : Nat) (h1 : 1 ≤ k) (h2 : k ≤ 10) (fa ga : List (F64 × F64)) (hf : AllC (2 ^ k) 7675 fa) (hg : AllC (2 ^ k) 5531 ga)
    (fuel : Nat) (F G : Int) (h : Grow F G) :
    reduceLoop (opsWith toI32) (cst (2 ^ k) 7675) (cst (2 ^ k) 5531) 53 fa ga fuel (cst (2 ^ k) F) (cst (2 ^ k) G) = .diverge := by
  have hp : 2 ^ 1 ≤ 2 ^ k := Nat.pow_le_pow_right (by omega) h1
  induction fuel generalizing F G with
  | zero => rfl
  | succ fuel ih =>
    have hs := size_cst (2 ^ k) (by omega) F G
    obtain ⟨hS, ⟨m1, m2⟩, m3, m4⟩ := grow_lead _ F G h _ hs
    obtain ⟨-, A2, A3⟩ := is_sAdj (sSize F G) F
    obtain ⟨-, B2, B3⟩ := is_sAdj (sSize F G) G
    have eA := adjV_exact (sSize F G) F (by omega) m2
    have eB := adjV_exact (sSize F G) G (by omega) m4
    have cF := adjust_cst (2 ^ k) (sSize F G) F
    have cG := adjust_cst (2 ^ k) (sSize F G) G
    rw [eA] at A2 A3 cF
    rw [eB] at B2 B3 cG
    have hq := grow_quot ((F / 2 ^ (sSize F G - 53) : Int) : ℚ) ((G / 2 ^ (sSize F G - 53) : Int) : ℚ) (by exact_mod_cast m1) (by exact_mod_cast m3)
      (by exact_mod_cast m2.le) (by exact_mod_cast m4.le)
    have ea : ∀ s l, adjust (opsWith toI32) s l = adjust ieeeOps s l := fun _ _ => rfl
    have hD : (89497586 : ℚ) = rd (rd (7675 * 7675) + rd (5531 * 5531)) := by decide +kernel
    rw [reduceLoop, hs, Go.ok_bind, if_neg (by omega), ea, ea,
      babai_with toI32 toI32_zero k h1 h2 A2 B2 (by norm_num) (by norm_num) A3 B3 hD rfl (by norm_num) _ rfl (by
        intro h0
        rw [h0] at hq
        norm_num at hq) fa ga hf hg _ _ cF cG, Go.ok_bind,
      toI32_big _ hq, allZeroes_cst, if_neg (by simp), karamul_cst, Go.ok_bind, karamul_cst, Go.ok_bind, cst_length _ (by omega), sub_cst _ (by omega),
      Go.ok_bind, sub_cst _ (by omega), Go.ok_bind]
    have hz : (0 : Int) < 2 ^ (sSize F G - 53) := by positivity
    obtain ⟨g1, g2, g3⟩ := h
    generalize (2 : Int) ^ (sSize F G - 53) = Z at hz
    exact ih _ _ ⟨by linarith, by omega, by omega⟩

/-- `reduce` on 386 does not return. -/
theorem grow_reduce (k : Nat) (h1 : 1 ≤ k) (h2 : k ≤ 10) (fuel : Nat) (F G : Int) (h : Grow F G) :
    reduce (opsWith toI32) fuel (cst (2 ^ k) 7675) (cst (2 ^ k) 5531) (cst (2 ^ k) F) (cst (2 ^ k) G) = .diverge := by
  have hp : 2 ^ 1 ≤ 2 ^ k := Nat.pow_le_pow_right (by omega) h1
  have e65 : (2 : ℚ) ^ 65 ≤ lim := le_trans (by norm_num) lim_ge
  have s0 : sSize 7675 5531 = 53 := by decide +kernel
  have v1 : adjV 53 7675 = 7675 := by decide +kernel
  have v0 : adjV 53 5531 = 5531 := by decide +kernel
  obtain ⟨-, a2, a3⟩ := is_sAdj 53 7675
  obtain ⟨-, b2, b3⟩ := is_sAdj 53 5531
  obtain ⟨c1, e1, l1, q1⟩ := FFT_cst k h1 h2 _ a2 (a3.trans e65) _ (adjust_cst (2 ^ k) 53 7675)
  obtain ⟨c2, e2, l2, q2⟩ := FFT_cst k h1 h2 _ b2 (b3.trans e65) _ (adjust_cst (2 ^ k) 53 5531)
  have ea : ∀ s l, adjust (opsWith toI32) s l = adjust ieeeOps s l := fun _ _ => rfl
  unfold reduce
  rw [size_cst _ (by omega), Go.ok_bind, s0, ea, ea, FFT_with, e1, Go.ok_bind, FFT_with, e2, Go.ok_bind]
  rw [v1] at q1
  rw [v0] at q2
  exact grow_loop k h1 h2 c1 c2 ⟨l1, q1⟩ ⟨l2, q2⟩ fuel F G h

end Falcon
