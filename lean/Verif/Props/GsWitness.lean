import Verif.Props.GsFloat
/-!
# A key that the IEEE quality check accepts although its Gram-Schmidt norm is enormous (C68)

The hypothesis `|f(w)|^2 + |g(w)|^2 >= 1/10` of `C68_second` cannot be dropped. For the two polynomials below both values at `exp(i pi / 32)` are
smaller than the rounding errors of the FFT, so the quotient at that root is computed from noise.
-/

namespace Falcon
open F64 Spec Polynomial ComplexConjugate

/-- The floats `m / 2^e`. -/
def dyadic (l : List (Int × Nat)) : List F64 := l.map fun p => .fin (mkRat p.1 (2 ^ p.2))

def weakF : List Int16 := [6, 2, 16, 4, 25, -9, 7, 9, -16, 6, -27, -37, -39, 27, 24, -1, -15, 6, 20, -9, 15, -10, 10, 15, -2, 7, -9, 11, 2, 5, -6, -12]

def weakG : List Int16 := [-17, 3, -4, -10, 5, 35, -17, 1, -2, -1, -5, 0, 10, -9, 7, -23, -3, 30, 0, 18, -35, 21, -5, -12, -2, 8, 5, -18, 10, -16, 7, 2]

/-! The intermediate results of `GsNorm`. -/

def wAf : List F64 := dyadic
  [(3377699720527873, 49), (6755399441055747, 49), (3377699720527881, 49), (-2814749767106557, 49), (-2251799813685267, 50), (-774056185954305, 46),
  (5066549580791801, 49), (-985162418487297, 47), (562949953421305, 48), (-4222124650659837, 48), (-5629499534213109, 49), (5629499534213131, 49),
  (-4222124650659841, 48), (5066549580791799, 49), (-1407374883553279, 46), (-6755399441055761, 50), (15, 0), (1125899906842629, 50),
  (-1688849860263935, 46), (-7599824371187711, 48), (1372190511464449, 45), (37, 0), (3799912185593855, 47), (-3377699720527879, 49),
  (4503599627370497, 48), (-2533274790395903, 48), (-7, 0), (9, 0), (-7036874417766407, 48), (-9007199254740971, 51), (-4503599627370495, 48),
  (-1125899906842629, 49)]

def wFf : List F64 := dyadic
  [(4519542545973249, 39), (5119326138925045, 42), (-703687441776641, 41), (-2702599581073405, 41), (4793870697103377, 43), (2825744883384325, 41),
  (-1942837046280193, 40), (-7204000185188369, 43), (-5515150324924429, 41), (-4380454325059567, 44), (-2304576371818491, 43), (-767459116187649, 40),
  (-2291382232285185, 40), (-5048957394747395, 42), (669602581315583, 40), (4688317580836863, 42), (-2005509209063427, 93), (-1172079395209215, 40),
  (-5356820650524675, 43), (2524478697373697, 41), (1145691116142593, 39), (767459116187647, 40), (2304576371818499, 43), (8760908650119183, 45),
  (5515150324924421, 41), (7204000185188361, 43), (7771348185120763, 42), (-2825744883384321, 41), (-4793870697103391, 43), (2702599581073403, 41),
  (5629499534213087, 44), (-1164, 0)]

def wAg : List F64 := dyadic
  [(-17, 0), (-562949953421313, 48), (-3940649673949181, 49), (2251799813685249, 47), (-1407374883553281, 47), (5066549580791809, 48),
  (-5629499534213121, 50), (-2251799813685239, 48), (562949953421311, 48), (3377699720527871, 48), (2814749767106553, 49), (-5910974510923775, 48),
  (4925812092436483, 47), (-5066549580791809, 48), (-15, 52), (-8444249301319679, 48), (3377699720527873, 50), (6473924464345087, 48),
  (-985162418487297, 47), (1266637395197953, 47), (-5629499534213129, 49), (21, 51), (2814749767106557, 49), (562949953421305, 49), (1125899906842625,
  49), (-1125899906842633, 50), (2392537302040575, 47), (-35, 0), (-2814749767106551, 49), (2814749767106563, 48), (9007199254740987, 51),
  (-1688849860263947, 49)]

def wGg : List F64 := dyadic
  [(3648729336774657, 39), (-2964283348484099, 40), (293569604616193, 40), (-1173178906836991, 40), (7441494696787989, 44), (-4890627720347617, 45),
  (-6403555720167439, 42), (4646536138981381, 41), (-2401333395062795, 41), (7995648557187091, 43), (-6623458045722609, 43), (-3663572743749633, 42),
  (1565704557953047, 44), (2836739999662077, 42), (2089072092774399, 40), (-6852156464300041, 42), (3474456743772161, 93), (3426078232150023, 41),
  (-8356288371097601, 42), (-5673479999324141, 43), (-1565704557953061, 44), (833, 0), (827932255715327, 40), (-7995648557187089, 43),
  (4802666790125581, 42), (-580817017372673, 38), (6403555720167441, 42), (2445313860173753, 44), (-3720747348393993, 43), (4692715627347971, 42),
  (-587139209232383, 41), (2964283348484097, 40)]

def wD : List F64 := dyadic
  [(4084135941373953, 38), (-6737807255011351, 42), (-116548232544255, 41), (-5048957394747387, 41), (2128654511374343, 41), (2520080650862599, 41),
  (-3543725976322053, 40), (2845536092684289, 41), (-989560464998403, 38), (1451355348664327, 41), (-2232008604385275, 41), (-6733409208500229, 42),
  (-4387051394826239, 41), (-1106108697542659, 41), (1379337337044991, 39), (-1081919441731589, 41), (734473767354367, 92), (1081919441731593, 41),
  (-5517349348179969, 41), (4424434790170647, 43), (8774102789652479, 42), (1683352302125055, 40), (8928034417541115, 43), (-5805421394657293, 43),
  (1979120929996803, 39), (-1422768046342147, 40), (3543725976322051, 40), (-1260040325431301, 40), (-1064327255687173, 40), (1262239348686847, 39),
  (932385860354023, 44), (1684451813752833, 40)]

def wFt : List F64 := dyadic
  [(-496211185112793, 58), (-4083494781480931, 63), (3869168579140797, 63), (-3909047612546695, 62), (786080038681319, 64), (862619917563881, 64),
  (-2194867075346285, 62), (-1224779876700699, 59), (931348573261095, 61), (-2591552258270411, 61), (-3471415660027731, 62), (5783873688660383, 62),
  (-576129229727765, 59), (2337662410562449, 62), (4561667892663987, 63), (-1219671899055241, 60), (5433284193804589, 62), (-1054291086753667, 63),
  (-2356685638344603, 60), (-6025820632325463, 62), (733465049693021, 58), (8794964208092867, 61), (7966444174492945, 62), (283993519463723, 58),
  (2333273589702973, 60), (-3515501891779963, 61), (3005033264851977, 63), (645577483920455, 59), (-1724030610015441, 60), (91052858205735, 56),
  (-2436678190670659, 62), (1016298569412317, 63)]

def wGt : List F64 := dyadic
  [(-3162170484539819, 61), (1665165094938017, 60), (1375970054946119, 63), (8111301750122845, 63), (3026888963569215, 63), (3489818155074101, 61),
  (698233991582591, 60), (-3214201314948701, 63), (1708030026638339, 62), (3322807730120331, 62), (-8658170941746683, 65), (556332162179629, 61),
  (469188421282217, 58), (-163924594184351, 57), (4239646871438115, 62), (-3199476803565685, 60), (-7829280354705419, 64), (4115099220474577, 61),
  (-1727113935813549, 61), (-982945505477095, 60), (6132028432754243, 63), (-3601433824562281, 61), (3734514777815043, 65), (879533733477407, 62),
  (-4415852181110191, 63), (-5341917671497827, 62), (6298001845405931, 63), (-4222141445090023, 60), (-4235501334523329, 62), (5956318398744349, 63),
  (-8212912855217357, 64), (-2713389674725135, 61)]

theorem Adj_eq_depth {O : FloatOps} (d : Nat) (f : List O.F) (h : f.length ≤ 2 ^ (d + 1)) :
    Adj O f = (do
      let a ← fftDepth O d f
      IFFT O (AdjFFT O a)) := by
  unfold Adj
  rw [FFT_eq_depth O d f h]

theorem Div_eq_depth {O : FloatOps} (d : Nat) (f g : List O.F) (h : f.length ≤ 2 ^ (d + 1)) (h' : g.length ≤ 2 ^ (d + 1)) :
    Div O f g = (do
      let ft ← fftDepth O d f
      let gt ← fftDepth O d g
      let q ← DivFFT O ft gt
      IFFT O q) := by
  unfold Div
  rw [FFT_eq_depth O d f h, FFT_eq_depth O d g h']

theorem weak_af : Adj ieeeOps (Int16ToFloat64 ieeeOps weakF) = .ok wAf := by
  rw [Adj_eq_depth 4 _ (by decide)]
  decide +kernel

theorem weak_ag : Adj ieeeOps (Int16ToFloat64 ieeeOps weakG) = .ok wAg := by
  rw [Adj_eq_depth 4 _ (by decide)]
  decide +kernel

theorem weak_ff : Mul ieeeOps (Int16ToFloat64 ieeeOps weakF) wAf = .ok wFf := by
  rw [Mul_eq_depth 4 _ _ (by decide) (by decide)]
  decide +kernel

theorem weak_gg : Mul ieeeOps (Int16ToFloat64 ieeeOps weakG) wAg = .ok wGg := by
  rw [Mul_eq_depth 4 _ _ (by decide) (by decide)]
  decide +kernel

theorem weak_d : Add ieeeOps wFf wGg = .ok wD := by decide +kernel

theorem weak_ft : Div ieeeOps wAf wD = .ok wFt := by
  rw [Div_eq_depth 4 _ _ (by decide) (by decide)]
  decide +kernel

theorem weak_gt : Div ieeeOps wAg wD = .ok wGt := by
  rw [Div_eq_depth 4 _ _ (by decide) (by decide)]
  decide +kernel

/-- The computed norm is below the limit of 16822.4. -/
theorem weak_norm : GsNorm ieeeOps (Int16ToFloat64 ieeeOps weakF) (Int16ToFloat64 ieeeOps weakG) (ieeeOps.ofInt Q) =
    .ok (.fin (mkRat 8795200465686997 549755813888)) := by
  unfold GsNorm
  simp only [weak_af, weak_ag, weak_ff, weak_gg, weak_d, weak_ft, weak_gt, Go.ok_bind]
  decide +kernel

theorem weak_accepted : ieeeOps.lt (ieeeOps.mul (ieeeOps.pow2 (ieeeOps.lit 1.17)) (ieeeOps.ofInt Q)) (.fin (mkRat 8795200465686997 549755813888)) =
    false := by decide +kernel

theorem weak_slot_f : (do
    let c ← FFT ieeeOps (Int16ToFloat64 ieeeOps weakF)
    idx c 0) = .ok (.fin (mkRat (-21) (2 ^ 49)), .fin (mkRat 47 (2 ^ 49))) := by
  rw [FFT_eq_depth ieeeOps 4 _ (by decide)]
  decide +kernel

theorem weak_slot_g : (do
    let c ← FFT ieeeOps (Int16ToFloat64 ieeeOps weakG)
    idx c 0) = .ok (.fin (mkRat 7 (2 ^ 47)), .fin (mkRat 5 (2 ^ 48))) := by
  rw [FFT_eq_depth ieeeOps 4 _ (by decide)]
  decide +kernel

/-- The value at the root of slot 0 is the computed one up to the error of the FFT. -/
theorem slot_small (f : List Int16) (hf : f.length = 2 ^ 5) (hl : l1 (realI (int16ToBigInt f)) ≤ 410) (c : F64 × F64)
    (h : (do
      let c ← FFT ieeeOps (Int16ToFloat64 ieeeOps f)
      idx c 0) = .ok c) (h1 : |R c.1| ≤ 1 / 10 ^ 12) (h2 : |R c.2| ≤ 1 / 10 ^ 12) :
    ‖evalR (realI (int16ToBigInt f)) (rootC 5 0)‖ ≤ 15 / 10 ^ 12 := by
  obtain ⟨f1, f2, -⟩ := int16_ieee f
  obtain ⟨v, e, lv, hv⟩ := C66_fft 5 (by omega) (by omega) (Int16ToFloat64 ieeeOps f) (by simp [Int16ToFloat64, hf]) f1 (by
    rw [f2]
    linarith [show (410 : ℝ) ≤ 10 ^ 90 by norm_num])
  have h0 : 0 < v.length := by rw [lv]; decide
  have ec : c = v[0] := by
    rw [e, Go.ok_bind, idx, List.getElem?_eq_getElem h0] at h
    injection h with h
    exact h.symm
  have h3 := (hv 0 h0).2
  rw [← ec, f2] at h3
  have h4 : ‖cval c‖ ≤ 2 / 10 ^ 12 := by
    have := Complex.norm_le_abs_re_add_abs_im (cval c)
    have e1 : (cval c).re = R c.1 := rfl
    have e2 : (cval c).im = R c.2 := rfl
    rw [e1, e2] at this
    linarith
  have h5 := norm_sub_norm_le (evalR (realI (int16ToBigInt f)) (rootC 5 0)) (cval c)
  rw [norm_sub_rev] at h5
  norm_num at *
  linarith

theorem weak_gram : gramAt (int16ToBigInt weakF) (int16ToBigInt weakG) (rootC 5 0) ≤ 1 / 10 ^ 21 := by
  have hl : ∀ f ∈ [weakF, weakG], l1 (realI (int16ToBigInt f)) ≤ 410 := by
    have e : ∀ f : List Int, l1 (realI f) = ((f.map fun x => |x|).sum : Int) := by
      intro f
      induction f with
      | nil => simp [l1, realI]
      | cons a f ih =>
        rw [List.map_cons, List.sum_cons, Int.cast_add, ← ih]
        simp [realI, l1_cons]
    intro f hf
    rw [e]
    have : ((int16ToBigInt f).map fun x => |x|).sum ≤ 410 := by
      revert f
      decide +kernel
    exact_mod_cast this
  have hR : ∀ q : ℚ, R (.fin q) = (q : ℝ) := fun q => rfl
  have af := slot_small weakF (by decide) (hl _ (by simp)) _ weak_slot_f (by rw [hR, Rat.mkRat_eq_div]; push_cast; norm_num [abs_le])
    (by rw [hR, Rat.mkRat_eq_div]; push_cast; norm_num [abs_le])
  have ag := slot_small weakG (by decide) (hl _ (by simp)) _ weak_slot_g (by rw [hR, Rat.mkRat_eq_div]; push_cast; norm_num [abs_le])
    (by rw [hR, Rat.mkRat_eq_div]; push_cast; norm_num [abs_le])
  unfold gramAt
  rw [Complex.normSq_eq_norm_sq, Complex.normSq_eq_norm_sq]
  have h1 := pow_le_pow_left₀ (norm_nonneg _) af 2
  have h2 := pow_le_pow_left₀ (norm_nonneg _) ag 2
  norm_num at *
  linarith

theorem weak_gram_pos : 0 < gramAt (int16ToBigInt weakF) (int16ToBigInt weakG) (rootC 5 0) := by
  have hw : rootC 5 0 ∈ rootsC 5 := by
    simp only [rootsC, List.mem_map]
    exact ⟨0, List.mem_range.2 (by decide), rfl⟩
  have hne : evalR (realI (int16ToBigInt weakF)) (rootC 5 0) ≠ 0 := by
    obtain ⟨N, hN, hn⟩ := towerNorm_ok 5 (int16ToBigInt weakF) (by decide)
    have h0 : N ≠ 0 := by
      rintro rfl
      revert hN
      decide +kernel
    intro h
    apply h0
    unfold IsNorm at hn
    have hz : (0 : ℂ) ∈ (X ^ 2 ^ 5 + 1 : ℂ[X]).roots.map fun w => (poly (int16ToBigInt weakF)).eval₂ (Int.castRingHom ℂ) w := by
      rw [Multiset.mem_map]
      refine ⟨rootC 5 0, ?_, ?_⟩
      · rw [mem_roots (by
          intro h
          have := congrArg (eval 0) h
          simp at this)]
        simp [show rootC 5 0 ^ 32 = -1 from (mem_rootsC 5 _).1 hw]
      · rw [← h]
        unfold evalR realI
        generalize int16ToBigInt weakF = l
        induction l with
        | nil => simp [poly]
        | cons a l ih =>
          simp_all only [List.map_cons, poly_cons, eval₂_add, eval₂_mul, eval₂_C, eval₂_X, eval_add, eval_mul, eval_C, eval_X]
          simp
    rw [Multiset.prod_eq_zero hz] at hn
    exact_mod_cast hn
  have h1 := Complex.normSq_pos.2 hne
  have h2 := Complex.normSq_nonneg (evalR (realI (int16ToBigInt weakG)) (rootC 5 0))
  unfold gramAt
  linarith

/-- C68: the IEEE quality check accepts two polynomials of degree 32 for which the second vector of the exact Gram-Schmidt basis has a squared norm
above `10^27`, where the limit is 16822.4. -/
theorem C68_violated_accepts : ∃ (f g : List Int16) (norm : F64), f.length = 32 ∧ g.length = 32 ∧
    GsNorm ieeeOps (Int16ToFloat64 ieeeOps f) (Int16ToFloat64 ieeeOps g) (ieeeOps.ofInt Q) = .ok norm ∧
    ieeeOps.lt (ieeeOps.mul (ieeeOps.pow2 (ieeeOps.lit 1.17)) (ieeeOps.ofInt Q)) norm = false ∧
    ∀ Ft Gt : List ℝ, Ft.length = 32 → Gt.length = 32 →
      (X ^ 32 + 1 : ℝ[X]) ∣ poly Ft * gramPoly (realI (int16ToBigInt f)) (realI (int16ToBigInt g)) - poly (adjList (realI (int16ToBigInt f))) →
      (X ^ 32 + 1 : ℝ[X]) ∣ poly Gt * gramPoly (realI (int16ToBigInt f)) (realI (int16ToBigInt g)) - poly (adjList (realI (int16ToBigInt g))) →
      10 ^ 27 ≤ 12289 ^ 2 * (sqNorm Ft + sqNorm Gt) := by
  refine ⟨weakF, weakG, _, by decide, by decide, weak_norm, weak_accepted, ?_⟩
  intro Ft Gt lF lG dF dG
  have hw : rootC 5 0 ∈ rootsC 5 := by
    simp only [rootsC, List.mem_map]
    exact ⟨0, List.mem_range.2 (by decide), rfl⟩
  have hlf : (realI (int16ToBigInt weakF)).length = 2 ^ 5 := by simp [realI, int16ToBigInt, weakF]
  have hlg : (realI (int16ToBigInt weakG)).length = 2 ^ 5 := by simp [realI, int16ToBigInt, weakG]
  have hg := weak_gram
  have hp := weak_gram_pos
  unfold gramAt at hg hp
  have key : ∀ u H : List ℝ, u.length = 2 ^ 5 → H.length = 32 →
      (X ^ 32 + 1 : ℝ[X]) ∣ poly H * gramPoly (realI (int16ToBigInt weakF)) (realI (int16ToBigInt weakG)) - poly (adjList u) →
      Complex.normSq (evalR u (rootC 5 0)) ≤ 32 * sqNorm H * (Complex.normSq (evalR (realI (int16ToBigInt weakF)) (rootC 5 0)) +
        Complex.normSq (evalR (realI (int16ToBigInt weakG)) (rootC 5 0))) ^ 2 := by
    intro u H lu lH dH
    have h3 := evalR_dvd 5 _ dH _ hw
    rw [eval₂_sub, eval₂_mul, gram_eval 5 _ _ hlf hlg _ hw, ← evalR_eq, ← evalR_eq, evalR_adj 5 u lu _ hw, sub_eq_zero, Complex.mul_conj,
      Complex.mul_conj, ← Complex.ofReal_add] at h3
    generalize Complex.normSq (evalR (realI (int16ToBigInt weakF)) (rootC 5 0)) + Complex.normSq (evalR (realI (int16ToBigInt weakG)) (rootC 5 0)) = d at *
    have h4 := congrArg Complex.normSq h3
    rw [Complex.normSq_conj, Complex.normSq_mul, Complex.normSq_ofReal] at h4
    have h5 : Complex.normSq (evalR H (rootC 5 0)) ≤ 32 * sqNorm H := by
      rw [Complex.normSq_eq_norm_sq]
      have := pow_le_pow_left₀ (norm_nonneg _) (evalR_norm H (rootC 5 0) (rootC_norm 5 0)) 2
      have h6 := l1_sq_le H
      rw [lH] at h6
      exact this.trans (by exact_mod_cast h6)
    rw [← h4, pow_two]
    exact mul_le_mul_of_nonneg_right h5 (mul_self_nonneg _)
  have k1 := key _ Ft hlf lF dF
  have k2 := key _ Gt hlg lG dG
  have hsum := add_le_add k1 k2
  generalize Complex.normSq (evalR (realI (int16ToBigInt weakF)) (rootC 5 0)) + Complex.normSq (evalR (realI (int16ToBigInt weakG)) (rootC 5 0)) = d at *
  have s : d * 1 ≤ d * (32 * (sqNorm Ft + sqNorm Gt) * d) := by linarith
  have s2 := le_of_mul_le_mul_left s hp
  have s3 : 32 * (sqNorm Ft + sqNorm Gt) * d ≤ 32 * (sqNorm Ft + sqNorm Gt) * (1 / 10 ^ 21) :=
    mul_le_mul_of_nonneg_left hg (by have := sqNorm_nonneg Ft; have := sqNorm_nonneg Gt; positivity)
  have s4 : 10 ^ 21 / 32 ≤ sqNorm Ft + sqNorm Gt := by norm_num at *; linarith
  norm_num at *
  linarith

end Falcon
