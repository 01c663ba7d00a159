import Verif.Lemmas.FftNear
import Verif.Props.Babai
/-!
# The accuracy of the FFT in IEEE arithmetic (C66)

The error of every function is measured against exact arithmetic: `R` is the real value of a finite float and `cval` the complex value of a
pair of finite floats.
-/

namespace Falcon
open F64 Spec Polynomial

/-- The base case of `FFT`. -/
def fftBase (O : FloatOps) (f : List O.F) : Go (List O.C) :=
  match f with
  | [x, y] =>
    let a := O.cmul O.I (O.cplx y (O.lit 0))
    .ok [O.cadd (O.cplx x (O.lit 0)) a, O.csub (O.cplx x (O.lit 0)) a]
  | _ => .ok []

/-- `FFT` with an explicit recursion depth, for evaluation. -/
def fftDepth (O : FloatOps) : Nat → List O.F → Go (List O.C)
  | 0, f => fftBase O f
  | d + 1, f =>
    if f.length > 2 then do
      let a ← fftDepth O d (splitPolys f).1
      let b ← fftDepth O d (splitPolys f).2
      MergeFFT O (a, b)
    else fftBase O f

theorem FFT_base (O : FloatOps) (f : List O.F) (h : ¬ f.length > 2) : FFT O f = fftBase O f := by
  match f, h with
  | [], _ => rw [FFT, dif_neg (by simp)]; rfl
  | [x], _ => rw [FFT, dif_neg (by simp)]; rfl
  | [x, y], _ => rw [FFT, dif_neg (by simp)]; rfl
  | _ :: _ :: _ :: _, h => simp at h

theorem FFT_eq_depth (O : FloatOps) (d : Nat) (f : List O.F) (h : f.length ≤ 2 ^ (d + 1)) : FFT O f = fftDepth O d f := by
  induction d generalizing f with
  | zero => exact FFT_base O f (by simpa using h)
  | succ d ih =>
    rw [pow_succ] at h
    rw [fftDepth]
    split
    · rename_i h2
      rw [FFT, dif_pos h2, ih _ (by rw [splitPolys_length1]; omega), ih _ (by rw [splitPolys_length2]; omega)]
    · rename_i h2
      exact FFT_base O f h2

theorem Mul_eq_depth {O : FloatOps} (d : Nat) (f g : List O.F) (h : f.length ≤ 2 ^ (d + 1)) (h' : g.length ≤ 2 ^ (d + 1)) :
    Mul O f g = (do
      let ft ← fftDepth O d f
      let gt ← fftDepth O d g
      let p ← MulFFT O ft gt
      IFFT O p) := by
  unfold Mul
  rw [FFT_eq_depth O d f h, FFT_eq_depth O d g h']

/-- `C66_fft` for every variant of the arithmetic. -/
theorem variant_C66_fft (va : Variant) (k : Nat) (h1 : 1 ≤ k) (h2 : k ≤ 10) (f : List F64) (hf : f.length = 2 ^ k) (hfin : ∀ x ∈ f, x.isFinite = true)
    (hbig : l1 (f.map R) ≤ 10 ^ 90) :
    ∃ c, FFT va.ops f = .ok c ∧ c.length = 2 ^ k ∧ ∀ i (h : i < c.length), (c[i].1.isFinite = true ∧ c[i].2.isFinite = true) ∧
      ‖cval c[i] - evalR (f.map R) (rootC k i)‖ ≤ 3 / 10 ^ 14 * l1 (f.map R) + 1 / 10 ^ 110 := by
  have := Big_ge'
  obtain ⟨c, e, h⟩ := (FFT_near_variant va) k h1 h2 f hf hfin (by linarith)
  have lc : c.length = 2 ^ k := by rw [h.length_eq, List.length_map, rootsC_length]
  refine ⟨c, e, lc, fun i hi => ?_⟩
  have hg := h.get hi (by rw [List.length_map, rootsC_length, ← lc]; exact hi)
  simp only [List.get_eq_getElem, List.getElem_map] at hg
  have er : (rootsC k)[i]'(by rw [rootsC_length, ← lc]; exact hi) = rootC k i := by simp [rootsC]
  rw [er] at hg
  exact ⟨hg.1, hg.2.trans (fftErr_num k h2 _ (l1_nonneg _))⟩

/-- C66: in IEEE arithmetic every slot of the FFT of a vector of finite floats is finite and within `3e-14` times the sum of the absolute
values of the coefficients of the value of the polynomial at the root of unity of that slot. -/
theorem C66_fft (k : Nat) (h1 : 1 ≤ k) (h2 : k ≤ 10) (f : List F64) (hf : f.length = 2 ^ k) (hfin : ∀ x ∈ f, x.isFinite = true)
    (hbig : l1 (f.map R) ≤ 10 ^ 90) :
    ∃ c, FFT ieeeOps f = .ok c ∧ c.length = 2 ^ k ∧ ∀ i (h : i < c.length), (c[i].1.isFinite = true ∧ c[i].2.isFinite = true) ∧
      ‖cval c[i] - evalR (f.map R) (rootC k i)‖ ≤ 3 / 10 ^ 14 * l1 (f.map R) + 1 / 10 ^ 110 :=
  variant_C66_fft amd64V k h1 h2 f hf hfin hbig

/-- `C66_round_trip` for every variant of the arithmetic. -/
theorem variant_C66_round_trip (va : Variant) (k : Nat) (h1 : 1 ≤ k) (h2 : k ≤ 10) (f : List F64) (hf : f.length = 2 ^ k) (hfin : ∀ x ∈ f, x.isFinite = true)
    (hbig : l1 (f.map R) ≤ 10 ^ 90) :
    ∃ r, (do IFFT va.ops (← FFT va.ops f)) = .ok r ∧ r.length = 2 ^ k ∧ ∀ i (h : i < r.length) (h' : i < f.length), r[i].isFinite = true ∧
      |R r[i] - R f[i]| ≤ 7 / 10 ^ 14 * l1 (f.map R) + 1 / 10 ^ 109 := by
  have big := Big_ge'
  have s0 := l1_nonneg (f.map R)
  obtain ⟨c, e, h⟩ := (FFT_near_variant va) k h1 h2 f hf hfin (by linarith)
  have e0 := fftErr_nonneg k _ s0
  have e1 := fftErr_num k h2 _ s0
  obtain ⟨r, er, hr⟩ := (IFFT_near_variant va) k h1 h2 (f.map R) (by rw [List.length_map, hf]) c _ (l1 (f.map R)) h (map_evalR_norm k _) (by linarith) e0 s0
  have lr : r.length = 2 ^ k := by rw [hr.length_eq, List.length_map, hf]
  refine ⟨r, by rw [e, Go.ok_bind, er], lr, fun i hi hi' => ?_⟩
  have hg := hr.get hi (by rw [List.length_map]; exact hi')
  simp only [List.get_eq_getElem, List.getElem_map] at hg
  refine ⟨hg.1, hg.2.trans ((ifftErr_num k h2 _ _ s0 e0).trans ?_)⟩
  linarith

/-- C66: the round trip through the FFT changes no coefficient by more than `7e-14` times the sum of the absolute values. -/
theorem C66_round_trip (k : Nat) (h1 : 1 ≤ k) (h2 : k ≤ 10) (f : List F64) (hf : f.length = 2 ^ k) (hfin : ∀ x ∈ f, x.isFinite = true)
    (hbig : l1 (f.map R) ≤ 10 ^ 90) :
    ∃ r, (do IFFT ieeeOps (← FFT ieeeOps f)) = .ok r ∧ r.length = 2 ^ k ∧ ∀ i (h : i < r.length) (h' : i < f.length), r[i].isFinite = true ∧
      |R r[i] - R f[i]| ≤ 7 / 10 ^ 14 * l1 (f.map R) + 1 / 10 ^ 109 :=
  variant_C66_round_trip amd64V k h1 h2 f hf hfin hbig

/-- `C66_mul` for every variant of the arithmetic. -/
theorem variant_C66_mul (va : Variant) (k : Nat) (h1 : 1 ≤ k) (h2 : k ≤ 10) (f g : List F64) (hf : f.length = 2 ^ k) (hg : g.length = 2 ^ k)
    (ff : ∀ x ∈ f, x.isFinite = true) (fg : ∀ x ∈ g, x.isFinite = true) (hA : l1 (f.map R) ≤ 10 ^ 40) (hB : l1 (g.map R) ≤ 10 ^ 40)
    (p : List ℝ) (hp : p.length = 2 ^ k) (hd : (X ^ 2 ^ k + 1 : ℝ[X]) ∣ poly (f.map R) * poly (g.map R) - poly p) :
    ∃ r, Mul va.ops f g = .ok r ∧ r.length = 2 ^ k ∧ ∀ i (h : i < r.length) (h' : i < p.length), r[i].isFinite = true ∧
      |R r[i] - p[i]| ≤ 1 / 10 ^ 13 * (l1 (f.map R) * l1 (g.map R)) + 1 / 10 ^ 100 * (l1 (f.map R) + l1 (g.map R) + 1) := by
  obtain ⟨r, er, hr⟩ := (Mul_near_variant va) k h1 h2 f g hf hg ff fg _ _ le_rfl le_rfl hA hB p hp hd
  exact ⟨r, er, hr.length_eq.trans hp, fun i hi hi' => hr.get hi hi'⟩

/-- C66: `Mul` in IEEE arithmetic returns the product of R[x]/(x^n+1) up to `1e-13` times the product of the sums of the absolute values of
the coefficients of the two factors. -/
theorem C66_mul (k : Nat) (h1 : 1 ≤ k) (h2 : k ≤ 10) (f g : List F64) (hf : f.length = 2 ^ k) (hg : g.length = 2 ^ k)
    (ff : ∀ x ∈ f, x.isFinite = true) (fg : ∀ x ∈ g, x.isFinite = true) (hA : l1 (f.map R) ≤ 10 ^ 40) (hB : l1 (g.map R) ≤ 10 ^ 40)
    (p : List ℝ) (hp : p.length = 2 ^ k) (hd : (X ^ 2 ^ k + 1 : ℝ[X]) ∣ poly (f.map R) * poly (g.map R) - poly p) :
    ∃ r, Mul ieeeOps f g = .ok r ∧ r.length = 2 ^ k ∧ ∀ i (h : i < r.length) (h' : i < p.length), r[i].isFinite = true ∧
      |R r[i] - p[i]| ≤ 1 / 10 ^ 13 * (l1 (f.map R) * l1 (g.map R)) + 1 / 10 ^ 100 * (l1 (f.map R) + l1 (g.map R) + 1) :=
  variant_C66_mul amd64V k h1 h2 f g hf hg ff fg hA hB p hp hd

/-- An integer converted to a float. -/
theorem ofInt_near (k : Int) (h : -(2 ^ 53) ≤ k) (h' : k ≤ 2 ^ 53) : (ieeeOps.ofInt k : F64).isFinite = true ∧ R (ieeeOps.ofInt k) = k := by
  show (ofRat (k : ℚ)).isFinite = true ∧ R (ofRat (k : ℚ)) = k
  rw [ofRat_int k h h']
  split
  · rename_i h0
    subst h0
    exact ⟨rfl, by rw [R_zero]; simp⟩
  · exact ⟨rfl, by rw [R_fin]; simp⟩

theorem awayInt_near (y : ℚ) (m : Int) (h : |y - m| < 1 / 2) : awayInt y = m := by
  rw [abs_lt] at h
  unfold awayInt
  split
  · show ⌊y + 1 / 2⌋ = m
    rw [Int.floor_eq_iff]
    constructor <;> linarith
  · have : (-y + 1 / 2).floor = -m := by
      show ⌊-y + 1 / 2⌋ = -m
      rw [Int.floor_eq_iff]
      push_cast
      constructor <;> linarith
    rw [this, neg_neg]

/-- Rounding a float that is near an integer. -/
theorem round_near_variant (va : Variant) (wide : va.Wide) (e : ℝ) (a : F64) (m : Int) (h : RNear e a m) (he : e < 1 / 2) (hm : -(2 ^ 53) ≤ m) (hm' : m ≤ 2 ^ 53) :
    va.ops.toInt (va.ops.round a) = m := by
  obtain ⟨h1, h2⟩ := h
  have hq : |a.val - m| < 1 / 2 := by
    have : |((a.val - m : ℚ) : ℝ)| < ((1 / 2 : ℚ) : ℝ) := by
      push_cast
      exact lt_of_le_of_lt h2 he
    exact_mod_cast this
  have hw := awayInt_near _ _ hq
  show va.toInt (round a) = m
  rcases isFinite_cases a h1 with ⟨s, rfl⟩ | ⟨x, rfl⟩
  · have : m = 0 := by
      rw [← hw]
      show awayInt 0 = 0
      decide +kernel
    subst this
    exact va.toInt_zero s
  · have hx : awayInt x = m := hw
    unfold F64.round
    simp only [hx]
    split
    · rename_i h0
      subst h0
      exact va.toInt_zero _
    · exact wide.toInt_int m (by omega) (by omega)

theorem round_near (e : ℝ) (a : F64) (m : Int) (h : RNear e a m) (he : e < 1 / 2) (hm : -(2 ^ 53) ≤ m) (hm' : m ≤ 2 ^ 53) :
    ieeeOps.toInt (ieeeOps.round a) = m :=
  round_near_variant amd64V amd64V_wide e a m h he hm hm'

/-- `C66_mul_exact` for every variant of the arithmetic with a 64-bit `int`. -/
theorem variant_C66_mul_exact (va : Variant) (wide : va.Wide) (k : Nat) (h1 : 1 ≤ k) (h2 : k ≤ 10) (f g p : List Int) (hf : f.length = 2 ^ k) (hg : g.length = 2 ^ k)
    (hp : p.length = 2 ^ k) (hs : l1 (realI f) * l1 (realI g) ≤ 10 ^ 12) (hfb : ∀ x ∈ f, x.natAbs ≤ 10 ^ 12) (hgb : ∀ x ∈ g, x.natAbs ≤ 10 ^ 12)
    (hd : (X ^ 2 ^ k + 1 : ℤ[X]) ∣ poly f * poly g - poly p) :
    ∃ r, Mul va.ops (f.map va.ops.ofInt) (g.map va.ops.ofInt) = .ok r ∧ RoundAll va.ops r = p := by
  have conv : ∀ l : List Int, (∀ x ∈ l, x.natAbs ≤ 10 ^ 12) → (l.map va.ops.ofInt).map R = realI l ∧
      ∀ x ∈ l.map va.ops.ofInt, x.isFinite = true := by
    intro l hl
    have b : ∀ x ∈ l, -(2 ^ 53) ≤ x ∧ x ≤ 2 ^ 53 := by
      intro x hx
      have := hl x hx
      omega
    constructor
    · rw [List.map_map]
      exact List.map_congr_left fun x hx => (ofInt_near x (b x hx).1 (b x hx).2).2
    · intro y hy
      obtain ⟨x, hx, rfl⟩ := List.mem_map.1 hy
      exact (ofInt_near x (b x hx).1 (b x hx).2).1
  obtain ⟨ef, ff⟩ := conv f hfb
  obtain ⟨eg, fg⟩ := conv g hgb
  have bound : ∀ l : List Int, l.length = 2 ^ k → (∀ x ∈ l, x.natAbs ≤ 10 ^ 12) → l1 (realI l) ≤ 10 ^ 16 := by
    intro l hl hb
    have := l1_le_length (realI l) (10 ^ 12) (by
      intro x hx
      obtain ⟨y, hy, rfl⟩ := List.mem_map.1 hx
      have h3 : |y| ≤ 10 ^ 12 := by rw [Int.abs_eq_natAbs]; have := hb y hy; omega
      exact_mod_cast h3)
    have hlen : (realI l).length = 2 ^ k := by rw [realI, List.length_map, hl]
    rw [hlen] at this
    have hk : (2 : ℝ) ^ k ≤ 2 ^ 10 := pow_le_pow_right₀ (by norm_num) h2
    push_cast at this
    nlinarith
  have bf := bound f hf hfb
  have bg := bound g hg hgb
  have hdR : (X ^ 2 ^ k + 1 : ℝ[X]) ∣ poly (realI f) * poly (realI g) - poly (realI p) := by
    obtain ⟨c, hc⟩ := hd
    refine ⟨c.map (Int.castRingHom ℝ), ?_⟩
    rw [poly_realI, poly_realI, poly_realI]
    have := congrArg (Polynomial.map (Int.castRingHom ℝ)) hc
    simpa using this
  obtain ⟨r, er, hr⟩ := (Mul_near_variant va) k h1 h2 _ _ (by rw [List.length_map, hf]) (by rw [List.length_map, hg]) ff fg _ _ le_rfl le_rfl
    (by rw [ef]; linarith) (by rw [eg]; linarith) (realI p) (by rw [realI, List.length_map, hp]) (by rw [ef, eg]; exact hdR)
  rw [ef, eg] at hr
  refine ⟨r, er, ?_⟩
  -- the exact product is below 10^12
  obtain ⟨q, lq, dq, bq⟩ := prod_bound (2 ^ k) (Nat.two_pow_pos k) (realI f) (l1 (realI f)) (by rw [realI, List.length_map, hf]) (by
    intro x hx
    unfold l1
    exact List.single_le_sum (by simp) _ (List.mem_map_of_mem hx)) (realI g)
  have hq : q = realI p := by
    apply C50_unique k _ _ lq (by rw [realI, List.length_map, hp])
    obtain ⟨c1, e1⟩ := dq
    obtain ⟨c2, e2⟩ := hdR
    exact ⟨c2 - c1, by linear_combination e2 - e1⟩
  rw [hq] at bq
  have bp : ∀ x ∈ p, -(2 ^ 53) ≤ x ∧ x ≤ 2 ^ 53 := by
    intro x hx
    have h3 := (bq x (List.mem_map_of_mem hx)).trans hs
    have h4 : |x| ≤ 10 ^ 12 := by exact_mod_cast h3
    rw [abs_le] at h4
    omega
  have n1 := l1_nonneg (realI f)
  have n2 := l1_nonneg (realI g)
  have he : 1 / 10 ^ 13 * (l1 (realI f) * l1 (realI g)) + 1 / 10 ^ 100 * (l1 (realI f) + l1 (realI g) + 1) < 1 / 2 := by linarith
  clear er hq hp hd hdR bq
  unfold RoundAll
  generalize (1 / 10 ^ 13 * (l1 (realI f) * l1 (realI g)) + 1 / 10 ^ 100 * (l1 (realI f) + l1 (realI g) + 1)) = e at he hr
  induction p generalizing r with
  | nil => cases hr; rfl
  | cons x p ih =>
    rw [realI, List.map_cons] at hr
    cases hr with | cons h hr =>
    rw [List.map_cons, ih (bp := fun y hy => bp y (by simp [hy])) (hr := hr), (round_near_variant va wide) e _ x h he (bp x (by simp)).1 (bp x (by simp)).2]

/-- C66: rounding the result of `Mul` for integer factors gives exactly the product of Z[x]/(x^n+1), as long as the product of the sums of
the absolute values of the coefficients is at most `10^12`. -/
theorem C66_mul_exact (k : Nat) (h1 : 1 ≤ k) (h2 : k ≤ 10) (f g p : List Int) (hf : f.length = 2 ^ k) (hg : g.length = 2 ^ k)
    (hp : p.length = 2 ^ k) (hs : l1 (realI f) * l1 (realI g) ≤ 10 ^ 12) (hfb : ∀ x ∈ f, x.natAbs ≤ 10 ^ 12) (hgb : ∀ x ∈ g, x.natAbs ≤ 10 ^ 12)
    (hd : (X ^ 2 ^ k + 1 : ℤ[X]) ∣ poly f * poly g - poly p) :
    ∃ r, Mul ieeeOps (f.map ieeeOps.ofInt) (g.map ieeeOps.ofInt) = .ok r ∧ RoundAll ieeeOps r = p :=
  variant_C66_mul_exact amd64V amd64V_wide k h1 h2 f g p hf hg hp hs hfb hgb hd

/-- The hypotheses are met by ordinary vectors, and the product that the kernel computes is the one of the theorem. -/
example : (do pure (RoundAll ieeeOps (← Mul ieeeOps ([3, -1, 4, 1].map ieeeOps.ofInt) ([2, 7, -1, 8].map ieeeOps.ofInt)))) = .ok [11, -12, -10, 55] := by
  rw [Mul_eq_depth 1 _ _ (by simp) (by simp)]
  decide +kernel
example : ∃ r, Mul ieeeOps ([3, -1, 4, 1].map ieeeOps.ofInt) ([2, 7, -1, 8].map ieeeOps.ofInt) = .ok r ∧ RoundAll ieeeOps r = [11, -12, -10, 55] :=
  C66_mul_exact 2 (by norm_num) (by norm_num) [3, -1, 4, 1] [2, 7, -1, 8] [11, -12, -10, 55] rfl rfl rfl (by simp [l1, realI]; norm_num)
    (by decide) (by decide) ⟨C (-5) + C 31 * X + C 8 * X ^ 2, by simp; ring⟩

/-- The bound on the size is needed: the rounded product of two larger integers is wrong. -/
theorem C66_violated_large : ∃ f g p : List Int, f.length = 2 ∧ g.length = 2 ∧ p.length = 2 ∧ (X ^ 2 + 1 : ℤ[X]) ∣ poly f * poly g - poly p ∧
    ∃ r, Mul ieeeOps (f.map ieeeOps.ofInt) (g.map ieeeOps.ofInt) = .ok r ∧ RoundAll ieeeOps r ≠ p := by
  refine ⟨[134217729, 0], [134217729, 0], [18014398777917441, 0], rfl, rfl, rfl, ⟨0, by simp; norm_num⟩, ?_⟩
  refine ⟨[.fin 18014398777917440, .zero false], ?_, ?_⟩
  · rw [Mul_eq_depth 1 _ _ (by simp) (by simp)]
    decide +kernel
  · decide +kernel

end Falcon
