import Verif.Lemmas.GsSmall
import Verif.Props.EquationSmall
import Verif.Props.Degree2
import Verif.Props.Reach
import Mathlib.NumberTheory.Real.Irrational
/-!
# The quality check of key generation, with a hypothesis that depends on the degree (C42, C68)
-/

namespace Falcon
open Spec Polynomial ComplexConjugate F64

/-- C68: if `|f(w)|^2 + |g(w)|^2` is at least `n^2/10^7` at every root of `x^n+1`, a pair accepted by the IEEE check has
`|f(w)|^2 + |g(w)|^2 >= 1/10` at every root. The hypothesis is one of 0.0000016 at degree 4, 0.026 at degree 512 and 0.105 at degree 1024. -/
theorem C68_floor (k : Nat) (h1 : 1 ≤ k) (h2 : k ≤ 10) (f g : List Int16) (hf : f.length = 2 ^ k) (hg : g.length = 2 ^ k) (norm : F64)
    (h : GsNorm ieeeOps (Int16ToFloat64 ieeeOps f) (Int16ToFloat64 ieeeOps g) (ieeeOps.ofInt Q) = .ok norm)
    (hlt : ieeeOps.lt (ieeeOps.mul (ieeeOps.pow2 (ieeeOps.lit 1.17)) (ieeeOps.ofInt Q)) norm = false)
    (hd : ∀ w ∈ rootsC k, ((2 : ℝ) ^ k) ^ 2 / 10 ^ 7 ≤ gramAt (int16ToBigInt f) (int16ToBigInt g) w) :
    ∀ w ∈ rootsC k, 1 / 10 ≤ gramAt (int16ToBigInt f) (int16ToBigInt g) w := by
  by_contra hcon
  push Not at hcon
  obtain ⟨w1, hw1, hsmall⟩ := hcon
  -- the root with the smallest value
  obtain ⟨w, hw, hmin⟩ : ∃ w ∈ rootsC k, ∀ v ∈ rootsC k, gramAt (int16ToBigInt f) (int16ToBigInt g) w ≤ gramAt (int16ToBigInt f) (int16ToBigInt g) v := by
    classical
    obtain ⟨w, hw, hm⟩ := Finset.exists_min_image (rootsC k).toFinset (gramAt (int16ToBigInt f) (int16ToBigInt g)) ⟨w1, List.mem_toFinset.2 hw1⟩
    exact ⟨w, List.mem_toFinset.1 hw, fun v hv => hm v (List.mem_toFinset.2 hv)⟩
  have dlow := hd w hw
  have d2 : gramAt (int16ToBigInt f) (int16ToBigInt g) w < 1 / 10 := lt_of_le_of_lt (hmin w1 hw1) hsmall
  obtain ⟨m, hm⟩ : ∃ m : ℝ, m = 2 ^ k := ⟨_, rfl⟩
  rw [← hm] at dlow
  have m2 : 2 ≤ m := by
    rw [hm]
    exact (by norm_num : (2 : ℝ) ≤ 2 ^ 1).trans (pow_le_pow_right₀ (by norm_num) h1)
  have mk : m ≤ 1024 := by
    rw [hm]
    exact (pow_le_pow_right₀ (by norm_num) h2).trans (by norm_num)
  set d := gramAt (int16ToBigInt f) (int16ToBigInt g) w with hdd
  have d0 : 0 < d := lt_of_lt_of_le (by positivity) dlow
  set t := Real.sqrt (1 / d) with ht
  have t2 : t ^ 2 = 1 / d := Real.sq_sqrt (by positivity)
  have t0 : 0 ≤ t := Real.sqrt_nonneg _
  have dt : d * t ^ 2 = 1 := by rw [t2]; field_simp
  have t3 : 3 ≤ t := by
    apply Real.le_sqrt_of_sq_le
    rw [le_div_iff₀ d0]
    linarith
  have mt : m * t ≤ 3163 := by
    apply (abs_le_of_sq_le_sq' _ (by norm_num)).2
    rw [mul_pow]
    have h3 : m ^ 2 ≤ 10 ^ 7 * d := by
      rw [div_le_iff₀ (by norm_num)] at dlow
      linarith
    have := mul_le_mul_of_nonneg_right h3 (sq_nonneg t)
    nlinarith
  have hn := C68_first k h2 f g hf hg norm h hlt
  obtain ⟨f1, f2, f3⟩ := int16_ieee f
  obtain ⟨g1, g2, g3⟩ := int16_ieee g
  have k2 : (2 : Nat) ^ k ≤ 1024 := (Nat.pow_le_pow_right (by decide) h2).trans (by decide)
  have lf : (Int16ToFloat64 ieeeOps f).length = 2 ^ k := by rw [Int16ToFloat64, List.length_map, hf]
  have lg : (Int16ToFloat64 ieeeOps g).length = 2 ^ k := by rw [Int16ToFloat64, List.length_map, hg]
  obtain ⟨af, pf, ag, pg, D, e1, e2, e3, e4, e5, laf, lag, lD, faf, fag, fD, baf, bag, bD, vaf, vag, vD⟩ :=
    gram_near_n k h1 h2 _ _ lf lg f1 g1 (by rw [f2, g2]; exact hn) m hm
  rw [f2] at vaf vD
  rw [g2] at vag vD
  have nn := fun (l : List ℝ) (w : ℂ) => Complex.normSq_nonneg (evalR l w)
  have hdt : ∀ v ∈ rootsC k, 1 ≤ gramAt (int16ToBigInt f) (int16ToBigInt g) v * t ^ 2 := by
    intro v hv
    rw [t2, mul_one_div, le_div_iff₀ d0, one_mul]
    exact hmin v hv
  obtain ⟨rf, lrf, erf, frf, bf, vrf⟩ := quot_near_n k h1 h2 (realI (int16ToBigInt f)) (gramAt (int16ToBigInt f) (int16ToBigInt g)) af D laf lD faf fD m hm baf bD vaf vD
    t t3 mt hdt (fun w _ => by unfold gramAt; linarith [nn (realI (int16ToBigInt g)) w])
  obtain ⟨rg, lrg, erg, frg, bg, vrg⟩ := quot_near_n k h1 h2 (realI (int16ToBigInt g)) (gramAt (int16ToBigInt f) (int16ToBigInt g)) ag D lag lD fag fD m hm bag bD vag vD
    t t3 mt hdt (fun w _ => by unfold gramAt; linarith [nn (realI (int16ToBigInt f)) w])
  -- the computed second norm
  have hq : sqNorm (rf.map R) + sqNorm (rg.map R) ≤ 12 / 10 ^ 5 := by
    have q0 := sqNorm_nonneg (rf.map R)
    have q0' := sqNorm_nonneg (rg.map R)
    obtain ⟨s1, s2⟩ := Sqnorm_near rf rg frf frg (by omega) (by omega) (by norm_num at *; linarith)
    have x1 : (ieeeOps.pow2 (ieeeOps.ofInt Q)).isFinite = true ∧ (ieeeOps.pow2 (ieeeOps.ofInt Q) : F64).val = 151019521 := by decide +kernel
    have x2 : R (ieeeOps.pow2 (ieeeOps.ofInt Q)) = 151019521 := by unfold R; rw [x1.2]; norm_num
    have big := Big_ge'
    have u1 := uu_le
    have u0 := uu_pos
    have t1 := et_num
    rw [abs_le] at s2
    have S0 : |R (Sqnorm ieeeOps [rf, rg])| ≤ 10 ^ 20 := by
      rw [abs_le]
      clear * - s2 bf bg q0 q0'
      norm_num at *
      constructor <;> linarith
    have am : |R (ieeeOps.pow2 (ieeeOps.ofInt Q)) * R (Sqnorm ieeeOps [rf, rg])| = 151019521 * |R (Sqnorm ieeeOps [rf, rg])| := by
      rw [abs_mul, x2]; norm_num
    obtain ⟨m1, m2⟩ := mul_near (ieeeOps.pow2 (ieeeOps.ofInt Q)) (Sqnorm ieeeOps [rf, rg]) x1.1 s1 (by
      rw [am]
      clear * - S0 big
      norm_num at *
      linarith)
    rw [am, x2] at m2
    obtain ⟨x0, x3⟩ := Sqnorm_near (Int16ToFloat64 ieeeOps f) (Int16ToFloat64 ieeeOps g) f1 g1 (by omega) (by omega) (by
      rw [f2, g2]
      norm_num
      linarith)
    have e : GsNorm ieeeOps (Int16ToFloat64 ieeeOps f) (Int16ToFloat64 ieeeOps g) (ieeeOps.ofInt Q) = .ok (if F64.lt (Sqnorm ieeeOps [Int16ToFloat64 ieeeOps f, Int16ToFloat64 ieeeOps g])
        (ieeeOps.mul (ieeeOps.pow2 (ieeeOps.ofInt Q)) (Sqnorm ieeeOps [rf, rg])) then ieeeOps.mul (ieeeOps.pow2 (ieeeOps.ofInt Q)) (Sqnorm ieeeOps [rf, rg]) else
        Sqnorm ieeeOps [Int16ToFloat64 ieeeOps f, Int16ToFloat64 ieeeOps g]) := by
      unfold GsNorm
      rw [e1, Go.ok_bind, e2, Go.ok_bind, e3, Go.ok_bind, e4, Go.ok_bind, e5, Go.ok_bind, erf, Go.ok_bind, erg, Go.ok_bind, Biggest_ieee]
    rw [e, Go.ok.injEq] at h
    rw [← h] at hlt
    have h3 := (accept_second _ _ _ bound_ieee.1 x0 m1 hlt).trans bound_ieee.2
    have m3 : |R (ieeeOps.mul (ieeeOps.pow2 (ieeeOps.ofInt Q)) (Sqnorm ieeeOps [rf, rg])) - 151019521 * R (Sqnorm ieeeOps [rf, rg])| ≤
      uu * (151019521 * |R (Sqnorm ieeeOps [rf, rg])|) + et := m2
    have sp : |R (Sqnorm ieeeOps [rf, rg])| ≤ 2 * (sqNorm (rf.map R) + sqNorm (rg.map R)) + 1 / 10 ^ 90 := by
      rw [abs_le]
      clear * - s2 q0 q0'
      norm_num at *
      constructor <;> linarith
    have m4 : uu * (151019521 * |R (Sqnorm ieeeOps [rf, rg])|) ≤ 1 / 9 / 10 ^ 15 * (151019521 * (2 * (sqNorm (rf.map R) + sqNorm (rg.map R)) + 1 / 10 ^ 90)) :=
      mul_le_mul u1 (by linarith) (by positivity) (by norm_num)
    rw [abs_le] at m3
    have T0 : 0 ≤ sqNorm (rf.map R) + sqNorm (rg.map R) := by linarith
    generalize R (ieeeOps.mul (ieeeOps.pow2 (ieeeOps.ofInt Q)) (Sqnorm ieeeOps [rf, rg])) = y at *
    generalize R (Sqnorm ieeeOps [rf, rg]) = z at *
    generalize sqNorm (rf.map R) + sqNorm (rg.map R) = T at *
    obtain ⟨m5, m6⟩ := m3
    obtain ⟨s3, s4⟩ := s2
    clear * - m5 m6 s3 s4 m4 t1 T0 h3
    norm_num at *
    linarith
  -- Parseval
  have par : ‖evalR (rf.map R) w‖ ^ 2 + ‖evalR (rg.map R) w‖ ^ 2 ≤ 13 / 100 := by
    have one : ∀ r : List F64, r.length = 2 ^ k → ‖evalR (r.map R) w‖ ^ 2 ≤ m * sqNorm (r.map R) := by
      intro r hr
      have p := parseval k (r.map R) (by rw [List.length_map, hr])
      obtain ⟨i, hi, rfl⟩ : ∃ i < 2 ^ k, rootC k i = w := by simpa [rootsC] using hw
      rw [hm, ← p, ← Complex.normSq_eq_norm_sq]
      exact Finset.single_le_sum (f := fun i => Complex.normSq (evalR (r.map R) (rootC k i))) (fun j _ => Complex.normSq_nonneg _) (Finset.mem_range.2 hi)
    have a1 := one rf lrf
    have a2 := one rg lrg
    have q1 := sqNorm_nonneg (rf.map R)
    have q2 := sqNorm_nonneg (rg.map R)
    have a3 : m * (sqNorm (rf.map R) + sqNorm (rg.map R)) ≤ 1024 * (12 / 10 ^ 5) := mul_le_mul mk hq (by positivity) (by norm_num)
    linarith
  have la := vrf w hw dt
  have lb := vrg w hw dt
  have unit := gram_unit _ _ w d hdd d0
  rw [← t2, div_eq_mul_one_div, ← t2, div_eq_mul_one_div _ d, ← t2] at unit
  have x0 := norm_nonneg (evalR (rf.map R) w)
  have y0 := norm_nonneg (evalR (rg.map R) w)
  have a0 : 0 ≤ ‖evalR (realI (int16ToBigInt f)) w‖ * t ^ 2 := by positivity
  have b0 : 0 ≤ ‖evalR (realI (int16ToBigInt g)) w‖ * t ^ 2 := by positivity
  generalize ‖evalR (rf.map R) w‖ = x at *
  generalize ‖evalR (rg.map R) w‖ = y at *
  generalize ‖evalR (realI (int16ToBigInt f)) w‖ * t ^ 2 = a at *
  generalize ‖evalR (realI (int16ToBigInt g)) w‖ * t ^ 2 = b at *
  clear * - par unit la lb x0 y0 a0 b0 t3
  have x1 : x ≤ 1 / 2 := by nlinarith
  have y1 : y ≤ 1 / 2 := by nlinarith
  have a1 : a ≤ t / 4 := by linarith
  have b1 : b ≤ t / 4 := by linarith
  nlinarith

/-- C68 with the hypothesis that depends on the degree. -/
theorem C68_spread_degree (k : Nat) (h1 : 1 ≤ k) (h2 : k ≤ 10) (f g : List Int16) (hf : f.length = 2 ^ k) (hg : g.length = 2 ^ k) (norm : F64)
    (h : GsNorm ieeeOps (Int16ToFloat64 ieeeOps f) (Int16ToFloat64 ieeeOps g) (ieeeOps.ofInt Q) = .ok norm)
    (hlt : ieeeOps.lt (ieeeOps.mul (ieeeOps.pow2 (ieeeOps.lit 1.17)) (ieeeOps.ofInt Q)) norm = false)
    (hd : ∀ w ∈ rootsC k, ((2 : ℝ) ^ k) ^ 2 / 10 ^ 7 ≤ gramAt (int16ToBigInt f) (int16ToBigInt g) w) :
    ∀ w ∈ rootsC k, 87 / 10 ≤ gramAt (int16ToBigInt f) (int16ToBigInt g) w :=
  C68_spread k h1 h2 f g hf hg norm h hlt (C68_floor k h1 h2 f g hf hg norm h hlt hd)

/-- C68: a generated key with `|f(w)|^2 + |g(w)|^2 >= n^2/10^7` at every root of `x^n+1` has `|f(w)|^2 + |g(w)|^2 >= 8.7` there. -/
theorem C68_generated_degree (rand : Rand) (fuel : Nat) (n : UInt16) (pos : Nat) (key : PrivateKey) (pos' : Nat)
    (h : GeneratePrivateKey ieeeOps rand fuel n pos = .ok (.ok (key, pos')))
    (hd : ∀ w : ℂ, w ^ n.toNat = -1 → (n.toNat : ℝ) ^ 2 / 10 ^ 7 ≤ gramAt (int16ToBigInt key.f) (int16ToBigInt key.g) w) :
    ∀ w : ℂ, w ^ n.toNat = -1 → 87 / 10 ≤ gramAt (int16ToBigInt key.f) (int16ToBigInt key.g) w := by
  obtain ⟨⟨k, h1, h2, hn⟩, hkn, hq⟩ := GeneratePrivateKey_ok ieeeOps rand fuel n pos key pos' h
  obtain ⟨fuel', F, G, norm, r, lf, lg, en, hlt, -⟩ := NtruGen_ok ieeeOps rand fuel n pos _ pos' hq
  simp only at lf lg en
  rw [hn] at lf lg hd ⊢
  push_cast at hd
  exact fun w hw => C68_spread_degree k h1 h2 _ _ lf lg norm en hlt (fun w hw => hd w ((mem_rootsC k w).1 hw)) w ((mem_rootsC k w).2 hw)

/-- C67 with the hypothesis that depends on the degree. -/
theorem C67_generated_degree (rand : Rand) (fuel : Nat) (n : UInt16) (pos : Nat) (key : PrivateKey) (pos' : Nat)
    (h : GeneratePrivateKey ieeeOps rand fuel n pos = .ok (.ok (key, pos')))
    (hd : ∀ w : ℂ, w ^ n.toNat = -1 → (n.toNat : ℝ) ^ 2 / 10 ^ 7 ≤ gramAt (int16ToBigInt key.f) (int16ToBigInt key.g) w)
    (hgcd : ∀ Nf Ng, IsNorm n.toNat (polyZ (int16ToBigInt key.f)) Nf → IsNorm n.toNat (polyZ (int16ToBigInt key.g)) Ng →
      Int.gcd Nf Ng ≤ 2 ^ 64) :
    CongrZ n.toNat (ntruDet (int16ToBigInt key.f) (int16ToBigInt key.g) (int16ToBigInt key.F) (int16ToBigInt key.G)) (C 12289) ∧
    ∀ v ∈ key.F ++ key.G, -11000 ≤ v.toInt ∧ v.toInt ≤ 11000 :=
  C67_generated rand fuel n pos key pos' h (fun w hw => le_trans (by norm_num) (C68_generated_degree rand fuel n pos key pos' h hd w hw)) hgcd

/-- The value of `|f(w)|^2` at a root of `x^4+1`. -/
theorem normSq_four (a b c d : ℝ) (w : ℂ) (hw : w ^ 4 = -1) :
    Complex.normSq (evalR [a, b, c, d] w) = a ^ 2 + b ^ 2 + c ^ 2 + d ^ 2 + (a * b + b * c + c * d - a * d) * (2 * w.re) ∧ (2 * w.re) ^ 2 = 2 := by
  obtain ⟨x, y⟩ := w
  have h := hw
  rw [show (4 : Nat) = 2 * 2 from rfl, pow_mul, ← Complex.I_sq, sq_eq_sq_iff_eq_or_eq_neg] at h
  have hxy : x * x - y * y = 0 ∧ 4 * (x * y) ^ 2 = 1 := by
    rcases h with h | h
    all_goals
      rw [pow_two, Complex.ext_iff] at h
      simp at h
      obtain ⟨h3, h4⟩ := h
      refine ⟨h3, ?_⟩
      have h5 : 2 * (x * y) = 1 ∨ 2 * (x * y) = -1 := by
        first
        | left; linarith
        | right; linarith
      rcases h5 with h5 | h5
      all_goals
        have : 4 * (x * y) ^ 2 = (2 * (x * y)) ^ 2 := by ring
        rw [this, h5]
        norm_num
  obtain ⟨h3, h4⟩ := hxy
  have e : y * y = x * x := by linarith
  have x4 : 4 * (x * x) ^ 2 = 1 := by
    have : (x * y) ^ 2 = (x * x) * (y * y) := by ring
    rw [this, e] at h4
    linarith
  have x2 : x * x = 1 / 2 := by nlinarith [mul_self_nonneg x]
  have y2 : y * y = 1 / 2 := by linarith
  constructor
  · have hy : y = x ∨ y = -x := by
      rw [← sq_eq_sq_iff_eq_or_eq_neg]
      nlinarith
    have ev : evalR [a, b, c, d] (⟨x, y⟩ : ℂ) = a + b * ⟨x, y⟩ + (⟨x, y⟩ : ℂ) ^ 2 * (c + d * ⟨x, y⟩) := by
      have e0 : evalR [] (⟨x, y⟩ : ℂ) = 0 := by simp [evalR]
      simp only [evalR_cons, e0]
      ring
    rw [ev]
    rcases hy with rfl | rfl
    · have sq : (⟨y, y⟩ : ℂ) ^ 2 = ⟨0, 1⟩ := by
        rw [pow_two, Complex.ext_iff]
        simp
        linarith
      rw [sq, Complex.normSq_apply]
      simp
      linear_combination (2 * b ^ 2 + 2 * d ^ 2) * x2
    · have sq : (⟨x, -x⟩ : ℂ) ^ 2 = ⟨0, -1⟩ := by
        rw [pow_two, Complex.ext_iff]
        simp
        linarith
      rw [sq, Complex.normSq_apply]
      simp
      linear_combination (2 * b ^ 2 + 2 * d ^ 2) * x2
  · simp only
    linarith

/-- A short non-zero pair at degree 4: the product of the two values of `|f(w)|^2 + |g(w)|^2` is a positive integer. -/
theorem gram_four_gen (f g : List Int) (hf : f.length = 4) (hg : g.length = 4) (hne : ∃ v ∈ f ++ g, v ≠ 0)
    (M : ℝ) (hM : 0 < M) (hn : sqNorm (realI f) + sqNorm (realI g) ≤ M) (w : ℂ) (hw : w ^ 4 = -1) : 1 / (2 * M) ≤ gramAt f g w := by
  match f, hf, g, hg with
  | [a, b, c, d], _, [a', b', c', d'], _ =>
    obtain ⟨p1, hs⟩ := normSq_four a b c d w hw
    obtain ⟨p2, -⟩ := normSq_four a' b' c' d' w hw
    obtain ⟨q1, -⟩ := normSq_four a b c d (-w) (by rw [neg_pow, hw]; norm_num)
    obtain ⟨q2, -⟩ := normSq_four a' b' c' d' (-w) (by rw [neg_pow, hw]; norm_num)
    rw [Complex.neg_re] at q1 q2
    set s := 2 * w.re with hsd
    set A : Int := a ^ 2 + b ^ 2 + c ^ 2 + d ^ 2 + (a' ^ 2 + b' ^ 2 + c' ^ 2 + d' ^ 2) with hA
    set B : Int := a * b + b * c + c * d - a * d + (a' * b' + b' * c' + c' * d' - a' * d') with hB
    have g1 : gramAt [a, b, c, d] [a', b', c', d'] w = A + B * s := by
      unfold gramAt
      rw [show realI [a, b, c, d] = [(a : ℝ), b, c, d] from rfl, show realI [a', b', c', d'] = [(a' : ℝ), b', c', d'] from rfl, p1, p2, hA, hB]
      push_cast
      ring
    have g2 : gramAt [a, b, c, d] [a', b', c', d'] (-w) = A - B * s := by
      unfold gramAt
      rw [show realI [a, b, c, d] = [(a : ℝ), b, c, d] from rfl, show realI [a', b', c', d'] = [(a' : ℝ), b', c', d'] from rfl, q1, q2, hA, hB, hsd]
      push_cast
      ring
    have n1 : 0 ≤ (A : ℝ) + B * s := by rw [← g1]; exact add_nonneg (Complex.normSq_nonneg _) (Complex.normSq_nonneg _)
    have n2 : 0 ≤ (A : ℝ) - B * s := by rw [← g2]; exact add_nonneg (Complex.normSq_nonneg _) (Complex.normSq_nonneg _)
    have hAle : (A : ℝ) ≤ M := by
      refine le_trans (le_of_eq ?_) hn
      rw [hA]
      simp [sqNorm, realI]
      ring
    have hA0 : A ≠ 0 := by
      intro h0
      obtain ⟨v, hv, hv0⟩ := hne
      apply hv0
      have z : ∀ x : Int, x ^ 2 ≤ A → x = 0 := by
        intro x hx
        rw [h0] at hx
        nlinarith [sq_nonneg x]
      have s1 := sq_nonneg a
      have s2 := sq_nonneg b
      have s3 := sq_nonneg c
      have s4 := sq_nonneg d
      have s5 := sq_nonneg a'
      have s6 := sq_nonneg b'
      have s7 := sq_nonneg c'
      have s8 := sq_nonneg d'
      simp only [List.cons_append, List.nil_append, List.mem_cons, List.not_mem_nil, or_false] at hv
      apply z
      rcases hv with rfl | rfl | rfl | rfl | rfl | rfl | rfl | rfl <;> omega
    have pr : ((A : ℝ) + B * s) * (A - B * s) = ((A ^ 2 - 2 * B ^ 2 : Int) : ℝ) := by
      push_cast
      linear_combination -(B : ℝ) ^ 2 * hs
    have pos : 1 ≤ A ^ 2 - 2 * B ^ 2 := by
      have h0 : (0 : ℝ) ≤ ((A ^ 2 - 2 * B ^ 2 : Int) : ℝ) := by rw [← pr]; positivity
      have h0' : 0 ≤ A ^ 2 - 2 * B ^ 2 := by exact_mod_cast h0
      have hne2 : A ^ 2 - 2 * B ^ 2 ≠ 0 := by
        intro h3
        have hB0 : B ≠ 0 := by
          rintro hB0
          rw [hB0] at h3
          exact hA0 (by simpa using h3)
        apply irrational_sqrt_two
        refine ⟨|(A / B : ℚ)|, ?_⟩
        push_cast
        rw [eq_comm, Real.sqrt_eq_iff_mul_self_eq (by norm_num) (abs_nonneg _), abs_mul_abs_self]
        have hBr : (B : ℝ) ≠ 0 := by exact_mod_cast hB0
        have h4 : (A : ℝ) ^ 2 - 2 * (B : ℝ) ^ 2 = 0 := by exact_mod_cast h3
        field_simp
        linarith
      omega
    have posR : (1 : ℝ) ≤ ((A ^ 2 - 2 * B ^ 2 : Int) : ℝ) := by exact_mod_cast pos
    rw [← pr] at posR
    rw [g1]
    have h5 : ((A : ℝ) + B * s) * (A - B * s) ≤ ((A : ℝ) + B * s) * (2 * M) := mul_le_mul_of_nonneg_left (by linarith) n1
    rw [div_le_iff₀ (by positivity)]
    linarith

theorem gram_four (f g : List Int) (hf : f.length = 4) (hg : g.length = 4) (hne : ∃ v ∈ f ++ g, v ≠ 0)
    (hn : sqNorm (realI f) + sqNorm (realI g) ≤ 16822) (w : ℂ) (hw : w ^ 4 = -1) : 1 / 33644 ≤ gramAt f g w :=
  le_trans (by norm_num) (gram_four_gen f g hf hg hne 16822 (by norm_num) hn w hw)

/-- C68 at degree 4 in IEEE arithmetic, without hypotheses on the values at the roots: an accepted non-zero pair has `|f(w)|^2 + |g(w)|^2 >= 8.7` at every root. -/
theorem C68_degree4 (f g : List Int16) (hf : f.length = 4) (hg : g.length = 4) (hne : ∃ v ∈ f ++ g, v ≠ 0) (norm : F64)
    (h : GsNorm ieeeOps (Int16ToFloat64 ieeeOps f) (Int16ToFloat64 ieeeOps g) (ieeeOps.ofInt Q) = .ok norm)
    (hlt : ieeeOps.lt (ieeeOps.mul (ieeeOps.pow2 (ieeeOps.lit 1.17)) (ieeeOps.ofInt Q)) norm = false) (w : ℂ) (hw : w ^ 4 = -1) :
    87 / 10 ≤ gramAt (int16ToBigInt f) (int16ToBigInt g) w := by
  refine C68_spread_degree 2 (by decide) (by decide) f g hf hg norm h hlt ?_ w ((mem_rootsC 2 w).2 hw)
  intro v hv
  refine le_trans (by norm_num) (gram_four _ _ (by simp [int16ToBigInt, hf]) (by simp [int16ToBigInt, hg]) ?_ (C68_first 2 (by decide) f g hf hg norm h hlt) v
    ((mem_rootsC 2 v).1 hv))
  obtain ⟨x, hx, h0⟩ := hne
  refine ⟨x.toInt, ?_, fun h3 => h0 (Int16.toInt_inj.1 h3)⟩
  rw [int16ToBigInt, int16ToBigInt, ← List.map_append]
  exact List.mem_map_of_mem hx

/-- C42 at degree 4 in IEEE arithmetic, without hypotheses: every generated key satisfies the NTRU equation over the integers, and the coefficients of
`F` and `G` are at most 11000. -/
theorem C42_degree4 (rand : Rand) (fuel pos : Nat) (key : PrivateKey) (pos' : Nat) (h : GeneratePrivateKey ieeeOps rand fuel 4 pos = .ok (.ok (key, pos'))) :
    CongrZ 4 (ntruDet (int16ToBigInt key.f) (int16ToBigInt key.g) (int16ToBigInt key.F) (int16ToBigInt key.G)) (C 12289) ∧
    ∀ v ∈ key.F ++ key.G, -11000 ≤ v.toInt ∧ v.toInt ≤ 11000 := by
  refine C42_small_ieee rand fuel 4 pos key pos' (by decide) h fun w hw => le_trans (by norm_num : (1 : ℝ) / 10 ≤ 87 / 10) ?_
  obtain ⟨⟨k, h1, h2, hn⟩, hkn, hq⟩ := GeneratePrivateKey_ok ieeeOps rand fuel 4 pos key pos' h
  obtain ⟨fuel', F, G, norm, r, lf, lg, en, hlt, -⟩ := NtruGen_ok ieeeOps rand fuel 4 pos _ pos' hq
  simp only at lf lg en
  refine C68_degree4 key.f key.g lf lg ?_ norm en hlt w hw
  obtain ⟨⟨u, c, hc⟩, -⟩ := C43_public_key ieeeOps rand fuel 4 pos key pos' h
  by_contra hz
  push Not at hz
  have z : polyQ key.f = 0 := by
    have e : key.f = List.replicate 4 0 := List.eq_replicate_iff.2 ⟨lf, fun v hv => hz v (List.mem_append_left _ hv)⟩
    rw [e]
    simp [polyQ, zq]
  rw [z, zero_mul, zero_sub] at hc
  have hd : (X ^ (4 : UInt16).toNat + 1 : Zq[X]) ∣ 1 := ⟨-c, by linear_combination -hc⟩
  have h3 := natDegree_eq_zero_of_isUnit (isUnit_of_dvd_one hd)
  have h4 : (X ^ (4 : UInt16).toNat + 1 : Zq[X]).natDegree = 4 := natDegree_X_pow_add_C (n := 4) (r := (1 : Zq))
  omega

/-! ## A run at degree 4 -/

theorem NtruGen_key (O : FloatOps) (rand : Rand) (fuel : Nat) (n : UInt16) (pos p1 p2 : Nat) (f g : List Int16) (norm : O.F) (t : List Int16) (F G : List Int)
    (e1 : GenPoly O rand (fuel + 1) n pos = .ok (f, p1)) (e2 : GenPoly O rand (fuel + 1) n p1 = .ok (g, p2))
    (hn : GsNorm O (Int16ToFloat64 O f) (Int16ToFloat64 O g) (O.ofInt Q) = .ok norm) (ht : NTT wrap64 f = .ok t)
    (hlt : O.lt (O.mul (O.pow2 (O.lit 1.17)) (O.ofInt Q)) norm = false) (hz : anyZeroes t = false)
    (hs : NtruSolve O (fuel + 1) (int16ToBigInt f) (int16ToBigInt g) = .ok (some (F, G))) :
    NtruGen O rand (fuel + 1) n pos = .ok (⟨f, g, bigIntToInt16 F, bigIntToInt16 G⟩, p2) := by
  rw [NtruGen_step O rand fuel n pos p1 p2 f g norm t e1 e2 hn ht, hlt, hz, hs]
  rfl

/-- Some source of 8192 draws leads key generation to a key of degree 4 with the first component `72 + 5x - 3x^2 + 11x^3`. -/
theorem run_four : ∃ d : Fin 8192 → Draw, GeneratePrivateKey ieeeOps (source d) 50 4 0 =
    .ok (.ok (⟨4, [72, 5, -3, 11], [60, 31, 7, -20], [-53, 20, 3, 36], [115, -14, 26, 28]⟩, 8192)) := by
  obtain ⟨d, hd⟩ := C73_source key_ieee 4 (by decide) (by decide) [72, 5, -3, 11] [60, 31, 7, -20] rfl rfl (by decide) (by decide)
  obtain ⟨e1, e2⟩ := hd 49
  obtain ⟨norm, hn, hlt⟩ : ∃ norm, GsNorm ieeeOps (Int16ToFloat64 ieeeOps [72, 5, -3, 11]) (Int16ToFloat64 ieeeOps [60, 31, 7, -20]) (ieeeOps.ofInt Q) = .ok norm ∧
      ieeeOps.lt (ieeeOps.mul (ieeeOps.pow2 (ieeeOps.lit 1.17)) (ieeeOps.ofInt Q)) norm = false := by
    have h : (GsNorm ieeeOps (Int16ToFloat64 ieeeOps [72, 5, -3, 11]) (Int16ToFloat64 ieeeOps [60, 31, 7, -20]) (ieeeOps.ofInt Q)).bind (fun norm =>
      .ok (ieeeOps.lt (ieeeOps.mul (ieeeOps.pow2 (ieeeOps.lit 1.17)) (ieeeOps.ofInt Q)) norm)) = .ok false := by decide +kernel
    obtain ⟨norm, h1, h2⟩ := Go.bind_eq_ok.1 h
    exact ⟨norm, h1, Go.ok.inj h2⟩
  obtain ⟨t, ht, hz⟩ : ∃ t, NTT wrap64 [72, 5, -3, 11] = .ok t ∧ anyZeroes t = false := by
    have h : (NTT wrap64 [72, 5, -3, 11]).bind (fun t => .ok (anyZeroes t)) = .ok false := by decide +kernel
    obtain ⟨t, h1, h2⟩ := Go.bind_eq_ok.1 h
    exact ⟨t, h1, Go.ok.inj h2⟩
  have hs : NtruSolve ieeeOps 50 [72, 5, -3, 11] [60, 31, 7, -20] = .ok (some ([-53, 20, 3, 36], [115, -14, 26, 28])) := by decide +kernel
  refine ⟨d, ?_⟩
  unfold GeneratePrivateKey
  rw [if_neg (by decide), NtruGen_key ieeeOps (source d) 49 4 0 4096 8192 _ _ norm t _ _ e1 e2 hn ht hlt hz hs]
  rfl

example : CongrZ 4 (ntruDet [72, 5, -3, 11] [60, 31, 7, -20] [-53, 20, 3, 36] [115, -14, 26, 28]) (C 12289) := by
  obtain ⟨d, h⟩ := run_four
  exact (C42_degree4 (source d) 50 0 _ _ h).1

/-- The smallest value for this key is above 8.7, as `C68_generated_degree` says: its hypothesis follows from `gram_four`. -/
example (w : ℂ) (hw : w ^ 4 = -1) : 87 / 10 ≤ gramAt [72, 5, -3, 11] [60, 31, 7, -20] w := by
  obtain ⟨d, h⟩ := run_four
  have low (v : ℂ) (hv : v ^ 4 = -1) := gram_four [72, 5, -3, 11] [60, 31, 7, -20] rfl rfl ⟨72, by decide, by decide⟩ (by norm_num [sqNorm, realI]) v hv
  have g := C68_generated_degree (source d) 50 4 0 _ _ h
  rw [show (4 : UInt16).toNat = 4 from rfl] at g
  exact g (fun v hv => le_trans (by norm_num) (low v hv)) w hw

end Falcon
