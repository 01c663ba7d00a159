import Verif.Lemmas.GsNear
import Verif.Props.Keygen
/-!
# The quality check of key generation in IEEE arithmetic (C68)
-/

namespace Falcon
open Spec Polynomial ComplexConjugate F64

theorem Biggest_ieee_variant (va : Variant) (x y : F64) : BiggestFloat64 va.ops [x, y] = .ok (if F64.lt x y then y else x) := by
  unfold BiggestFloat64
  have h : F64.lt x x = false := by
    unfold F64.lt
    cases x <;> simp [isNaN, isInf, F64.sign]
  simp [idx, h]

theorem Biggest_ieee (x y : F64) : BiggestFloat64 ieeeOps [x, y] = .ok (if F64.lt x y then y else x) :=
  Biggest_ieee_variant amd64V x y

/-- The bound of the check, `1.17^2 q` as computed. -/
theorem bound_ieee : (ieeeOps.mul (ieeeOps.pow2 (ieeeOps.lit 1.17)) (ieeeOps.ofInt Q)).isFinite = true ∧
    R (ieeeOps.mul (ieeeOps.pow2 (ieeeOps.lit 1.17)) (ieeeOps.ofInt Q)) ≤ 1682242 / 100 := by
  have h : (ieeeOps.mul (ieeeOps.pow2 (ieeeOps.lit 1.17)) (ieeeOps.ofInt Q)).isFinite = true ∧
    (ieeeOps.mul (ieeeOps.pow2 (ieeeOps.lit 1.17)) (ieeeOps.ofInt Q) : F64).val ≤ 1682242 / 100 := by decide +kernel
  refine ⟨h.1, ?_⟩
  have := h.2
  unfold R
  have h2 : (((ieeeOps.mul (ieeeOps.pow2 (ieeeOps.lit 1.17)) (ieeeOps.ofInt Q) : F64).val : ℚ) : ℝ) ≤ ((1682242 / 100 : ℚ) : ℝ) := by exact_mod_cast this
  push_cast at h2
  exact h2

/-- The first norm is bounded whatever the second one is. -/
theorem accept_first (b x y : F64) (hb : b.isFinite = true) (hx : x.isFinite = true) (h : F64.lt b (if F64.lt x y then y else x) = false) : R x ≤ R b := by
  by_cases hxy : F64.lt x y = true
  · rw [if_pos hxy] at h
    obtain ⟨x1, x2⟩ := finite_flags x hx
    obtain ⟨b1, b2⟩ := finite_flags b hb
    by_cases hy : y.isFinite = true
    · have h3 := (lt_fin x y hx hy).1 hxy
      by_contra hc
      push Not at hc
      have := (lt_fin b y hb hy).2 (by linarith)
      rw [this] at h
      exact absurd h (by decide)
    · exfalso
      cases y with
      | nan => simp [F64.lt, isNaN] at hxy
      | inf s =>
        have i1 : (F64.inf s).isNaN = false := rfl
        have i2 : (F64.inf s).isInf = true := rfl
        unfold F64.lt at hxy h
        rw [x1, x2, i1, i2] at hxy
        rw [b1, b2, i1, i2] at h
        simp only [Bool.or_self, Bool.false_eq_true, if_false, if_true] at hxy h
        rw [hxy] at h
        exact absurd h (by decide)
      | zero s => exact hy rfl
      | fin q => exact hy rfl
  · rw [if_neg hxy] at h
    by_contra hc
    push Not at hc
    rw [(lt_fin b x hb hx).2 hc] at h
    exact absurd h (by decide)

theorem accept_second (b x y : F64) (hb : b.isFinite = true) (hx : x.isFinite = true) (hy : y.isFinite = true)
    (h : F64.lt b (if F64.lt x y then y else x) = false) : R y ≤ R b := by
  by_cases hxy : F64.lt x y = true
  · rw [if_pos hxy] at h
    by_contra hc
    push Not at hc
    rw [(lt_fin b y hb hy).2 hc] at h
    exact absurd h (by decide)
  · rw [if_neg hxy] at h
    have h1 : ¬ R x < R y := fun hc => hxy ((lt_fin x y hx hy).2 hc)
    have h2 : ¬ R b < R x := fun hc => by rw [(lt_fin b x hb hx).2 hc] at h; exact absurd h (by decide)
    linarith

theorem int16_ieee_variant (va : Variant) (f : List Int16) : (∀ x ∈ Int16ToFloat64 va.ops f, x.isFinite = true) ∧ (Int16ToFloat64 va.ops f).map R = realI (int16ToBigInt f) ∧
    ∀ x ∈ realI (int16ToBigInt f), |x| ≤ 2 ^ 15 := by
  have b : ∀ x : Int16, -(2 ^ 53) ≤ x.toInt ∧ x.toInt ≤ 2 ^ 53 := fun x => by
    have := x.toInt_lt
    have := x.le_toInt
    omega
  refine ⟨?_, ?_, ?_⟩
  · intro y hy
    obtain ⟨x, _, rfl⟩ := List.mem_map.1 hy
    exact (ofInt_near _ (b x).1 (b x).2).1
  · unfold Int16ToFloat64 realI int16ToBigInt
    rw [List.map_map, List.map_map]
    exact List.map_congr_left fun x _ => (ofInt_near _ (b x).1 (b x).2).2
  · intro y hy
    unfold realI int16ToBigInt at hy
    rw [List.map_map] at hy
    obtain ⟨x, _, rfl⟩ := List.mem_map.1 hy
    have h1 := x.toInt_lt
    have h2 := x.le_toInt
    show |(x.toInt : ℝ)| ≤ 2 ^ 15
    rw [abs_le]
    constructor
    · have : -(2 ^ 15 : Int) ≤ x.toInt := by omega
      exact_mod_cast this
    · have : x.toInt ≤ 2 ^ 15 := by omega
      exact_mod_cast this

theorem int16_ieee (f : List Int16) : (∀ x ∈ Int16ToFloat64 ieeeOps f, x.isFinite = true) ∧ (Int16ToFloat64 ieeeOps f).map R = realI (int16ToBigInt f) ∧
    ∀ x ∈ realI (int16ToBigInt f), |x| ≤ 2 ^ 15 :=
  int16_ieee_variant amd64V f

theorem sqNorm_le_length (f : List ℝ) (M : ℝ) (hM : ∀ x ∈ f, |x| ≤ M) : sqNorm f ≤ f.length * M ^ 2 := by
  induction f with
  | nil => simp [sqNorm]
  | cons a f ih =>
    have e : sqNorm (a :: f) = a ^ 2 + sqNorm f := by simp [sqNorm]
    simp only [List.forall_mem_cons] at hM
    have := ih hM.2
    have h2 := pow_le_pow_left₀ (abs_nonneg a) hM.1 2
    rw [sq_abs] at h2
    rw [e, List.length_cons]
    push_cast
    linarith

theorem sqNorm_int (f : List Int) : ∃ m : Int, sqNorm (realI f) = m := by
  induction f with
  | nil => exact ⟨0, by simp [sqNorm, realI]⟩
  | cons a f ih =>
    obtain ⟨m, hm⟩ := ih
    refine ⟨a ^ 2 + m, ?_⟩
    have e : sqNorm (realI (a :: f)) = (a : ℝ) ^ 2 + sqNorm (realI f) := by simp [sqNorm, realI]
    rw [e, hm]
    push_cast
    ring

/-- `C68_first` for every variant of the arithmetic. -/
theorem variant_C68_first (va : Variant) (k : Nat) (h2 : k ≤ 10) (f g : List Int16) (hf : f.length = 2 ^ k) (hg : g.length = 2 ^ k) (norm : F64)
    (h : GsNorm va.ops (Int16ToFloat64 va.ops f) (Int16ToFloat64 va.ops g) (va.ops.ofInt Q) = .ok norm)
    (hlt : va.ops.lt (va.ops.mul (va.ops.pow2 (va.ops.lit 1.17)) (va.ops.ofInt Q)) norm = false) :
    sqNorm (realI (int16ToBigInt f)) + sqNorm (realI (int16ToBigInt g)) ≤ 16822 := by
  obtain ⟨f1, f2, f3⟩ := (int16_ieee_variant va) f
  obtain ⟨g1, g2, g3⟩ := (int16_ieee_variant va) g
  have k2 : (2 : Nat) ^ k ≤ 1024 := (Nat.pow_le_pow_right (by decide) h2).trans (by decide)
  have len : ∀ l : List Int16, (realI (int16ToBigInt l)).length = l.length := fun l => by simp [realI, int16ToBigInt]
  have up : ∀ l : List Int16, l.length = 2 ^ k → (∀ x ∈ realI (int16ToBigInt l), |x| ≤ 2 ^ 15) → sqNorm (realI (int16ToBigInt l)) ≤ 1024 * 2 ^ 30 := by
    intro l hl hb
    have := sqNorm_le_length _ _ hb
    rw [len, hl] at this
    have hk : (((2 : Nat) ^ k : Nat) : ℝ) ≤ 1024 := by exact_mod_cast k2
    have := mul_le_mul_of_nonneg_right hk (by norm_num : (0 : ℝ) ≤ (2 ^ 15) ^ 2)
    norm_num at *
    linarith
  have uf := up f hf f3
  have ug := up g hg g3
  obtain ⟨s1, s2⟩ := (Sqnorm_near_variant va) (Int16ToFloat64 va.ops f) (Int16ToFloat64 va.ops g) f1 g1 (by simp only [Int16ToFloat64, List.length_map]; omega)
    (by simp only [Int16ToFloat64, List.length_map]; omega) (by rw [f2, g2]; norm_num at *; linarith)
  rw [f2, g2] at s2
  unfold GsNorm at h
  obtain ⟨_, -, h⟩ := Go.bind_eq_ok.1 h
  obtain ⟨_, -, h⟩ := Go.bind_eq_ok.1 h
  obtain ⟨_, -, h⟩ := Go.bind_eq_ok.1 h
  obtain ⟨_, -, h⟩ := Go.bind_eq_ok.1 h
  obtain ⟨_, -, h⟩ := Go.bind_eq_ok.1 h
  obtain ⟨_, -, h⟩ := Go.bind_eq_ok.1 h
  obtain ⟨_, -, h⟩ := Go.bind_eq_ok.1 h
  rw [(Biggest_ieee_variant va), Go.ok.injEq] at h
  rw [← h] at hlt
  have h3 := accept_first _ _ _ bound_ieee.1 s1 hlt
  have h4 := bound_ieee.2
  obtain ⟨m, hm⟩ := sqNorm_int (int16ToBigInt f)
  obtain ⟨m', hm'⟩ := sqNorm_int (int16ToBigInt g)
  rw [hm] at uf
  rw [hm'] at ug
  rw [hm, hm'] at s2 ⊢
  rw [abs_le] at s2
  have h5 : (m : ℝ) + m' < 16823 := by norm_num at *; linarith
  have h6 : m + m' < 16823 := by exact_mod_cast h5
  have h7 : m + m' ≤ 16822 := by omega
  exact_mod_cast h7

/-- C68: a pair accepted by the IEEE check has squared norm at most 16822, the largest integer below `1.17^2 q`, whatever the value computed
for the second Gram-Schmidt vector. -/
theorem C68_first (k : Nat) (h2 : k ≤ 10) (f g : List Int16) (hf : f.length = 2 ^ k) (hg : g.length = 2 ^ k) (norm : F64)
    (h : GsNorm ieeeOps (Int16ToFloat64 ieeeOps f) (Int16ToFloat64 ieeeOps g) (ieeeOps.ofInt Q) = .ok norm)
    (hlt : ieeeOps.lt (ieeeOps.mul (ieeeOps.pow2 (ieeeOps.lit 1.17)) (ieeeOps.ofInt Q)) norm = false) :
    sqNorm (realI (int16ToBigInt f)) + sqNorm (realI (int16ToBigInt g)) ≤ 16822 :=
  variant_C68_first amd64V k h2 f g hf hg norm h hlt

/-- The computed norms of a short pair. -/
theorem gs_calc_variant (va : Variant) (k : Nat) (h1 : 1 ≤ k) (h2 : k ≤ 10) (f g : List Int16) (hf : f.length = 2 ^ k) (hg : g.length = 2 ^ k)
    (hn : sqNorm (realI (int16ToBigInt f)) + sqNorm (realI (int16ToBigInt g)) ≤ 16822)
    (t : ℝ) (ht : 1 / 10 ≤ t) (ht2 : t ≤ 3163 / 1000) (hd : ∀ w ∈ rootsC k, 1 ≤ gramAt (int16ToBigInt f) (int16ToBigInt g) w * t ^ 2) :
    ∃ (κf κg : List ℝ) (rf rg : List F64) (x y : F64), κf.length = 2 ^ k ∧ κg.length = 2 ^ k ∧
      (GsNorm va.ops (Int16ToFloat64 va.ops f) (Int16ToFloat64 va.ops g) (va.ops.ofInt Q) = .ok (if F64.lt x y then y else x) ∧
        x.isFinite = true ∧ y.isFinite = true ∧ |R x - (sqNorm (realI (int16ToBigInt f)) + sqNorm (realI (int16ToBigInt g)))| ≤ 1 / 1000 ∧
        |R y - 151019521 * (sqNorm (rf.map R) + sqNorm (rg.map R))| ≤ 1 / 10 ^ 9 * (151019521 * (sqNorm (rf.map R) + sqNorm (rg.map R))) + 1 / 10 ^ 60) ∧
      List.Forall₂ (RNear (7 / 10 ^ 7 * t ^ 3)) rf κf ∧ List.Forall₂ (RNear (7 / 10 ^ 7 * t ^ 3)) rg κg ∧
      ∀ w ∈ rootsC k, ∀ d, d = gramAt (int16ToBigInt f) (int16ToBigInt g) w →
        (∀ a, a = ‖evalR (realI (int16ToBigInt f)) w‖ / d → ‖evalR κf w - conj (evalR (realI (int16ToBigInt f)) w) / (d : ℂ)‖ ≤ 33 / 10 ^ 4 * a / d + 33 / 10 ^ 8 / d) ∧
        ∀ b, b = ‖evalR (realI (int16ToBigInt g)) w‖ / d → ‖evalR κg w - conj (evalR (realI (int16ToBigInt g)) w) / (d : ℂ)‖ ≤ 33 / 10 ^ 4 * b / d + 33 / 10 ^ 8 / d := by
  obtain ⟨f1, f2, f3⟩ := (int16_ieee_variant va) f
  obtain ⟨g1, g2, g3⟩ := (int16_ieee_variant va) g
  have k2 : (2 : Nat) ^ k ≤ 1024 := (Nat.pow_le_pow_right (by decide) h2).trans (by decide)
  have lf : (Int16ToFloat64 va.ops f).length = 2 ^ k := by rw [Int16ToFloat64, List.length_map, hf]
  have lg : (Int16ToFloat64 va.ops g).length = 2 ^ k := by rw [Int16ToFloat64, List.length_map, hg]
  obtain ⟨-, -, -, hS⟩ := short_l1 k h2 (int16ToBigInt f) (int16ToBigInt g) (by simp [int16ToBigInt, hf]) (by simp [int16ToBigInt, hg])
    (hn.trans (by norm_num))
  obtain ⟨af, pf, ag, pg, D, e1, e2, e3, e4, e5, laf, lag, lD, faf, fag, fD, baf, bag, bD, vaf, vag, vD⟩ :=
    (gram_near_variant va) k h1 h2 _ _ lf lg f1 g1 _ _ le_rfl le_rfl (by rw [f2, g2]; exact hS) (by rw [f2, g2]; exact hn.trans (by norm_num))
  rw [f2] at vaf vD
  rw [g2] at vag vD
  have nn := fun (l : List ℝ) (w : ℂ) => Complex.normSq_nonneg (evalR l w)
  obtain ⟨κf, rf, lκf, erf, nrf, vκf⟩ := (quot_near_variant va) k h1 h2 (realI (int16ToBigInt f)) (gramAt (int16ToBigInt f) (int16ToBigInt g)) af D laf lD faf fD baf bD vaf vD
    t ht ht2 hd (fun w _ => by unfold gramAt; linarith [nn (realI (int16ToBigInt g)) w])
  obtain ⟨κg, rg, lκg, erg, nrg, vκg⟩ := (quot_near_variant va) k h1 h2 (realI (int16ToBigInt g)) (gramAt (int16ToBigInt f) (int16ToBigInt g)) ag D lag lD fag fD bag bD vag vD
    t ht ht2 hd (fun w _ => by unfold gramAt; linarith [nn (realI (int16ToBigInt f)) w])
  refine ⟨κf, κg, rf, rg, Sqnorm va.ops [Int16ToFloat64 va.ops f, Int16ToFloat64 va.ops g],
    va.ops.mul (va.ops.pow2 (va.ops.ofInt Q)) (Sqnorm va.ops [rf, rg]), lκf, lκg, ?_, nrf, nrg, fun w hw d hdd => ⟨fun a ha => ?_, fun b hb => ?_⟩⟩
  · -- no overflow
    have t0 : 0 < t := by linarith
    have bound : ∀ (r : List F64) (κ : List ℝ) (u : List ℝ), κ.length = 2 ^ k → List.Forall₂ (RNear (7 / 10 ^ 7 * t ^ 3)) r κ →
        (∀ w ∈ rootsC k, Complex.normSq (evalR u w) ≤ gramAt (int16ToBigInt f) (int16ToBigInt g) w) →
        (∀ w ∈ rootsC k, ‖evalR κ w - conj (evalR u w) / (gramAt (int16ToBigInt f) (int16ToBigInt g) w : ℂ)‖ ≤
          33 / 10 ^ 4 * (‖evalR u w‖ / gramAt (int16ToBigInt f) (int16ToBigInt g) w) / gramAt (int16ToBigInt f) (int16ToBigInt g) w +
            33 / 10 ^ 8 / gramAt (int16ToBigInt f) (int16ToBigInt g) w) → sqNorm (r.map R) ≤ 1024 * 10 ^ 10 := by
      intro r κ u lκ nr hu hv
      have t3 : t ^ 3 ≤ 4 ^ 3 := pow_le_pow_left₀ t0.le (by linarith) 3
      have c := coef_le k κ lκ (10 ^ 4) (by norm_num) (by
        intro w hw
        have h3 := hv w hw
        have h4 := hu w hw
        have h5 := hd w hw
        generalize gramAt (int16ToBigInt f) (int16ToBigInt g) w = d at h3 h4 h5
        have d1 : 998 / 10000 ≤ d := by nlinarith
        have d0 : 0 < d := by linarith
        rw [Complex.normSq_eq_norm_sq] at h4
        have h6 : ‖evalR u w‖ / d ≤ 100 := by
          rw [div_le_iff₀ d0]
          apply (abs_le_of_sq_le_sq' _ (by positivity)).2
          nlinarith
        have h6' : 0 ≤ ‖evalR u w‖ / d := by positivity
        have h7 : 33 / 10 ^ 4 * (‖evalR u w‖ / d) / d ≤ 33 / 10 ^ 4 * 100 / (998 / 10000) := by
          apply div_le_div₀ (by norm_num) (by linarith) (by norm_num) d1
        have h8 : (33 : ℝ) / 10 ^ 8 / d ≤ 33 / 10 ^ 8 / (998 / 10000) := by
          apply div_le_div₀ (by norm_num) le_rfl (by norm_num) d1
        have h9 := norm_sub_norm_le (evalR κ w) (conj (evalR u w) / (d : ℂ))
        rw [norm_div, Complex.norm_conj, Complex.norm_real, Real.norm_eq_abs, abs_of_pos d0] at h9
        norm_num at h7 h8 ⊢
        linarith)
      have lr : (r.map R).length = 2 ^ k := by rw [List.length_map, nr.length_eq, lκ]
      have := sqNorm_le_length (r.map R) (10 ^ 5) (by
        intro x hx
        obtain ⟨i, hi, rfl⟩ := List.getElem_of_mem hx
        rw [List.length_map] at hi
        have hi' : i < κ.length := by rw [← nr.length_eq]; exact hi
        have h3 := nr.get hi hi'
        simp only [List.get_eq_getElem] at h3
        rw [List.getElem_map]
        have h4 := c _ (List.getElem_mem hi')
        have h5 := abs_sub_abs_le_abs_sub (R r[i]) κ[i]
        have h6 := h3.2
        norm_num at h4 t3 ⊢
        linarith)
      rw [lr] at this
      have hk : (((2 : Nat) ^ k : Nat) : ℝ) ≤ 1024 := by exact_mod_cast k2
      have h7 := mul_le_mul_of_nonneg_right hk (by norm_num : (0 : ℝ) ≤ (10 ^ 5) ^ 2)
      norm_num at h7 this ⊢
      linarith
    have bf := bound rf κf _ lκf nrf (fun w _ => by unfold gramAt; linarith [nn (realI (int16ToBigInt g)) w]) vκf
    have bg := bound rg κg _ lκg nrg (fun w _ => by unfold gramAt; linarith [nn (realI (int16ToBigInt f)) w]) vκg
    have lrf : rf.length = 2 ^ k := by rw [nrf.length_eq, lκf]
    have lrg : rg.length = 2 ^ k := by rw [nrg.length_eq, lκg]
    have q0 := sqNorm_nonneg (rf.map R)
    have q0' := sqNorm_nonneg (rg.map R)
    obtain ⟨s1, s2⟩ := (Sqnorm_near_variant va) rf rg (near_finite nrf) (near_finite nrg) (by omega) (by omega) (by norm_num at *; linarith)
    have x1 : (va.ops.pow2 (va.ops.ofInt Q)).isFinite = true ∧ (va.ops.pow2 (va.ops.ofInt Q) : F64).val = 151019521 :=
      show (ieeeOps.pow2 (ieeeOps.ofInt Q)).isFinite = true ∧ (ieeeOps.pow2 (ieeeOps.ofInt Q) : F64).val = 151019521 by decide +kernel
    have x2 : R (va.ops.pow2 (va.ops.ofInt Q)) = 151019521 := by unfold R; rw [x1.2]; norm_num
    have big := Big_ge'
    have u1 := uu_le
    have u0 := uu_pos
    have t1 := et_num
    rw [abs_le] at s2
    have S0 : |R (Sqnorm va.ops [rf, rg])| ≤ 10 ^ 20 := by rw [abs_le]; norm_num at *; constructor <;> linarith
    have am : |R (va.ops.pow2 (va.ops.ofInt Q)) * R (Sqnorm va.ops [rf, rg])| = 151019521 * |R (Sqnorm va.ops [rf, rg])| := by
      rw [abs_mul, x2]; norm_num
    obtain ⟨m1, m2⟩ := mul_near (va.ops.pow2 (va.ops.ofInt Q)) (Sqnorm va.ops [rf, rg]) x1.1 s1 (by rw [am]; norm_num at *; linarith)
    rw [am, x2] at m2
    obtain ⟨x0, x3⟩ := (Sqnorm_near_variant va) (Int16ToFloat64 va.ops f) (Int16ToFloat64 va.ops g) f1 g1 (by omega) (by omega) (by
      rw [f2, g2]
      norm_num
      linarith)
    rw [f2, g2] at x3
    refine ⟨?_, x0, m1, x3.trans ?_, ?_⟩
    · unfold GsNorm
      rw [e1, Go.ok_bind, e2, Go.ok_bind, e3, Go.ok_bind, e4, Go.ok_bind, e5, Go.ok_bind, erf, Go.ok_bind, erg, Go.ok_bind, (Biggest_ieee_variant va)]
    · norm_num at *
      linarith
    have m3 : |R (va.ops.mul (va.ops.pow2 (va.ops.ofInt Q)) (Sqnorm va.ops [rf, rg])) - 151019521 * R (Sqnorm va.ops [rf, rg])| ≤
      uu * (151019521 * |R (Sqnorm va.ops [rf, rg])|) + et := m2
    have sp : |R (Sqnorm va.ops [rf, rg])| ≤ 2 * (sqNorm (rf.map R) + sqNorm (rg.map R)) + 1 / 10 ^ 90 := by
      rw [abs_le]; norm_num at *; constructor <;> linarith
    have m4 : uu * (151019521 * |R (Sqnorm va.ops [rf, rg])|) ≤ 1 / 9 / 10 ^ 15 * (151019521 * (2 * (sqNorm (rf.map R) + sqNorm (rg.map R)) + 1 / 10 ^ 90)) :=
      mul_le_mul u1 (by linarith) (by positivity) (by norm_num)
    rw [abs_le] at m3 ⊢
    have T0 : 0 ≤ sqNorm (rf.map R) + sqNorm (rg.map R) := by linarith
    generalize R (va.ops.mul (va.ops.pow2 (va.ops.ofInt Q)) (Sqnorm va.ops [rf, rg])) = y at *
    generalize R (Sqnorm va.ops [rf, rg]) = z at *
    generalize sqNorm (rf.map R) + sqNorm (rg.map R) = T at *
    obtain ⟨m5, m6⟩ := m3
    obtain ⟨s3, s4⟩ := s2
    clear * - m5 m6 s3 s4 m4 t1 T0
    norm_num at *
    constructor <;> linarith
  · subst hdd ha
    exact vκf w hw
  · subst hdd hb
    exact vκg w hw

theorem gs_calc (k : Nat) (h1 : 1 ≤ k) (h2 : k ≤ 10) (f g : List Int16) (hf : f.length = 2 ^ k) (hg : g.length = 2 ^ k)
    (hn : sqNorm (realI (int16ToBigInt f)) + sqNorm (realI (int16ToBigInt g)) ≤ 16822)
    (t : ℝ) (ht : 1 / 10 ≤ t) (ht2 : t ≤ 3163 / 1000) (hd : ∀ w ∈ rootsC k, 1 ≤ gramAt (int16ToBigInt f) (int16ToBigInt g) w * t ^ 2) :
    ∃ (κf κg : List ℝ) (rf rg : List F64) (x y : F64), κf.length = 2 ^ k ∧ κg.length = 2 ^ k ∧
      (GsNorm ieeeOps (Int16ToFloat64 ieeeOps f) (Int16ToFloat64 ieeeOps g) (ieeeOps.ofInt Q) = .ok (if F64.lt x y then y else x) ∧
        x.isFinite = true ∧ y.isFinite = true ∧ |R x - (sqNorm (realI (int16ToBigInt f)) + sqNorm (realI (int16ToBigInt g)))| ≤ 1 / 1000 ∧
        |R y - 151019521 * (sqNorm (rf.map R) + sqNorm (rg.map R))| ≤ 1 / 10 ^ 9 * (151019521 * (sqNorm (rf.map R) + sqNorm (rg.map R))) + 1 / 10 ^ 60) ∧
      List.Forall₂ (RNear (7 / 10 ^ 7 * t ^ 3)) rf κf ∧ List.Forall₂ (RNear (7 / 10 ^ 7 * t ^ 3)) rg κg ∧
      ∀ w ∈ rootsC k, ∀ d, d = gramAt (int16ToBigInt f) (int16ToBigInt g) w →
        (∀ a, a = ‖evalR (realI (int16ToBigInt f)) w‖ / d → ‖evalR κf w - conj (evalR (realI (int16ToBigInt f)) w) / (d : ℂ)‖ ≤ 33 / 10 ^ 4 * a / d + 33 / 10 ^ 8 / d) ∧
        ∀ b, b = ‖evalR (realI (int16ToBigInt g)) w‖ / d → ‖evalR κg w - conj (evalR (realI (int16ToBigInt g)) w) / (d : ℂ)‖ ≤ 33 / 10 ^ 4 * b / d + 33 / 10 ^ 8 / d :=
  gs_calc_variant amd64V k h1 h2 f g hf hg hn t ht ht2 hd

/-- What acceptance says about the computed second Gram-Schmidt vector. -/
theorem gs_stage_variant (va : Variant) (k : Nat) (h1 : 1 ≤ k) (h2 : k ≤ 10) (f g : List Int16) (hf : f.length = 2 ^ k) (hg : g.length = 2 ^ k) (norm : F64)
    (h : GsNorm va.ops (Int16ToFloat64 va.ops f) (Int16ToFloat64 va.ops g) (va.ops.ofInt Q) = .ok norm)
    (hlt : va.ops.lt (va.ops.mul (va.ops.pow2 (va.ops.lit 1.17)) (va.ops.ofInt Q)) norm = false)
    (t : ℝ) (ht : 1 / 10 ≤ t) (ht2 : t ≤ 3163 / 1000) (hd : ∀ w ∈ rootsC k, 1 ≤ gramAt (int16ToBigInt f) (int16ToBigInt g) w * t ^ 2) :
    ∃ (κf κg : List ℝ) (rf rg : List F64), κf.length = 2 ^ k ∧ κg.length = 2 ^ k ∧ sqNorm (rf.map R) + sqNorm (rg.map R) ≤ 1113924 / 10 ^ 10 ∧
      List.Forall₂ (RNear (7 / 10 ^ 7 * t ^ 3)) rf κf ∧ List.Forall₂ (RNear (7 / 10 ^ 7 * t ^ 3)) rg κg ∧
      ∀ w ∈ rootsC k, ∀ d, d = gramAt (int16ToBigInt f) (int16ToBigInt g) w →
        (∀ a, a = ‖evalR (realI (int16ToBigInt f)) w‖ / d → ‖evalR κf w - conj (evalR (realI (int16ToBigInt f)) w) / (d : ℂ)‖ ≤ 33 / 10 ^ 4 * a / d + 33 / 10 ^ 8 / d) ∧
        ∀ b, b = ‖evalR (realI (int16ToBigInt g)) w‖ / d → ‖evalR κg w - conj (evalR (realI (int16ToBigInt g)) w) / (d : ℂ)‖ ≤ 33 / 10 ^ 4 * b / d + 33 / 10 ^ 8 / d := by
  obtain ⟨κf, κg, rf, rg, x, y, lκf, lκg, ⟨e, fx, fy, -, hy⟩, r⟩ := (gs_calc_variant va) k h1 h2 f g hf hg ((variant_C68_first va) k h2 f g hf hg norm h hlt) t ht ht2 hd
  refine ⟨κf, κg, rf, rg, lκf, lκg, ?_, r⟩
  rw [e, Go.ok.injEq] at h
  rw [← h] at hlt
  have h3 := accept_second _ _ _ bound_ieee.1 fx fy hlt
  have h5 : R y ≤ 1682242 / 100 := h3.trans bound_ieee.2
  generalize R y = y at *
  generalize sqNorm (rf.map R) + sqNorm (rg.map R) = T at *
  rw [abs_le] at hy
  have h6 := hy.1
  clear * - h6 h5
  norm_num at *
  linarith

theorem gs_stage (k : Nat) (h1 : 1 ≤ k) (h2 : k ≤ 10) (f g : List Int16) (hf : f.length = 2 ^ k) (hg : g.length = 2 ^ k) (norm : F64)
    (h : GsNorm ieeeOps (Int16ToFloat64 ieeeOps f) (Int16ToFloat64 ieeeOps g) (ieeeOps.ofInt Q) = .ok norm)
    (hlt : ieeeOps.lt (ieeeOps.mul (ieeeOps.pow2 (ieeeOps.lit 1.17)) (ieeeOps.ofInt Q)) norm = false)
    (t : ℝ) (ht : 1 / 10 ≤ t) (ht2 : t ≤ 3163 / 1000) (hd : ∀ w ∈ rootsC k, 1 ≤ gramAt (int16ToBigInt f) (int16ToBigInt g) w * t ^ 2) :
    ∃ (κf κg : List ℝ) (rf rg : List F64), κf.length = 2 ^ k ∧ κg.length = 2 ^ k ∧ sqNorm (rf.map R) + sqNorm (rg.map R) ≤ 1113924 / 10 ^ 10 ∧
      List.Forall₂ (RNear (7 / 10 ^ 7 * t ^ 3)) rf κf ∧ List.Forall₂ (RNear (7 / 10 ^ 7 * t ^ 3)) rg κg ∧
      ∀ w ∈ rootsC k, ∀ d, d = gramAt (int16ToBigInt f) (int16ToBigInt g) w →
        (∀ a, a = ‖evalR (realI (int16ToBigInt f)) w‖ / d → ‖evalR κf w - conj (evalR (realI (int16ToBigInt f)) w) / (d : ℂ)‖ ≤ 33 / 10 ^ 4 * a / d + 33 / 10 ^ 8 / d) ∧
        ∀ b, b = ‖evalR (realI (int16ToBigInt g)) w‖ / d → ‖evalR κg w - conj (evalR (realI (int16ToBigInt g)) w) / (d : ℂ)‖ ≤ 33 / 10 ^ 4 * b / d + 33 / 10 ^ 8 / d :=
  gs_stage_variant amd64V k h1 h2 f g hf hg norm h hlt t ht ht2 hd

theorem gram_unit (f g : List Int) (w : ℂ) (d : ℝ) (hd : d = gramAt f g w) (d0 : 0 < d) :
    (‖evalR (realI f) w‖ / d) ^ 2 + (‖evalR (realI g) w‖ / d) ^ 2 = 1 / d := by
  have h : ‖evalR (realI f) w‖ ^ 2 + ‖evalR (realI g) w‖ ^ 2 = d := by
    rw [hd, gramAt, Complex.normSq_eq_norm_sq, Complex.normSq_eq_norm_sq]
  rw [div_pow, div_pow, ← add_div, h]
  field_simp

/-- `C68_spread` for every variant of the arithmetic. -/
theorem variant_C68_spread (va : Variant) (k : Nat) (h1 : 1 ≤ k) (h2 : k ≤ 10) (f g : List Int16) (hf : f.length = 2 ^ k) (hg : g.length = 2 ^ k) (norm : F64)
    (h : GsNorm va.ops (Int16ToFloat64 va.ops f) (Int16ToFloat64 va.ops g) (va.ops.ofInt Q) = .ok norm)
    (hlt : va.ops.lt (va.ops.mul (va.ops.pow2 (va.ops.lit 1.17)) (va.ops.ofInt Q)) norm = false)
    (hd : ∀ w ∈ rootsC k, 1 / 10 ≤ gramAt (int16ToBigInt f) (int16ToBigInt g) w) :
    ∀ w ∈ rootsC k, 87 / 10 ≤ gramAt (int16ToBigInt f) (int16ToBigInt g) w := by
  by_contra hcon
  push Not at hcon
  obtain ⟨w1, hw1, hsmall⟩ := hcon
  -- the root with the smallest value
  obtain ⟨w, hw, hmin⟩ : ∃ w ∈ rootsC k, ∀ v ∈ rootsC k, gramAt (int16ToBigInt f) (int16ToBigInt g) w ≤ gramAt (int16ToBigInt f) (int16ToBigInt g) v := by
    classical
    obtain ⟨w, hw, hm⟩ := Finset.exists_min_image (rootsC k).toFinset (gramAt (int16ToBigInt f) (int16ToBigInt g)) ⟨w1, List.mem_toFinset.2 hw1⟩
    exact ⟨w, List.mem_toFinset.1 hw, fun v hv => hm v (List.mem_toFinset.2 hv)⟩
  set d := gramAt (int16ToBigInt f) (int16ToBigInt g) w with hdd
  have d1 : 1 / 10 ≤ d := hd w hw
  have d2 : d < 87 / 10 := lt_of_le_of_lt (hmin w1 hw1) hsmall
  have d0 : 0 < d := by linarith
  set t := Real.sqrt (1 / d) with ht
  have t2 : t ^ 2 = 1 / d := Real.sq_sqrt (by positivity)
  have t0 : 0 ≤ t := Real.sqrt_nonneg _
  have u1 : t ^ 2 ≤ 10 := by rw [t2, div_le_iff₀ d0]; linarith
  have u2 : 1149 / 10000 ≤ t ^ 2 := by rw [t2, le_div_iff₀ d0]; linarith
  have tlo : 1 / 3 ≤ t := by nlinarith
  have thi : t ≤ 3163 / 1000 := by nlinarith
  obtain ⟨κf, κg, rf, rg, lκf, lκg, hq, nf, ng, hv⟩ := (gs_stage_variant va) k h1 h2 f g hf hg norm h hlt t (by linarith) thi (by
    intro v hv
    rw [t2, mul_one_div, le_div_iff₀ d0, one_mul]
    exact hmin v hv)
  obtain ⟨va, vb⟩ := hv w hw d hdd
  have w1 := rootsC_norm k w hw
  have hk : (2 : ℝ) ^ k ≤ 1024 := (pow_le_pow_right₀ (by norm_num) h2).trans (by norm_num)
  -- the computed vector at the root
  have low : ∀ (u : List ℝ) (κ : List ℝ) (r : List F64), κ.length = 2 ^ k → List.Forall₂ (RNear (7 / 10 ^ 7 * t ^ 3)) r κ →
      ‖evalR κ w - conj (evalR u w) / (d : ℂ)‖ ≤ 33 / 10 ^ 4 * (‖evalR u w‖ / d) / d + 33 / 10 ^ 8 / d →
      ‖evalR u w‖ / d * (1 - 33 / 10 ^ 4 * t ^ 2) ≤ ‖evalR (r.map R) w‖ + 719 / 10 ^ 6 * t ^ 3 := by
    intro u κ r lκ nr hv
    have h3 := near_eval nr w w1
    rw [lκ] at h3
    push_cast at h3
    have h4 : (2 : ℝ) ^ k * (7 / 10 ^ 7 * t ^ 3) ≤ 1024 * (7 / 10 ^ 7 * t ^ 3) := mul_le_mul_of_nonneg_right hk (by positivity)
    have h5 := norm_sub_norm_le (conj (evalR u w) / (d : ℂ)) (evalR (r.map R) w)
    rw [norm_div, Complex.norm_conj, Complex.norm_real, Real.norm_eq_abs, abs_of_pos d0] at h5
    have h6 := norm_add_le (conj (evalR u w) / (d : ℂ) - evalR κ w) (evalR κ w - evalR (r.map R) w)
    rw [sub_add_sub_cancel, norm_sub_rev (conj (evalR u w) / (d : ℂ)) (evalR κ w), norm_sub_rev (evalR κ w) (evalR (r.map R) w)] at h6
    have e1 : 33 / 10 ^ 4 * (‖evalR u w‖ / d) / d = 33 / 10 ^ 4 * (‖evalR u w‖ / d) * t ^ 2 := by rw [t2]; ring
    have e2 : (33 : ℝ) / 10 ^ 8 / d = 33 / 10 ^ 8 * t ^ 2 := by rw [t2]; ring
    rw [e1, e2] at hv
    have e3 : t ^ 2 ≤ 3 * t ^ 3 := by nlinarith [sq_nonneg t]
    linarith
  have la := low _ _ _ lκf nf (va _ rfl)
  have lb := low _ _ _ lκg ng (vb _ rfl)
  -- Parseval
  have par : ‖evalR (rf.map R) w‖ ^ 2 + ‖evalR (rg.map R) w‖ ^ 2 ≤ 1140659 / 10 ^ 7 := by
    have one : ∀ r : List F64, r.length = 2 ^ k → ‖evalR (r.map R) w‖ ^ 2 ≤ 2 ^ k * sqNorm (r.map R) := by
      intro r hr
      have p := parseval k (r.map R) (by rw [List.length_map, hr])
      obtain ⟨i, hi, rfl⟩ : ∃ i < 2 ^ k, rootC k i = w := by simpa [rootsC] using hw
      rw [← p, ← Complex.normSq_eq_norm_sq]
      exact Finset.single_le_sum (f := fun i => Complex.normSq (evalR (r.map R) (rootC k i))) (fun j _ => Complex.normSq_nonneg _) (Finset.mem_range.2 hi)
    have a1 := one rf (by rw [nf.length_eq, lκf])
    have a2 := one rg (by rw [ng.length_eq, lκg])
    have q1 := sqNorm_nonneg (rf.map R)
    have q2 := sqNorm_nonneg (rg.map R)
    have a3 : (2 : ℝ) ^ k * (sqNorm (rf.map R) + sqNorm (rg.map R)) ≤ 1024 * (1113924 / 10 ^ 10) := mul_le_mul hk hq (by positivity) (by norm_num)
    norm_num at a3 ⊢
    linarith
  have unit := gram_unit _ _ w d hdd d0
  rw [← t2] at unit
  have x0 := norm_nonneg (evalR (rf.map R) w)
  have y0 := norm_nonneg (evalR (rg.map R) w)
  have a0 : 0 ≤ ‖evalR (realI (int16ToBigInt f)) w‖ / d := by positivity
  have b0 : 0 ≤ ‖evalR (realI (int16ToBigInt g)) w‖ / d := by positivity
  generalize ‖evalR (rf.map R) w‖ = x at *
  generalize ‖evalR (rg.map R) w‖ = y at *
  generalize ‖evalR (realI (int16ToBigInt f)) w‖ / d = a at *
  generalize ‖evalR (realI (int16ToBigInt g)) w‖ / d = b at *
  clear * - par unit la lb x0 y0 a0 b0 t0 u1 u2 tlo thi
  have t3 : t ^ 3 = t * t ^ 2 := by ring
  rw [t3] at la lb
  generalize t ^ 2 = u at *
  set E := 719 / 10 ^ 6 * (t * u) with hE
  have E0 : 0 ≤ E := by positivity
  have E1 : E ≤ 2275 / 10 ^ 6 * u := by
    have : t * u ≤ 3163 / 1000 * u := mul_le_mul_of_nonneg_right thi (by linarith)
    rw [hE]; linarith
  have E2 : E ≤ 2275 / 10 ^ 5 := by linarith
  set c := 1 - 33 / 10 ^ 4 * u with hc
  have c0 : 0 ≤ c := by rw [hc]; linarith
  have xy : x + y ≤ 478 / 1000 := by nlinarith [sq_nonneg (x - y)]
  have s1 : (a * c) ^ 2 ≤ (x + E) ^ 2 := pow_le_pow_left₀ (by positivity) la 2
  have s2 : (b * c) ^ 2 ≤ (y + E) ^ 2 := pow_le_pow_left₀ (by positivity) lb 2
  have s3 : c ^ 2 * u ≤ 1140659 / 10 ^ 7 + 2 * (E * (x + y)) + 2 * (E * E) := by
    have : c ^ 2 * u = (a * c) ^ 2 + (b * c) ^ 2 := by rw [← unit]; ring
    rw [this]
    nlinarith
  have s4 : E * (x + y) ≤ 2275 / 10 ^ 6 * u * (478 / 1000) := mul_le_mul E1 xy (by linarith) (by linarith)
  have s5 : E * E ≤ 2275 / 10 ^ 6 * u * (2275 / 10 ^ 5) := mul_le_mul E1 E2 E0 (by linarith)
  have s6 : (1 - 66 / 10 ^ 4 * u) * u ≤ c ^ 2 * u := by
    apply mul_le_mul_of_nonneg_right _ (by linarith)
    rw [hc]; nlinarith [sq_nonneg u]
  have s7 : 0 ≤ (u - 1149 / 10000) * (10 - u) := mul_nonneg (by linarith) (by linarith)
  norm_num at s3 s4 s5 s6 s7
  nlinarith

/-- C68: if `|f(w)|^2 + |g(w)|^2` is at least `1/10` at every root of `x^n+1`, a pair accepted by the IEEE check has
`|f(w)|^2 + |g(w)|^2 >= 8.7` at every root: the check cannot miss a moderately short value. -/
theorem C68_spread (k : Nat) (h1 : 1 ≤ k) (h2 : k ≤ 10) (f g : List Int16) (hf : f.length = 2 ^ k) (hg : g.length = 2 ^ k) (norm : F64)
    (h : GsNorm ieeeOps (Int16ToFloat64 ieeeOps f) (Int16ToFloat64 ieeeOps g) (ieeeOps.ofInt Q) = .ok norm)
    (hlt : ieeeOps.lt (ieeeOps.mul (ieeeOps.pow2 (ieeeOps.lit 1.17)) (ieeeOps.ofInt Q)) norm = false)
    (hd : ∀ w ∈ rootsC k, 1 / 10 ≤ gramAt (int16ToBigInt f) (int16ToBigInt g) w) :
    ∀ w ∈ rootsC k, 87 / 10 ≤ gramAt (int16ToBigInt f) (int16ToBigInt g) w :=
  variant_C68_spread amd64V k h1 h2 f g hf hg norm h hlt hd

/-- `C68_second` for every variant of the arithmetic. -/
theorem variant_C68_second (va : Variant) (k : Nat) (h1 : 1 ≤ k) (h2 : k ≤ 10) (f g : List Int16) (hf : f.length = 2 ^ k) (hg : g.length = 2 ^ k) (norm : F64)
    (h : GsNorm va.ops (Int16ToFloat64 va.ops f) (Int16ToFloat64 va.ops g) (va.ops.ofInt Q) = .ok norm)
    (hlt : va.ops.lt (va.ops.mul (va.ops.pow2 (va.ops.lit 1.17)) (va.ops.ofInt Q)) norm = false)
    (hd : ∀ w ∈ rootsC k, 1 / 10 ≤ gramAt (int16ToBigInt f) (int16ToBigInt g) w) :
    ∃ Ft Gt : List ℝ, Ft.length = 2 ^ k ∧ Gt.length = 2 ^ k ∧
      (X ^ 2 ^ k + 1 : ℝ[X]) ∣ poly Ft * gramPoly (realI (int16ToBigInt f)) (realI (int16ToBigInt g)) - poly (adjList (realI (int16ToBigInt f))) ∧
      (X ^ 2 ^ k + 1 : ℝ[X]) ∣ poly Gt * gramPoly (realI (int16ToBigInt f)) (realI (int16ToBigInt g)) - poly (adjList (realI (int16ToBigInt g))) ∧
      12289 ^ 2 * (sqNorm Ft + sqNorm Gt) ≤ 16880 := by
  have hsp := (variant_C68_spread va) k h1 h2 f g hf hg norm h hlt hd
  have hlf : (realI (int16ToBigInt f)).length = 2 ^ k := by simp [realI, int16ToBigInt, hf]
  have hlg : (realI (int16ToBigInt g)).length = 2 ^ k := by simp [realI, int16ToBigInt, hg]
  have hne : ∀ w ∈ rootsC k, evalR (realI (int16ToBigInt f)) w ≠ 0 ∨ evalR (realI (int16ToBigInt g)) w ≠ 0 := by
    intro w hw
    by_contra hc
    push Not at hc
    have := hsp w hw
    rw [gramAt, hc.1, hc.2, map_zero, add_zero] at this
    norm_num at this
  have hc := gram_coprime k _ _ hlf hlg hne
  obtain ⟨Ft, lFt, dF⟩ := exists_div k (poly (adjList (realI (int16ToBigInt f)))) _ hc
  obtain ⟨Gt, lGt, dG⟩ := exists_div k (poly (adjList (realI (int16ToBigInt g)))) _ hc
  refine ⟨Ft, Gt, lFt, lGt, dF, dG, ?_⟩
  obtain ⟨κf, κg, rf, rg, lκf, lκg, hq, nf, ng, hv⟩ := (gs_stage_variant va) k h1 h2 f g hf hg norm h hlt (34 / 100) (by norm_num) (by norm_num) (by
    intro v hv
    have := hsp v hv
    norm_num
    linarith)
  have hk : (2 : ℝ) ^ k ≤ 1024 := (pow_le_pow_right₀ (by norm_num) h2).trans (by norm_num)
  have k0 : (0 : ℝ) < 2 ^ k := by positivity
  -- the exact vector against the nearby one
  have slotcmp : ∀ (u H κ : List ℝ), u.length = 2 ^ k → H.length = 2 ^ k → κ.length = 2 ^ k →
      (X ^ 2 ^ k + 1 : ℝ[X]) ∣ poly H * gramPoly (realI (int16ToBigInt f)) (realI (int16ToBigInt g)) - poly (adjList u) →
      (∀ w ∈ rootsC k, ∀ d, d = gramAt (int16ToBigInt f) (int16ToBigInt g) w → ‖evalR κ w - conj (evalR u w) / (d : ℂ)‖ ≤ 33 / 10 ^ 4 * (‖evalR u w‖ / d) / d + 33 / 10 ^ 8 / d) →
      sqNorm H ≤ 1002 / 1000 * sqNorm κ + 1 / 10 ^ 11 := by
    intro u H κ lu lH lκ dH hv
    have pH := parseval k H lH
    have pκ := parseval k κ lκ
    have hs : ∑ i ∈ Finset.range (2 ^ k), Complex.normSq (evalR H (rootC k i)) ≤
        ∑ i ∈ Finset.range (2 ^ k), (1002 / 1000 * Complex.normSq (evalR κ (rootC k i)) + 1 / 10 ^ 11) := by
      apply Finset.sum_le_sum
      intro i hi
      have hw : rootC k i ∈ rootsC k := by
        simp only [rootsC, List.mem_map]
        exact ⟨i, List.mem_range.2 (Finset.mem_range.1 hi), rfl⟩
      generalize rootC k i = w at hw
      have h3 := evalR_dvd k _ dH w hw
      rw [eval₂_sub, eval₂_mul, gram_eval k _ _ hlf hlg w hw, ← evalR_eq, ← evalR_eq, evalR_adj k u lu w hw, sub_eq_zero, Complex.mul_conj,
        Complex.mul_conj, ← Complex.ofReal_add] at h3
      have h4 := hv w hw _ rfl
      have h5 := hsp w hw
      unfold gramAt at h4 h5
      generalize Complex.normSq (evalR (realI (int16ToBigInt f)) w) + Complex.normSq (evalR (realI (int16ToBigInt g)) w) = d at h3 h4 h5
      have d0 : 0 < d := by linarith
      have dne : (d : ℂ) ≠ 0 := by exact_mod_cast d0.ne'
      rw [← h3, mul_div_assoc, div_self dne, mul_one] at h4
      have e : ‖evalR u w‖ / d = ‖evalR H w‖ := by
        have := congrArg (fun z : ℂ => ‖z‖) h3
        rw [norm_mul, Complex.norm_conj, Complex.norm_real, Real.norm_eq_abs, abs_of_pos d0] at this
        rw [← this]
        field_simp
      rw [e] at h4
      have h6 : 33 / 10 ^ 4 * ‖evalR H w‖ / d ≤ 33 / 10 ^ 4 * ‖evalR H w‖ / (87 / 10) := div_le_div₀ (by positivity) le_rfl (by norm_num) h5
      have h7 : (33 : ℝ) / 10 ^ 8 / d ≤ 33 / 10 ^ 8 / (87 / 10) := div_le_div₀ (by norm_num) le_rfl (by norm_num) h5
      have h8 := norm_sub_norm_le (evalR H w) (evalR κ w)
      rw [norm_sub_rev] at h8
      rw [Complex.normSq_eq_norm_sq, Complex.normSq_eq_norm_sq]
      have n1 := norm_nonneg (evalR H w)
      have n2 := norm_nonneg (evalR κ w)
      generalize ‖evalR H w‖ = x at *
      generalize ‖evalR κ w‖ = y at *
      have h9 : x ≤ 10004 / 10000 * y + 4 / 10 ^ 8 := by norm_num at *; linarith
      have h10 := pow_le_pow_left₀ n1 h9 2
      nlinarith [sq_nonneg (y - 1 / 10 ^ 4)]
    rw [pH, Finset.sum_add_distrib, ← Finset.mul_sum, pκ, Finset.sum_const, Finset.card_range, nsmul_eq_mul] at hs
    push_cast at hs
    apply le_of_mul_le_mul_left _ k0
    linarith
  have cF := slotcmp _ Ft κf hlf lFt lκf dF (fun w hw d hd => (hv w hw d hd).1 _ rfl)
  have cG := slotcmp _ Gt κg hlg lGt lκg dG (fun w hw d hd => (hv w hw d hd).2 _ rfl)
  -- the nearby vector against the computed one
  have coefcmp : ∀ (r : List F64) (κ : List ℝ), List.Forall₂ (RNear (7 / 10 ^ 7 * (34 / 100) ^ 3)) r κ →
      sqNorm κ ≤ 1001 / 1000 * sqNorm (r.map R) + κ.length * (1 / 10 ^ 12) := by
    intro r κ hr
    induction hr with
    | nil => simp [sqNorm]
    | @cons a x r κ h3 hs ih =>
      have e1 : sqNorm (x :: κ) = x ^ 2 + sqNorm κ := by simp [sqNorm]
      have e2 : sqNorm ((a :: r).map R) = R a ^ 2 + sqNorm (r.map R) := by simp [sqNorm]
      rw [e1, e2, List.length_cons]
      push_cast
      have h4 := h3.2
      have h5 : x ^ 2 ≤ 1001 / 1000 * R a ^ 2 + 1 / 10 ^ 12 := by
        have h6 : |x - R a| ≤ 3 / 10 ^ 8 := by rw [abs_sub_comm]; norm_num at *; linarith
        have h7 : (x - R a) ^ 2 ≤ (3 / 10 ^ 8) ^ 2 := by rw [← sq_abs]; exact pow_le_pow_left₀ (abs_nonneg _) h6 2
        nlinarith [sq_nonneg (R a / 10 ^ 3 - (x - R a))]
      linarith
  have dF' := coefcmp rf κf nf
  have dG' := coefcmp rg κg ng
  rw [lκf] at dF'
  rw [lκg] at dG'
  push_cast at dF' dG'
  clear * - cF cG dF' dG' hq hk
  norm_num at *
  linarith

/-- C68: under the same hypothesis an accepted pair really satisfies the bound on the second Gram-Schmidt vector
`q (f*, g*)/(f f* + g g*)`, up to 0.4%: its squared norm is at most 16880, where `1.17^2 q = 16822.4`. -/
theorem C68_second (k : Nat) (h1 : 1 ≤ k) (h2 : k ≤ 10) (f g : List Int16) (hf : f.length = 2 ^ k) (hg : g.length = 2 ^ k) (norm : F64)
    (h : GsNorm ieeeOps (Int16ToFloat64 ieeeOps f) (Int16ToFloat64 ieeeOps g) (ieeeOps.ofInt Q) = .ok norm)
    (hlt : ieeeOps.lt (ieeeOps.mul (ieeeOps.pow2 (ieeeOps.lit 1.17)) (ieeeOps.ofInt Q)) norm = false)
    (hd : ∀ w ∈ rootsC k, 1 / 10 ≤ gramAt (int16ToBigInt f) (int16ToBigInt g) w) :
    ∃ Ft Gt : List ℝ, Ft.length = 2 ^ k ∧ Gt.length = 2 ^ k ∧
      (X ^ 2 ^ k + 1 : ℝ[X]) ∣ poly Ft * gramPoly (realI (int16ToBigInt f)) (realI (int16ToBigInt g)) - poly (adjList (realI (int16ToBigInt f))) ∧
      (X ^ 2 ^ k + 1 : ℝ[X]) ∣ poly Gt * gramPoly (realI (int16ToBigInt f)) (realI (int16ToBigInt g)) - poly (adjList (realI (int16ToBigInt g))) ∧
      12289 ^ 2 * (sqNorm Ft + sqNorm Gt) ≤ 16880 :=
  variant_C68_second amd64V k h1 h2 f g hf hg norm h hlt hd

/-- `C68_generated` for every variant of the arithmetic. -/
theorem variant_C68_generated (va : Variant) (rand : Rand) (fuel : Nat) (n : UInt16) (pos : Nat) (key : PrivateKey) (pos' : Nat)
    (h : GeneratePrivateKey va.ops rand fuel n pos = .ok (.ok (key, pos')))
    (hd : ∀ w : ℂ, w ^ n.toNat = -1 → 1 / 10 ≤ gramAt (int16ToBigInt key.f) (int16ToBigInt key.g) w) :
    sqNorm (realOf key.f) + sqNorm (realOf key.g) ≤ 16822 ∧
    (∀ w : ℂ, w ^ n.toNat = -1 → 87 / 10 ≤ gramAt (int16ToBigInt key.f) (int16ToBigInt key.g) w) ∧
    ∃ Ft Gt : List ℝ, Ft.length = n.toNat ∧ Gt.length = n.toNat ∧
      (X ^ n.toNat + 1 : ℝ[X]) ∣ poly Ft * gramPoly (realOf key.f) (realOf key.g) - poly (adjList (realOf key.f)) ∧
      (X ^ n.toNat + 1 : ℝ[X]) ∣ poly Gt * gramPoly (realOf key.f) (realOf key.g) - poly (adjList (realOf key.g)) ∧
      12289 ^ 2 * (sqNorm Ft + sqNorm Gt) ≤ 16880 := by
  obtain ⟨⟨k, h1, h2, hn⟩, hkn, hq⟩ := GeneratePrivateKey_ok va.ops rand fuel n pos key pos' h
  obtain ⟨fuel', F, G, norm, r, lf, lg, en, hlt, -⟩ := NtruGen_ok va.ops rand fuel n pos _ pos' hq
  simp only at lf lg en
  rw [hn] at lf lg hd ⊢
  have hd' : ∀ w ∈ rootsC k, 1 / 10 ≤ gramAt (int16ToBigInt key.f) (int16ToBigInt key.g) w := fun w hw => hd w ((mem_rootsC k w).1 hw)
  have s1 := (variant_C68_first va) k h2 _ _ lf lg norm en hlt
  have s2 := (variant_C68_spread va) k h1 h2 _ _ lf lg norm en hlt hd'
  have s3 := (variant_C68_second va) k h1 h2 _ _ lf lg norm en hlt hd'
  rw [realI_int16, realI_int16] at s1 s3
  exact ⟨s1, fun w hw => s2 w ((mem_rootsC k w).2 hw), s3⟩

/-- C68: a key generated with IEEE arithmetic satisfies both bounds of the quality check, if `|f(w)|^2 + |g(w)|^2 >= 1/10` at every root of
`x^n+1`. -/
theorem C68_generated (rand : Rand) (fuel : Nat) (n : UInt16) (pos : Nat) (key : PrivateKey) (pos' : Nat)
    (h : GeneratePrivateKey ieeeOps rand fuel n pos = .ok (.ok (key, pos')))
    (hd : ∀ w : ℂ, w ^ n.toNat = -1 → 1 / 10 ≤ gramAt (int16ToBigInt key.f) (int16ToBigInt key.g) w) :
    sqNorm (realOf key.f) + sqNorm (realOf key.g) ≤ 16822 ∧
    (∀ w : ℂ, w ^ n.toNat = -1 → 87 / 10 ≤ gramAt (int16ToBigInt key.f) (int16ToBigInt key.g) w) ∧
    ∃ Ft Gt : List ℝ, Ft.length = n.toNat ∧ Gt.length = n.toNat ∧
      (X ^ n.toNat + 1 : ℝ[X]) ∣ poly Ft * gramPoly (realOf key.f) (realOf key.g) - poly (adjList (realOf key.f)) ∧
      (X ^ n.toNat + 1 : ℝ[X]) ∣ poly Gt * gramPoly (realOf key.f) (realOf key.g) - poly (adjList (realOf key.g)) ∧
      12289 ^ 2 * (sqNorm Ft + sqNorm Gt) ≤ 16880 :=
  variant_C68_generated amd64V rand fuel n pos key pos' h hd

/-- `C67_generated` for every variant of the arithmetic. -/
theorem variant_C67_generated (va : Variant) (rand : Rand) (fuel : Nat) (n : UInt16) (pos : Nat) (key : PrivateKey) (pos' : Nat)
    (h : GeneratePrivateKey va.ops rand fuel n pos = .ok (.ok (key, pos')))
    (hd : ∀ w : ℂ, w ^ n.toNat = -1 → 1 / 10 ≤ gramAt (int16ToBigInt key.f) (int16ToBigInt key.g) w)
    (hgcd : ∀ Nf Ng, IsNorm n.toNat (polyZ (int16ToBigInt key.f)) Nf → IsNorm n.toNat (polyZ (int16ToBigInt key.g)) Ng →
      Int.gcd Nf Ng ≤ 2 ^ 64) :
    CongrZ n.toNat (ntruDet (int16ToBigInt key.f) (int16ToBigInt key.g) (int16ToBigInt key.F) (int16ToBigInt key.G)) (C 12289) ∧
    ∀ v ∈ key.F ++ key.G, -11000 ≤ v.toInt ∧ v.toInt ≤ 11000 := by
  obtain ⟨s1, s2, -⟩ := (variant_C68_generated va) rand fuel n pos key pos' h hd
  obtain ⟨⟨k, h1, h2, hn⟩, hkn, hq⟩ := GeneratePrivateKey_ok va.ops rand fuel n pos key pos' h
  obtain ⟨fuel', F, G, norm, r, lf, lg, -, -, -, -, hs, eF, eG⟩ := NtruGen_ok va.ops rand fuel n pos _ pos' hq
  simp only at lf lg hs eF eG
  have lf' : (int16ToBigInt key.f).length = 2 ^ k := by rw [int16ToBigInt, List.length_map, lf, hn]
  have lg' : (int16ToBigInt key.g).length = 2 ^ k := by rw [int16ToBigInt, List.length_map, lg, hn]
  rw [hn] at hgcd s2 ⊢
  obtain ⟨Nf, tf, nf⟩ := towerNorm_ok k _ lf'
  obtain ⟨Ng, tg, ng⟩ := towerNorm_ok k _ lg'
  obtain ⟨lF, lG, hdet⟩ := C40_solution_partial va.ops k h1 h2 _ _ lf' lg' Nf Ng nf ng (hgcd Nf Ng nf ng) fuel' F G hs
  obtain ⟨fuel'', F0, G0, lF0, lG0, hred⟩ := NtruSolve_reduce va.ops k h1 h2 _ _ lf' lg' fuel' F G hs
  have b := (variant_C67_short va) k h1 h2 _ _ F0 G0 lf' lg' lF0 lG0 (by rw [realI_int16, realI_int16]; exact s1.trans (by norm_num))
    (fun w hw => le_trans (by norm_num) (s2 w ((mem_rootsC k w).1 hw))) fuel'' F G hred hdet
  have small : ∀ v ∈ F ++ G, -11000 ≤ v ∧ v ≤ 11000 := by
    intro v hv
    have h3 : |v| ≤ 11000 := by exact_mod_cast b v hv
    rw [abs_le] at h3
    exact h3
  have fF : int16ToBigInt key.F = F := by
    rw [eF]
    exact bigIntToInt16_fits F fun v hv => by have := small v (List.mem_append_left _ hv); omega
  have fG : int16ToBigInt key.G = G := by
    rw [eG]
    exact bigIntToInt16_fits G fun v hv => by have := small v (List.mem_append_right _ hv); omega
  refine ⟨by rw [fF, fG]; exact hdet, fun v hv => ?_⟩
  have hm : v.toInt ∈ F ++ G := by
    rw [← fF, ← fG]
    unfold int16ToBigInt
    rw [← List.map_append]
    exact List.mem_map_of_mem hv
  exact small _ hm

/-- C67: a key generated with IEEE arithmetic satisfies the NTRU equation `f G - g F = q` exactly, with coefficients of `F` and `G` of at most
11000 in absolute value, if `|f(w)|^2 + |g(w)|^2 >= 1/10` at every root of `x^n+1` and the gcd of the norms of `f` and `g` is at most `2^64`. -/
theorem C67_generated (rand : Rand) (fuel : Nat) (n : UInt16) (pos : Nat) (key : PrivateKey) (pos' : Nat)
    (h : GeneratePrivateKey ieeeOps rand fuel n pos = .ok (.ok (key, pos')))
    (hd : ∀ w : ℂ, w ^ n.toNat = -1 → 1 / 10 ≤ gramAt (int16ToBigInt key.f) (int16ToBigInt key.g) w)
    (hgcd : ∀ Nf Ng, IsNorm n.toNat (polyZ (int16ToBigInt key.f)) Nf → IsNorm n.toNat (polyZ (int16ToBigInt key.g)) Ng →
      Int.gcd Nf Ng ≤ 2 ^ 64) :
    CongrZ n.toNat (ntruDet (int16ToBigInt key.f) (int16ToBigInt key.g) (int16ToBigInt key.F) (int16ToBigInt key.G)) (C 12289) ∧
    ∀ v ∈ key.F ++ key.G, -11000 ≤ v.toInt ∧ v.toInt ≤ 11000 :=
  variant_C67_generated amd64V rand fuel n pos key pos' h hd hgcd

/-! ## A complete run -/

theorem run_sample_ieee : RunBits ieeeOps := by
  intro fuel pos
  rw [Samplerz]
  simp only [runRand]
  generalize runBit pos = b
  cases b
  · exact bind_of_ok (a := true) (by decide +kernel) (by rw [if_pos rfl]; exact congrArg (fun z : Int8 => Go.ok (z, pos + 1)) (by decide +kernel))
  · exact bind_of_ok (a := true) (by decide +kernel) (by rw [if_pos rfl]; exact congrArg (fun z : Int8 => Go.ok (z, pos + 1)) (by decide +kernel))

/-- A complete run of key generation with IEEE arithmetic. -/
theorem ieee_run_key : GeneratePrivateKey ieeeOps runRand 20 2 0 = .ok (.ok (⟨2, [72, 5], [60, 31], [-40, 31], [124, 0]⟩, 8192)) := by
  have hf := run_poly ieeeOps run_sample_ieee 19 0 72 5 (by omega) (by omega) (by intro i _ _; simp [runBit]; omega)
    (by intro i _ _; simp [runBit]; omega) (by intro i _ _; simp [runBit]; omega) (by intro i _ _; simp [runBit]; omega)
  have hg := run_poly ieeeOps run_sample_ieee 19 4096 60 31 (by omega) (by omega) (by intro i _ _; simp [runBit]; omega)
    (by intro i _ _; simp [runBit]; omega) (by intro i _ _; simp [runBit]; omega) (by intro i _ _; simp [runBit]; omega)
  unfold GeneratePrivateKey
  rw [if_neg (by decide), NtruGen]
  refine bind_of_ok (a := (⟨[72, 5], [60, 31], [-40, 31], [124, 0]⟩, 8192)) (bind_of_ok hf (bind_of_ok hg ?_)) rfl
  decide +kernel

/-- At degree 2 the two values of the check are the same integer. -/
theorem gramAt_two (a b c d : Int) (w : ℂ) (hw : w ^ 2 = -1) : gramAt [a, b] [c, d] w = ((a ^ 2 + b ^ 2 + c ^ 2 + d ^ 2 : Int) : ℝ) := by
  have h : w = Complex.I ∨ w = -Complex.I := by
    rw [← sq_eq_sq_iff_eq_or_eq_neg, hw, Complex.I_sq]
  unfold gramAt
  rcases h with rfl | rfl <;> simp [evalR, realI, Complex.normSq_apply] <;> ring

theorem ieee_run_gram (w : ℂ) (hw : w ^ (2 : UInt16).toNat = -1) : 1 / 10 ≤ gramAt (int16ToBigInt [72, 5]) (int16ToBigInt [60, 31]) w := by
  have e : gramAt (int16ToBigInt [72, 5]) (int16ToBigInt [60, 31]) w = _ := gramAt_two 72 5 60 31 w hw
  rw [e]
  norm_num

/-- The hypotheses of `C68_generated` hold for the run at degree 2. -/
example : sqNorm (realOf [72, 5]) + sqNorm (realOf [60, 31]) ≤ 16822 := (C68_generated runRand 20 2 0 _ _ ieee_run_key ieee_run_gram).1

/-- The hypotheses of `C67_generated` hold for the run at degree 2. -/
example : CongrZ 2 (ntruDet [72, 5] [60, 31] [-40, 31] [124, 0]) (C 12289) :=
  (C67_generated runRand 20 2 0 _ _ ieee_run_key ieee_run_gram (by
    intro Nf Ng hf hg
    obtain ⟨N, t, hN⟩ := towerNorm_ok 1 [72, 5] rfl
    obtain ⟨M, t', hM⟩ := towerNorm_ok 1 [60, 31] rfl
    have e1 : N = 5209 := (Go.ok.inj (t.symm.trans (by decide +kernel : towerNorm 1 [72, 5] = .ok 5209)))
    have e2 : M = 4561 := (Go.ok.inj (t'.symm.trans (by decide +kernel : towerNorm 1 [60, 31] = .ok 4561)))
    have u1 : Nf = N := by exact_mod_cast hf.trans hN.symm
    have u2 : Ng = M := by exact_mod_cast hg.trans hM.symm
    rw [u1, u2, e1, e2]
    decide +kernel)).1

/-- A reduction with a non-zero quotient: `(F, G) + (3 - 2x)(f, g)` is reduced to `(F, G)`. -/
example : reduce ieeeOps 5 [72, 5] [60, 31] [186, -98] [366, -27] = .ok ([-40, 31], [124, 0]) := by decide +kernel

end Falcon
