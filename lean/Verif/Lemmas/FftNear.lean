import Verif.Lemmas.CDiv
import Verif.Lemmas.Babai
import Verif.Props.FftTable
/-!
# The rounding error of the FFT
-/

namespace Falcon
open F64 Spec ComplexConjugate

/-- A float within `e` of a real number. -/
def RNear (e : ℝ) (a : F64) (x : ℝ) : Prop := a.isFinite = true ∧ |R a - x| ≤ e

/-- A complex float within `e` of a complex number. -/
def CNear (e : ℝ) (c : F64 × F64) (z : ℂ) : Prop := cfin c ∧ ‖cval c - z‖ ≤ e

theorem CNear.mono {e e' : ℝ} {c : F64 × F64} {z : ℂ} (h : CNear e c z) (he : e ≤ e') : CNear e' c z := ⟨h.1, h.2.trans he⟩

theorem RNear.mono {e e' : ℝ} {c : F64} {z : ℝ} (h : RNear e c z) (he : e ≤ e') : RNear e' c z := ⟨h.1, h.2.trans he⟩

theorem CNear.nonneg {e : ℝ} {c : F64 × F64} {z : ℂ} (h : CNear e c z) : 0 ≤ e := (norm_nonneg _).trans h.2

theorem CNear.norm_le {e M : ℝ} {c : F64 × F64} {z : ℂ} (h : CNear e c z) (hz : ‖z‖ ≤ M) : ‖cval c‖ ≤ M + e := by
  have := norm_add_le z (cval c - z)
  rw [add_sub_cancel] at this
  linarith [h.2]

theorem cadd_cnear (e1 e2 M : ℝ) (x y : F64 × F64) (X Y : ℂ) (hx : CNear e1 x X) (hy : CNear e2 y Y) (hM : ‖X + Y‖ ≤ M)
    (hb : M + e1 + e2 ≤ Big) : CNear (e1 + e2 + uu * (M + e1 + e2) + 2 * et) (ieeeOps.cadd x y) (X + Y) := by
  have d : ‖cval x + cval y - (X + Y)‖ ≤ e1 + e2 := by
    rw [show cval x + cval y - (X + Y) = (cval x - X) + (cval y - Y) by ring]
    exact (norm_add_le _ _).trans (add_le_add hx.2 hy.2)
  have n : ‖cval x + cval y‖ ≤ M + e1 + e2 := by
    have := norm_add_le (X + Y) (cval x + cval y - (X + Y))
    rw [add_sub_cancel] at this
    linarith
  obtain ⟨f, h⟩ := cadd_near x y hx.1 hy.1 (n.trans hb)
  refine ⟨f, ?_⟩
  have := norm_add_le (cval (ieeeOps.cadd x y) - (cval x + cval y)) (cval x + cval y - (X + Y))
  rw [sub_add_sub_cancel] at this
  have h2 : uu * ‖cval x + cval y‖ ≤ uu * (M + e1 + e2) := mul_le_mul_of_nonneg_left n uu_pos.le
  linarith

theorem csub_cnear (e1 e2 M : ℝ) (x y : F64 × F64) (X Y : ℂ) (hx : CNear e1 x X) (hy : CNear e2 y Y) (hM : ‖X - Y‖ ≤ M)
    (hb : M + e1 + e2 ≤ Big) : CNear (e1 + e2 + uu * (M + e1 + e2) + 2 * et) (ieeeOps.csub x y) (X - Y) := by
  have d : ‖cval x - cval y - (X - Y)‖ ≤ e1 + e2 := by
    rw [show cval x - cval y - (X - Y) = (cval x - X) - (cval y - Y) by ring]
    exact (norm_sub_le _ _).trans (add_le_add hx.2 hy.2)
  have n : ‖cval x - cval y‖ ≤ M + e1 + e2 := by
    have := norm_add_le (X - Y) (cval x - cval y - (X - Y))
    rw [add_sub_cancel] at this
    linarith
  obtain ⟨f, h⟩ := csub_near x y hx.1 hy.1 (n.trans hb)
  refine ⟨f, ?_⟩
  have := norm_add_le (cval (ieeeOps.csub x y) - (cval x - cval y)) (cval x - cval y - (X - Y))
  rw [sub_add_sub_cancel] at this
  have h2 : uu * ‖cval x - cval y‖ ≤ uu * (M + e1 + e2) := mul_le_mul_of_nonneg_left n uu_pos.le
  linarith

theorem cmul_cnear_variant (va : Variant) (e1 e2 M1 M2 : ℝ) (x y : F64 × F64) (X Y : ℂ) (hx : CNear e1 x X) (hy : CNear e2 y Y) (hX : ‖X‖ ≤ M1) (hY : ‖Y‖ ≤ M2)
    (hb : 8 * ((M1 + e1) * (M2 + e2)) ≤ Big) :
    CNear (M1 * e2 + e1 * (M2 + e2) + 4 * uu * ((M1 + e1) * (M2 + e2)) + 8 * et) (va.ops.cmul x y) (X * Y) := by
  have n1 := hx.norm_le hX
  have n2 := hy.norm_le hY
  have m0 : 0 ≤ M1 := (norm_nonneg _).trans hX
  have m : ‖cval x‖ * ‖cval y‖ ≤ (M1 + e1) * (M2 + e2) := mul_le_mul n1 n2 (norm_nonneg _) ((norm_nonneg _).trans n1)
  obtain ⟨f, h⟩ := va.cmul_near x y hx.1 hy.1 (by linarith)
  refine ⟨f, ?_⟩
  have d : ‖cval x * cval y - X * Y‖ ≤ M1 * e2 + e1 * (M2 + e2) := by
    rw [show cval x * cval y - X * Y = X * (cval y - Y) + (cval x - X) * cval y by ring]
    refine (norm_add_le _ _).trans ?_
    rw [norm_mul, norm_mul]
    exact add_le_add (mul_le_mul hX hy.2 (norm_nonneg _) m0) (mul_le_mul hx.2 n2 (norm_nonneg _) hx.nonneg)
  have := norm_add_le (cval (va.ops.cmul x y) - (cval x * cval y)) (cval x * cval y - X * Y)
  rw [sub_add_sub_cancel] at this
  have h2 : 4 * uu * (‖cval x‖ * ‖cval y‖) ≤ 4 * uu * ((M1 + e1) * (M2 + e2)) := mul_le_mul_of_nonneg_left m (by linarith [uu_pos])
  linarith

theorem cmul_cnear (e1 e2 M1 M2 : ℝ) (x y : F64 × F64) (X Y : ℂ) (hx : CNear e1 x X) (hy : CNear e2 y Y) (hX : ‖X‖ ≤ M1) (hY : ‖Y‖ ≤ M2)
    (hb : 8 * ((M1 + e1) * (M2 + e2)) ≤ Big) :
    CNear (M1 * e2 + e1 * (M2 + e2) + 4 * uu * ((M1 + e1) * (M2 + e2)) + 8 * et) (ieeeOps.cmul x y) (X * Y) :=
  cmul_cnear_variant amd64V e1 e2 M1 M2 x y X Y hx hy hX hY hb

/-- The table of roots. -/
theorem root_cnear (k i : Nat) (h1 : 1 ≤ k) (h2 : k ≤ 10) (hi : i < 2 ^ k) : CNear (20 * uu) (ieeeOps.root (2 ^ k) i) (rootC k i) := by
  have acc := C61_accurate k h1 h2 i hi
  set w := fftRoot (2 ^ k) i with hw
  set W : ℂ := ⟨w.1, w.2⟩ with hW
  have nW : ‖W‖ ≤ 1 + 2 / 10 ^ 15 := by
    have := norm_add_le (rootC k i) (W - rootC k i)
    rw [add_sub_cancel, rootC_norm] at this
    linarith
  have big : (2 : ℝ) ≤ Big := le_trans (by norm_num) Big_ge'
  have b1 : |(w.1 : ℝ)| ≤ Big := (Complex.abs_re_le_norm W).trans (by linarith)
  have b2 : |(w.2 : ℝ)| ≤ Big := (Complex.abs_im_le_norm W).trans (by linarith)
  obtain ⟨f1, n1⟩ := ofRat_near w.1 b1
  obtain ⟨f2, n2⟩ := ofRat_near w.2 b2
  refine ⟨⟨f1, f2⟩, ?_⟩
  have hn := norm_parts (cval (ieeeOps.root (2 ^ k) i) - W) W uu et uu_pos.le et_pos.le n1 n2
  have := norm_add_le (cval (ieeeOps.root (2 ^ k) i) - W) (W - rootC k i)
  rw [sub_add_sub_cancel] at this
  have e1 : uu * ‖W‖ ≤ uu * (1 + 2 / 10 ^ 15) := mul_le_mul_of_nonneg_left nW uu_pos.le
  have e2 : et ≤ uu / 10 := by
    unfold et uu
    have : (2 : ℝ) ^ (-1075 : Int) ≤ 2 ^ (-60 : Int) := zpow_le_zpow_right₀ (by norm_num) (by norm_num)
    refine this.trans ?_
    norm_num
  have e3 : (2 : ℝ) / 10 ^ 15 ≤ 1802 / 100 * uu := by unfold uu; norm_num
  have u0 := uu_pos
  nlinarith

theorem half_cval : cfin ieeeOps.half ∧ cval ieeeOps.half = 1 / 2 := by
  have e : (ieeeOps.half : F64 × F64) = (.fin (1 / 2), .zero false) := by decide +kernel
  have e' : cval ieeeOps.half = cval (.fin (1 / 2), .zero false) := congrArg cval e
  have e'' : cfin ieeeOps.half = cfin (.fin (1 / 2), .zero false) := congrArg cfin e
  rw [e', e'']
  refine ⟨⟨rfl, rfl⟩, ?_⟩
  apply Complex.ext
  · show R _ = _
    rw [R_fin]; norm_num
  · show R _ = _
    rw [R_zero]; norm_num

/-- One butterfly of `MergeFFT`. -/
theorem merge_step_variant (va : Variant) (ea eb S0 S1 : ℝ) (a b w : F64 × F64) (A B W : ℂ) (ha : CNear ea a A) (hb : CNear eb b B) (hw : CNear (20 * uu) w W)
    (hA : ‖A‖ ≤ S0) (hB : ‖B‖ ≤ S1) (hW : ‖W‖ = 1) (hbig : 100 * (S0 + S1 + ea + eb + 1) ≤ Big) :
    CNear (ea + eb + 26 * uu * (S0 + S1 + ea + eb) + 12 * et) (va.ops.cadd (va.ops.cmul w b) a) (W * B + A) ∧
    CNear (ea + eb + 26 * uu * (S0 + S1 + ea + eb) + 12 * et) (va.ops.csub a (va.ops.cmul w b)) (A - W * B) := by
  have u0 := uu_pos
  have u1 : uu ≤ 1 / 10 ^ 4 := uu_le.trans (by norm_num)
  have t0 := et_pos
  have t1 := et_le
  have ea0 := ha.nonneg
  have eb0 := hb.nonneg
  have s0 : 0 ≤ S0 := (norm_nonneg _).trans hA
  have s1 : 0 ≤ S1 := (norm_nonneg _).trans hB
  have T0 : 0 ≤ uu * (S1 + eb) := by positivity
  have T1 : uu * (uu * (S1 + eb)) ≤ 1 / 10 ^ 4 * (uu * (S1 + eb)) := mul_le_mul_of_nonneg_right u1 T0
  have T2 : uu * (S1 + eb) ≤ 1 / 10 ^ 4 * (S1 + eb) := mul_le_mul_of_nonneg_right u1 (by linarith)
  have hp := (cmul_cnear_variant va) (20 * uu) eb 1 S1 w b W B hw hb hW.le hB (by nlinarith)
  set ep := 1 * eb + 20 * uu * (S1 + eb) + 4 * uu * ((1 + 20 * uu) * (S1 + eb)) + 8 * et with hep
  have bep : ep ≤ eb + 241 / 10 * (uu * (S1 + eb)) + 8 * et := by rw [hep]; nlinarith
  have nWB : ‖W * B‖ ≤ S1 := by rw [norm_mul, hW, one_mul]; exact hB
  have fin : ep + ea + uu * (S1 + S0 + ep + ea) + 2 * et ≤ ea + eb + 26 * uu * (S0 + S1 + ea + eb) + 12 * et := by
    have : uu * ep ≤ uu * (eb + 241 / 10 * (uu * (S1 + eb)) + 8 * et) := mul_le_mul_of_nonneg_left bep u0.le
    have h3 : uu * et ≤ 1 / 10 ^ 4 * et := mul_le_mul_of_nonneg_right u1 t0.le
    have h4 : 0 ≤ uu * (S0 + ea) := by positivity
    nlinarith
  have lim : S1 + S0 + ep + ea ≤ Big := by nlinarith
  constructor
  · refine (cadd_cnear ep ea (S1 + S0) _ a _ A hp ha ((norm_add_le _ _).trans (add_le_add nWB hA)) lim).mono fin
  · refine (csub_cnear ea ep (S1 + S0) a _ A _ ha hp ((norm_sub_le _ _).trans (by linarith)) (by linarith)).mono (le_trans (le_of_eq ?_) fin)
    ring

theorem merge_step (ea eb S0 S1 : ℝ) (a b w : F64 × F64) (A B W : ℂ) (ha : CNear ea a A) (hb : CNear eb b B) (hw : CNear (20 * uu) w W)
    (hA : ‖A‖ ≤ S0) (hB : ‖B‖ ≤ S1) (hW : ‖W‖ = 1) (hbig : 100 * (S0 + S1 + ea + eb + 1) ≤ Big) :
    CNear (ea + eb + 26 * uu * (S0 + S1 + ea + eb) + 12 * et) (ieeeOps.cadd (ieeeOps.cmul w b) a) (W * B + A) ∧
    CNear (ea + eb + 26 * uu * (S0 + S1 + ea + eb) + 12 * et) (ieeeOps.csub a (ieeeOps.cmul w b)) (A - W * B) :=
  merge_step_variant amd64V ea eb S0 S1 a b w A B W ha hb hw hA hB hW hbig

/-- One butterfly of `SplitFFT`. -/
theorem split_step_variant (va : Variant) (e M : ℝ) (x y w : F64 × F64) (X Y W : ℂ) (hx : CNear e x X) (hy : CNear e y Y) (hw : CNear (20 * uu) w W)
    (hX : ‖X‖ ≤ M) (hY : ‖Y‖ ≤ M) (hW : ‖W‖ = 1) (hbig : 100 * (M + e + 1) ≤ Big) :
    CNear (e + 30 * uu * (M + e) + 20 * et) (va.ops.cmul (va.ops.cadd x y) va.ops.half) ((X + Y) * (1 / 2)) ∧
    CNear (e + 30 * uu * (M + e) + 20 * et) (va.ops.cmul (va.ops.cmul (va.ops.csub x y) va.ops.half) (va.ops.conj w))
      ((X - Y) * (1 / 2) * conj W) ∧ ‖(X + Y) * (1 / 2)‖ ≤ M ∧ ‖(X - Y) * (1 / 2) * conj W‖ ≤ M := by
  have u0 := uu_pos
  have u1 : uu ≤ 1 / 10 ^ 4 := uu_le.trans (by norm_num)
  have t0 := et_pos
  have t1 := et_le
  have e0 := hx.nonneg
  have m0 : 0 ≤ M := (norm_nonneg _).trans hX
  have T0 : 0 ≤ uu * (M + e) := by positivity
  have T1 : uu * (uu * (M + e)) ≤ 1 / 10 ^ 4 * (uu * (M + e)) := mul_le_mul_of_nonneg_right u1 T0
  have T2 : uu * (M + e) ≤ 1 / 10 ^ 4 * (M + e) := mul_le_mul_of_nonneg_right u1 (by linarith)
  have T3 : uu * et ≤ 1 / 10 ^ 4 * et := mul_le_mul_of_nonneg_right u1 t0.le
  have nA : ‖X + Y‖ ≤ 2 * M := (norm_add_le _ _).trans (by linarith)
  have nS : ‖X - Y‖ ≤ 2 * M := (norm_sub_le _ _).trans (by linarith)
  have nh : ‖(1 / 2 : ℂ)‖ = 1 / 2 := by norm_num
  have hh : CNear 0 va.ops.half (1 / 2) := ⟨half_cval.1, by
    show ‖cval ieeeOps.half - 1 / 2‖ ≤ 0
    rw [half_cval.2]; simp⟩
  set e1 := e + e + uu * (2 * M + e + e) + 2 * et with he1
  have be1 : e1 = 2 * e + 2 * (uu * (M + e)) + 2 * et := by rw [he1]; ring
  have h1 := cadd_cnear e e (2 * M) x y X Y hx hy nA (by linarith)
  have h2 := csub_cnear e e (2 * M) x y X Y hx hy nS (by linarith)
  set e2 := 2 * M * 0 + e1 * (1 / 2 + 0) + 4 * uu * ((2 * M + e1) * (1 / 2 + 0)) + 8 * et with he2
  have lim1 : 8 * ((2 * M + e1) * (1 / 2 + 0)) ≤ Big := by linarith
  have be2 : e2 ≤ e + 53 / 10 * (uu * (M + e)) + 10 * et := by
    have : e2 = e + 5 * (uu * (M + e)) + 4 * (uu * (uu * (M + e))) + 9 * et + 4 * (uu * et) := by rw [he2, be1]; ring
    rw [this]
    linarith
  have h3 := (cmul_cnear_variant va) e1 0 (2 * M) (1 / 2) _ _ _ _ h1 hh nA nh.le lim1
  have h4 := (cmul_cnear_variant va) e1 0 (2 * M) (1 / 2) _ _ _ _ h2 hh nS nh.le lim1
  have nA2 : ‖(X + Y) * (1 / 2)‖ ≤ M := by rw [norm_mul, nh]; linarith
  have nS2 : ‖(X - Y) * (1 / 2)‖ ≤ M := by rw [norm_mul, nh]; linarith
  have hwc : CNear (20 * uu) (va.ops.conj w) (conj W) := by
    obtain ⟨f, v⟩ := conj_fin w hw.1
    refine ⟨f, ?_⟩
    rw [v, ← map_sub, Complex.norm_conj]
    exact hw.2
  have nW : ‖conj W‖ ≤ 1 := by rw [Complex.norm_conj, hW]
  have e20 : 0 ≤ e2 := h4.nonneg
  have b1 : uu * e2 ≤ uu * (e + 53 / 10 * (uu * (M + e)) + 10 * et) := mul_le_mul_of_nonneg_left be2 u0.le
  have b2 : e2 ≤ 2 * (M + e) + 10 * et := by linarith
  have b3 : uu * (uu * (M + e2)) ≤ 1 / 10 ^ 4 * (uu * (M + e2)) := mul_le_mul_of_nonneg_right u1 (by positivity)
  have b4 : uu * (M + e2) ≤ 1 / 10 ^ 4 * (M + e2) := mul_le_mul_of_nonneg_right u1 (by positivity)
  have h5 := (cmul_cnear_variant va) e2 (20 * uu) M 1 _ _ _ _ h4 hwc nS2 nW (by
    have : 8 * ((M + e2) * (1 + 20 * uu)) = 8 * (M + e2) + 160 * (uu * (M + e2)) := by ring
    rw [this]
    linarith)
  have c1 : uu * (M + e2) ≤ uu * (M + e) + 53 / 10 * (uu * (uu * (M + e))) + 10 * (uu * et) := by
    linarith
  have c2 : M * (20 * uu) + e2 * (1 + 20 * uu) + 4 * uu * ((M + e2) * (1 + 20 * uu)) + 8 * et =
      e2 + 24 * (uu * (M + e2)) + 80 * (uu * (uu * (M + e2))) + 8 * et := by ring
  have c3 : 30 * uu * (M + e) = 30 * (uu * (M + e)) := by ring
  refine ⟨h3.mono (be2.trans (by linarith)), h5.mono ?_, nA2, ?_⟩
  · rw [c2, c3]
    linarith
  · rw [norm_mul, Complex.norm_conj, hW, mul_one]; exact nS2

theorem split_step (e M : ℝ) (x y w : F64 × F64) (X Y W : ℂ) (hx : CNear e x X) (hy : CNear e y Y) (hw : CNear (20 * uu) w W)
    (hX : ‖X‖ ≤ M) (hY : ‖Y‖ ≤ M) (hW : ‖W‖ = 1) (hbig : 100 * (M + e + 1) ≤ Big) :
    CNear (e + 30 * uu * (M + e) + 20 * et) (ieeeOps.cmul (ieeeOps.cadd x y) ieeeOps.half) ((X + Y) * (1 / 2)) ∧
    CNear (e + 30 * uu * (M + e) + 20 * et) (ieeeOps.cmul (ieeeOps.cmul (ieeeOps.csub x y) ieeeOps.half) (ieeeOps.conj w))
      ((X - Y) * (1 / 2) * conj W) ∧ ‖(X + Y) * (1 / 2)‖ ≤ M ∧ ‖(X - Y) * (1 / 2) * conj W‖ ≤ M :=
  split_step_variant amd64V e M x y w X Y W hx hy hw hX hY hW hbig

theorem merge_near_variant (va : Variant) (k : Nat) (h2 : k + 1 ≤ 10) (ea eb S0 S1 : ℝ) (hbig : 100 * (S0 + S1 + ea + eb + 1) ≤ Big) (i : Nat)
    (as bs : List (F64 × F64)) (As Bs : List ℂ) (ha : List.Forall₂ (CNear ea) as As) (hb : List.Forall₂ (CNear eb) bs Bs)
    (hA : ∀ z ∈ As, ‖z‖ ≤ S0) (hB : ∀ z ∈ Bs, ‖z‖ ≤ S1) (hl : as.length = bs.length) (hi : i + as.length ≤ 2 ^ k) :
    ∃ rs Rs, mergeFFTLoop va.ops (2 ^ (k + 1)) i as bs = .ok rs ∧ mergeFFTLoop exactOps (2 ^ (k + 1)) i As Bs = .ok Rs ∧
      List.Forall₂ (CNear (ea + eb + 26 * uu * (S0 + S1 + ea + eb) + 12 * et)) rs Rs := by
  induction ha generalizing i bs Bs with
  | nil => exact ⟨[], [], rfl, rfl, .nil⟩
  | @cons a A as As h hs ih =>
    cases hb with
    | nil => simp at hl
    | @cons b B bs Bs h' hs' =>
      simp only [List.length_cons] at hl hi
      obtain ⟨rs, Rs, e1, e2, f⟩ := ih (i + 1) bs Bs hs' (fun z hz => hA z (by simp [hz])) (fun z hz => hB z (by simp [hz])) (by omega) (by omega)
      have hi' : 2 * i < 2 ^ (k + 1) := by rw [pow_succ]; omega
      rw [mergeFFTLoop, mergeFFTLoop, exact_rootAt (k + 1) (by omega) h2 _ hi', rootAt_ok (k + 1) (by omega) h2 _ hi', Go.ok_bind, Go.ok_bind,
        e1, e2, Go.ok_bind, Go.ok_bind]
      obtain ⟨g1, g2⟩ := (merge_step_variant va) ea eb S0 S1 a b _ A B _ h h' (root_cnear (k + 1) (2 * i) (by omega) h2 hi') (hA A (by simp)) (hB B (by simp))
        (rootC_norm _ _) hbig
      exact ⟨_, _, rfl, rfl, .cons g1 (.cons g2 f)⟩

theorem merge_near (k : Nat) (h2 : k + 1 ≤ 10) (ea eb S0 S1 : ℝ) (hbig : 100 * (S0 + S1 + ea + eb + 1) ≤ Big) (i : Nat)
    (as bs : List (F64 × F64)) (As Bs : List ℂ) (ha : List.Forall₂ (CNear ea) as As) (hb : List.Forall₂ (CNear eb) bs Bs)
    (hA : ∀ z ∈ As, ‖z‖ ≤ S0) (hB : ∀ z ∈ Bs, ‖z‖ ≤ S1) (hl : as.length = bs.length) (hi : i + as.length ≤ 2 ^ k) :
    ∃ rs Rs, mergeFFTLoop ieeeOps (2 ^ (k + 1)) i as bs = .ok rs ∧ mergeFFTLoop exactOps (2 ^ (k + 1)) i As Bs = .ok Rs ∧
      List.Forall₂ (CNear (ea + eb + 26 * uu * (S0 + S1 + ea + eb) + 12 * et)) rs Rs :=
  merge_near_variant amd64V k h2 ea eb S0 S1 hbig i as bs As Bs ha hb hA hB hl hi

theorem split_near_variant (va : Variant) (k : Nat) (h2 : k + 1 ≤ 10) (e M : ℝ) (hbig : 100 * (M + e + 1) ≤ Big) (i : Nat)
    (cs : List (F64 × F64)) (zs : List ℂ) (h : List.Forall₂ (CNear e) cs zs) (hM : ∀ z ∈ zs, ‖z‖ ≤ M) (hi : 2 * i + cs.length ≤ 2 ^ (k + 1)) :
    ∃ rs Rs, splitFFTLoop va.ops (2 ^ (k + 1)) i cs = .ok rs ∧ splitFFTLoop exactOps (2 ^ (k + 1)) i zs = .ok Rs ∧
      List.Forall₂ (CNear (e + 30 * uu * (M + e) + 20 * et)) rs.1 Rs.1 ∧ List.Forall₂ (CNear (e + 30 * uu * (M + e) + 20 * et)) rs.2 Rs.2 ∧
      (∀ z ∈ Rs.1, ‖z‖ ≤ M) ∧ (∀ z ∈ Rs.2, ‖z‖ ≤ M) := by
  induction cs using List.twoStepInduction generalizing i zs with
  | nil =>
    cases h
    exact ⟨_, _, rfl, rfl, .nil, .nil, by simp, by simp⟩
  | singleton x =>
    cases h with | cons h h' => cases h'; exact ⟨_, _, rfl, rfl, .nil, .nil, by simp, by simp⟩
  | cons_cons x y f ih _ =>
    cases h with | @cons _ X _ _ hx h' => cases h' with | @cons _ Y _ zs hy h'' =>
    simp only [List.length_cons] at hi
    obtain ⟨rs, Rs, e1, e2, f1, f2, b1, b2⟩ := ih (i + 1) zs h'' (fun z hz => hM z (by simp [hz])) (by omega)
    have hi' : 2 * i < 2 ^ (k + 1) := by omega
    rw [splitFFTLoop, splitFFTLoop, exact_rootAt (k + 1) (by omega) h2 _ hi', rootAt_ok (k + 1) (by omega) h2 _ hi', Go.ok_bind, Go.ok_bind,
      e1, e2, Go.ok_bind, Go.ok_bind]
    obtain ⟨g1, g2, n1, n2⟩ := (split_step_variant va) e M x y _ X Y _ hx hy (root_cnear (k + 1) (2 * i) (by omega) h2 hi') (hM X (by simp)) (hM Y (by simp))
      (rootC_norm _ _) hbig
    rw [exact_half]
    exact ⟨_, _, rfl, rfl, .cons g1 f1, .cons g2 f2, List.forall_mem_cons.2 ⟨n1, b1⟩, List.forall_mem_cons.2 ⟨n2, b2⟩⟩

theorem split_near (k : Nat) (h2 : k + 1 ≤ 10) (e M : ℝ) (hbig : 100 * (M + e + 1) ≤ Big) (i : Nat)
    (cs : List (F64 × F64)) (zs : List ℂ) (h : List.Forall₂ (CNear e) cs zs) (hM : ∀ z ∈ zs, ‖z‖ ≤ M) (hi : 2 * i + cs.length ≤ 2 ^ (k + 1)) :
    ∃ rs Rs, splitFFTLoop ieeeOps (2 ^ (k + 1)) i cs = .ok rs ∧ splitFFTLoop exactOps (2 ^ (k + 1)) i zs = .ok Rs ∧
      List.Forall₂ (CNear (e + 30 * uu * (M + e) + 20 * et)) rs.1 Rs.1 ∧ List.Forall₂ (CNear (e + 30 * uu * (M + e) + 20 * et)) rs.2 Rs.2 ∧
      (∀ z ∈ Rs.1, ‖z‖ ≤ M) ∧ (∀ z ∈ Rs.2, ‖z‖ ≤ M) :=
  split_near_variant amd64V k h2 e M hbig i cs zs h hM hi

/-! ### FFT -/

theorem add_comm_fin (a b : F64) (ha : a.isFinite = true) (hb : b.isFinite = true) : add a b = add b a := by
  obtain ⟨a1, a2⟩ := finite_flags a ha
  obtain ⟨b1, b2⟩ := finite_flags b hb
  unfold F64.add
  rw [a1, b1, a2, b2, add_comm a.val, Bool.and_comm a.sign]
  simp

theorem cadd_comm_fin (x y : F64 × F64) (hx : cfin x) (hy : cfin y) : ieeeOps.cadd x y = ieeeOps.cadd y x := by
  show (add x.1 y.1, add x.2 y.2) = (add y.1 x.1, add y.2 x.2)
  rw [add_comm_fin _ _ hx.1 hy.1, add_comm_fin _ _ hx.2 hy.2]

theorem l1_cons (x : ℝ) (f : List ℝ) : l1 (x :: f) = |x| + l1 f := by simp [l1]

theorem l1_split (f : List ℝ) (h : 2 ∣ f.length) : l1 f = l1 (splitPolys f).1 + l1 (splitPolys f).2 := by
  induction f using List.twoStepInduction with
  | nil => simp [splitPolys, l1]
  | singleton x => simp at h
  | cons_cons x y f ih _ =>
    have h' : 2 ∣ f.length := by simp only [List.length_cons] at h; omega
    simp only [splitPolys, l1_cons, ih h']
    ring

theorem evalR_cons (x : ℝ) (f : List ℝ) (w : ℂ) : evalR (x :: f) w = x + w * evalR f w := by
  simp [evalR]

theorem evalR_norm (f : List ℝ) (w : ℂ) (hw : ‖w‖ = 1) : ‖evalR f w‖ ≤ l1 f := by
  induction f with
  | nil => simp [evalR, l1]
  | cons x f ih =>
    rw [evalR_cons, l1_cons]
    refine (norm_add_le _ _).trans ?_
    rw [norm_mul, hw, one_mul, Complex.norm_real, Real.norm_eq_abs]
    linarith

theorem rootsC_norm (k : Nat) (w : ℂ) (h : w ∈ rootsC k) : ‖w‖ = 1 := by
  simp only [rootsC, List.mem_map, List.mem_range] at h
  obtain ⟨i, _, rfl⟩ := h
  exact rootC_norm k i

theorem map_evalR_norm (k : Nat) (f : List ℝ) : ∀ z ∈ (rootsC k).map (evalR f), ‖z‖ ≤ l1 f := by
  intro z hz
  obtain ⟨w, hw, rfl⟩ := List.mem_map.1 hz
  exact evalR_norm f w (rootsC_norm k w hw)

theorem forall₂_mono {α β : Type*} {r s : α → β → Prop} {l : List α} {m : List β} (h : List.Forall₂ r l m) (hrs : ∀ a b, r a b → s a b) :
    List.Forall₂ s l m := List.Forall₂.imp hrs h

theorem splitPolys_mem1 {α : Type} (f : List α) : (∀ x ∈ (splitPolys f).1, x ∈ f) ∧ ∀ x ∈ (splitPolys f).2, x ∈ f := by
  induction f using List.twoStepInduction with
  | nil => simp [splitPolys]
  | singleton x => simp [splitPolys]
  | cons_cons x y f ih _ =>
    simp only [splitPolys, List.forall_mem_cons]
    refine ⟨⟨by simp, fun z hz => ?_⟩, by simp, fun z hz => ?_⟩
    · simp [ih.1 z hz]
    · simp [ih.2 z hz]

/-- The error bound of the FFT of degree `2^k` on an input of the given `l1` norm. -/
noncomputable def fftErr (k : Nat) (S : ℝ) : ℝ := 27 * k * uu * S + 16 * 4 ^ k * et

theorem fftErr_nonneg (k : Nat) (S : ℝ) (h : 0 ≤ S) : 0 ≤ fftErr k S := by
  have := uu_pos
  have := et_pos
  unfold fftErr; positivity

theorem fftErr_le (k : Nat) (h : k ≤ 10) (S : ℝ) (hS : 0 ≤ S) : fftErr k S ≤ S / 10 ^ 4 + 1 / 10 ^ 4 := by
  have hk : (k : ℝ) ≤ 10 := by exact_mod_cast h
  have hp : (4 : ℝ) ^ k ≤ 4 ^ 10 := pow_le_pow_right₀ (by norm_num) h
  have u0 := uu_pos
  have t0 := et_pos
  have u1 := uu_le
  have a1 : 27 * k * uu * S ≤ 27 * 10 * (1 / 9 / 10 ^ 15) * S := by gcongr
  have a2 : 16 * 4 ^ k * et ≤ 16 * 4 ^ 10 * (1 / 9 / 10 ^ 15) := by
    have := et_le.trans u1
    gcongr
  unfold fftErr
  have : 27 * 10 * (1 / 9 / 10 ^ 15) * S ≤ S / 10 ^ 4 := by
    linarith
  have : (16 * 4 ^ 10 * (1 / 9 / 10 ^ 15) : ℝ) ≤ 1 / 10 ^ 4 := by norm_num
  linarith

theorem fftErr_step (k : Nat) (h : k ≤ 9) (h1 : 1 ≤ k) (S0 S1 : ℝ) (h0 : 0 ≤ S0) (h1' : 0 ≤ S1) :
    fftErr k S0 + fftErr k S1 + 26 * uu * (S0 + S1 + fftErr k S0 + fftErr k S1) + 12 * et ≤ fftErr (k + 1) (S0 + S1) := by
  have hk : (k : ℝ) ≤ 9 := by exact_mod_cast h
  have u0 := uu_pos
  have t0 := et_pos
  have u1 : uu ≤ 1 / 10 ^ 6 := uu_le.trans (by norm_num)
  have p1 : (1 : ℝ) ≤ 4 ^ k := one_le_pow₀ (by norm_num)
  have e1 : fftErr k S0 + fftErr k S1 = k * (27 * (uu * (S0 + S1))) + 32 * (4 ^ k * et) := by unfold fftErr; ring
  have e2 : fftErr (k + 1) (S0 + S1) = k * (27 * (uu * (S0 + S1))) + 27 * (uu * (S0 + S1)) + 64 * (4 ^ k * et) := by
    unfold fftErr; push_cast; ring
  set s := uu * (S0 + S1) with hs
  have s0 : 0 ≤ s := by positivity
  set t := 4 ^ k * et with ht
  have t1 : et ≤ t := by rw [ht]; nlinarith
  have e3 : 26 * uu * (S0 + S1 + fftErr k S0 + fftErr k S1) = 26 * s + uu * (26 * (k * (27 * s) + 32 * t)) := by
    rw [show S0 + S1 + fftErr k S0 + fftErr k S1 = S0 + S1 + (fftErr k S0 + fftErr k S1) by ring, e1, hs]; ring
  have e4 : uu * (26 * (k * (27 * s) + 32 * t)) ≤ 1 / 10 ^ 6 * (26 * (9 * (27 * s) + 32 * t)) := by
    have : 0 ≤ t := t0.le.trans t1
    gcongr
  rw [e3, e1, e2]
  linarith

theorem FFT_near_variant (va : Variant) (k : Nat) (h1 : 1 ≤ k) (h2 : k ≤ 10) (f : List F64) (hf : f.length = 2 ^ k) (hfin : ∀ x ∈ f, x.isFinite = true)
    (hbig : 300 * (l1 (f.map R) + 2) ≤ Big) :
    ∃ c, FFT va.ops f = .ok c ∧ List.Forall₂ (CNear (fftErr k (l1 (f.map R)))) c ((rootsC k).map (evalR (f.map R))) := by
  induction k, h1 using Nat.le_induction generalizing f with
  | base =>
    match f, hf with
    | [x, y], _ =>
      have fx : x.isFinite = true := hfin x (by simp)
      have fy : y.isFinite = true := hfin y (by simp)
      set X : F64 × F64 := (x, .zero false)
      set Y : F64 × F64 := (y, .zero false)
      have vX : cval X = (R x : ℂ) := by
        apply Complex.ext
        · rfl
        · show R _ = _
          rw [R_zero]; simp
      have vY : cval Y = (R y : ℂ) := by
        apply Complex.ext
        · rfl
        · show R _ = _
          rw [R_zero]; simp
      have hI : CNear (20 * uu) (.zero false, .fin 1) Complex.I := by
        refine ⟨⟨rfl, rfl⟩, ?_⟩
        have : cval (.zero false, .fin 1) = Complex.I := by
          apply Complex.ext
          · show R _ = _
            rw [R_zero]; simp
          · show R _ = _
            rw [R_fin]; simp
        rw [this, sub_self, norm_zero]
        linarith [uu_pos]
      have hX : CNear 0 X (R x : ℂ) := ⟨⟨fx, rfl⟩, by rw [vX]; simp⟩
      have hY : CNear 0 Y (R y : ℂ) := ⟨⟨fy, rfl⟩, by rw [vY]; simp⟩
      have s : l1 ([x, y].map R) = |R x| + |R y| := by simp [l1]
      rw [s] at hbig
      have bx := abs_nonneg (R x)
      have by' := abs_nonneg (R y)
      obtain ⟨g1, g2⟩ := (merge_step_variant va) 0 0 |R x| |R y| X Y _ _ _ _ hX hY hI (by rw [Complex.norm_real, Real.norm_eq_abs])
        (by rw [Complex.norm_real, Real.norm_eq_abs]) (by simp) (by linarith)
      have ee : 0 + 0 + 26 * uu * (|R x| + |R y| + 0 + 0) + 12 * et ≤ fftErr 1 (l1 ([x, y].map R)) := by
        rw [s]
        unfold fftErr
        have := mul_nonneg uu_pos.le (add_nonneg bx by')
        have := et_pos
        push_cast
        nlinarith
      have r1 : rootC 1 1 = -Complex.I := by
        have := rootC_odd 0 0
        simpa [rootC_one_zero] using this
      refine ⟨_, by rw [FFT, dif_neg (by simp)], ?_⟩
      have hr : (rootsC 1).map (evalR ([x, y].map R)) = [(Complex.I * R y + R x : ℂ), (R x - Complex.I * R y : ℂ)] := by
        simp [rootsC, List.range_succ, evalR, rootC_one_zero, r1]
        constructor
        · ring
        · ring
      rw [hr]
      have hc : (va.ops.I : F64 × F64) = (.zero false, .fin 1) := by
        show (ieeeOps.I : F64 × F64) = (.zero false, .fin 1)
        decide +kernel
      have hl : F64.ofRat 0 = .zero false := by decide +kernel
      refine .cons ?_ (.cons ?_ .nil)
      · have g := g1.mono ee
        rw [← hc, cadd_comm_fin _ _ (va.cmul_near _ _ (by rw [hc]; exact hI.1) hY.1 (by
          rw [hc, show cval (.zero false, .fin 1) = Complex.I by
            apply Complex.ext
            · show R _ = _
              rw [R_zero]; simp
            · show R _ = _
              rw [R_fin]; simp, vY, Complex.norm_I, Complex.norm_real, Real.norm_eq_abs]
          linarith)).1 hX.1] at g
        simpa [Variant.ops, ieeeOps, hl] using g
      · have g := g2.mono ee
        rw [← hc] at g
        simpa [Variant.ops, ieeeOps, hl] using g
  | succ k h1 ih =>
    have hp : 2 ^ 1 ≤ 2 ^ k := Nat.pow_le_pow_right (by omega) h1
    have hl : 2 ∣ (f.map R).length := by rw [List.length_map, hf, pow_succ]; omega
    have sp := l1_split (f.map R) hl
    have sm : (splitPolys (f.map R)) = ((splitPolys f).1.map R, (splitPolys f).2.map R) := by
      rw [splitPolys_map]
    rw [sm] at sp
    have n1 := l1_nonneg ((splitPolys f).1.map R)
    have n2 := l1_nonneg ((splitPolys f).2.map R)
    obtain ⟨a, ea, fa⟩ := ih (by omega) (splitPolys f).1 (by rw [splitPolys_length1, hf, pow_succ]; omega)
      (fun x hx => hfin x ((splitPolys_mem1 f).1 x hx)) (by linarith)
    obtain ⟨b, eb, fb⟩ := ih (by omega) (splitPolys f).2 (by rw [splitPolys_length2, hf, pow_succ]; omega)
      (fun x hx => hfin x ((splitPolys_mem1 f).2 x hx)) (by linarith)
    have la : a.length = 2 ^ k := by rw [fa.length_eq, List.length_map, rootsC_length]
    have lb : b.length = 2 ^ k := by rw [fb.length_eq, List.length_map, rootsC_length]
    have q1 := fftErr_le k (by omega) _ n1
    have q2 := fftErr_le k (by omega) _ n2
    obtain ⟨rs, Rs, e1, e2, fr⟩ := (merge_near_variant va) k h2 _ _ _ _ (by linarith) 0 a b _ _ fa fb (map_evalR_norm k _) (map_evalR_norm k _)
      (by omega) (by omega)
    rw [FFT, dif_pos (by rw [hf, pow_succ]; omega), ea, Go.ok_bind, eb, Go.ok_bind]
    refine ⟨rs, ?_, ?_⟩
    · unfold MergeFFT
      simp only [la]
      rw [show 2 * 2 ^ k = 2 ^ (k + 1) by ring]
      exact e1
    · have ex := FFT_exact (k + 1) (by omega) h2 (f.map R) (by rw [List.length_map, hf])
      rw [FFT, dif_pos (by rw [List.length_map, hf, pow_succ]; omega), sm] at ex
      rw [FFT_exact k h1 (by omega) _ (by rw [List.length_map, splitPolys_length1, hf, pow_succ]; omega), Go.ok_bind,
        FFT_exact k h1 (by omega) _ (by rw [List.length_map, splitPolys_length2, hf, pow_succ]; omega), Go.ok_bind] at ex
      unfold MergeFFT at ex
      simp only [List.length_map, rootsC_length] at ex
      rw [show 2 * 2 ^ k = 2 ^ (k + 1) by ring, e2] at ex
      rw [← Go.ok.inj ex]
      refine forall₂_mono fr fun c z h => h.mono ?_
      rw [sp]
      exact fftErr_step k (by omega) h1 _ _ n1 n2

theorem FFT_near (k : Nat) (h1 : 1 ≤ k) (h2 : k ≤ 10) (f : List F64) (hf : f.length = 2 ^ k) (hfin : ∀ x ∈ f, x.isFinite = true)
    (hbig : 300 * (l1 (f.map R) + 2) ≤ Big) :
    ∃ c, FFT ieeeOps f = .ok c ∧ List.Forall₂ (CNear (fftErr k (l1 (f.map R)))) c ((rootsC k).map (evalR (f.map R))) :=
  FFT_near_variant amd64V k h1 h2 f hf hfin hbig

/-! ### IFFT -/

/-- The error bound of the inverse FFT of degree `2^k`, for slots bounded by `M` and known up to `e`. -/
noncomputable def ifftErr (k : Nat) (M e : ℝ) : ℝ := e + k * (31 * uu * (M + e) + 32 * et)

theorem mergePolys_near (e : ℝ) (a b : List F64) (A B : List ℝ) (ha : List.Forall₂ (RNear e) a A) (hb : List.Forall₂ (RNear e) b B)
    (hl : a.length = b.length) (r' : List ℝ) (hr : mergePolys A B = .ok r') : ∃ r, mergePolys a b = .ok r ∧ List.Forall₂ (RNear e) r r' := by
  induction ha generalizing b B r' with
  | nil =>
    cases hb with
    | nil => simp [mergePolys] at hr ⊢; subst hr; rfl
    | cons => simp at hl
  | @cons x X as As h hs ih =>
    cases hb with
    | nil => simp at hl
    | @cons y Y bs Bs h' hs' =>
      simp only [List.length_cons] at hl
      simp only [mergePolys] at hr ⊢
      obtain ⟨t, ht, hr⟩ := Go.bind_eq_ok.1 hr
      obtain ⟨r, e1, f⟩ := ih bs Bs hs' (by omega) t ht
      rw [e1, Go.ok_bind]
      have := Go.ok.inj hr
      subst this
      exact ⟨_, rfl, .cons h (.cons h' f)⟩

theorem ifftErr_step (k : Nat) (h : k ≤ 9) (M e : ℝ) (hM : 0 ≤ M) (he : 0 ≤ e) :
    ifftErr k M (e + 30 * uu * (M + e) + 20 * et) ≤ ifftErr (k + 1) M e := by
  have hk : (k : ℝ) ≤ 9 := by exact_mod_cast h
  have u0 := uu_pos
  have t0 := et_pos
  have u1 : uu ≤ 1 / 10 ^ 6 := uu_le.trans (by norm_num)
  have e2 : ifftErr k M (e + 30 * uu * (M + e) + 20 * et) =
      e + 30 * (uu * (M + e)) + 20 * et + k * (31 * (uu * (M + e)) + 32 * et) + k * (31 * (uu * (30 * (uu * (M + e)) + 20 * et))) := by
    unfold ifftErr; ring
  have e1 : ifftErr (k + 1) M e = e + k * (31 * (uu * (M + e)) + 32 * et) + (31 * (uu * (M + e)) + 32 * et) := by
    unfold ifftErr; push_cast; ring
  rw [e1, e2]
  set s := uu * (M + e)
  have s0 : 0 ≤ s := by positivity
  have e4 : (k : ℝ) * (31 * (uu * (30 * s + 20 * et))) ≤ 9 * (31 * (1 / 10 ^ 6 * (30 * s + 20 * et))) := by gcongr
  linarith

theorem ifftErr_le (k : Nat) (h : k ≤ 10) (M e : ℝ) (hM : 0 ≤ M) (he : 0 ≤ e) : ifftErr k M e ≤ e + (M + e) / 10 ^ 4 + 1 / 10 ^ 4 := by
  have hk : (k : ℝ) ≤ 10 := by exact_mod_cast h
  have u0 := uu_pos
  have t0 := et_pos
  have u1 : uu ≤ 1 / 10 ^ 8 := uu_le.trans (by norm_num)
  have t1 : et ≤ 1 / 10 ^ 8 := et_le.trans u1
  have : (k : ℝ) * (31 * uu * (M + e) + 32 * et) ≤ 10 * (31 * (1 / 10 ^ 8) * (M + e) + 32 * (1 / 10 ^ 8)) := by gcongr
  unfold ifftErr
  linarith

theorem ifftAux_near_variant (va : Variant) (k : Nat) (h1 : 1 ≤ k) (h2 : k ≤ 10) (f : List ℝ) (hf : f.length = 2 ^ k) (c : List (F64 × F64)) (e M : ℝ)
    (h : List.Forall₂ (CNear e) c ((rootsC k).map (evalR f))) (hM : ∀ z ∈ (rootsC k).map (evalR f), ‖z‖ ≤ M)
    (hbig : 100 * (M + ifftErr k M e + 1) ≤ Big) (he : 0 ≤ e) (hM0 : 0 ≤ M) (fuel : Nat) (hfu : k ≤ fuel) :
    ∃ r, ifftAux va.ops fuel c = .ok r ∧ List.Forall₂ (RNear (ifftErr k M e)) r f := by
  induction k, h1 using Nat.le_induction generalizing f c e fuel with
  | base =>
    obtain ⟨m, rfl⟩ : ∃ m, fuel = m + 1 := ⟨fuel - 1, by omega⟩
    match f, hf with
    | [x, y], _ =>
      have hr : (rootsC 1).map (evalR [x, y]) = [evalR [x, y] (rootC 1 0), evalR [x, y] (rootC 1 1)] := by
        simp [rootsC, List.range_succ]
      rw [hr] at h
      cases h with | @cons p _ _ _ hp h => cases h with | cons hq h => cases h with | nil =>
      rw [ifftAux_succ, if_neg (by simp)]
      have ev : evalR [x, y] (rootC 1 0) = ⟨x, y⟩ := by
        rw [rootC_one_zero]
        simp [evalR]
        apply Complex.ext <;> simp
      rw [ev] at hp
      have le : e ≤ ifftErr 1 M e := by
        unfold ifftErr
        have := uu_pos
        have := et_pos
        have : 0 ≤ ((1 : Nat) : ℝ) * (31 * uu * (M + e) + 32 * et) := by positivity
        linarith
      refine ⟨_, rfl, .cons ⟨hp.1.1, ?_⟩ (.cons ⟨hp.1.2, ?_⟩ .nil)⟩
      · exact ((Complex.abs_re_le_norm (cval p - ⟨x, y⟩)).trans hp.2).trans le
      · exact ((Complex.abs_im_le_norm (cval p - ⟨x, y⟩)).trans hp.2).trans le
  | succ k h1 ih =>
    obtain ⟨m, rfl⟩ : ∃ m, fuel = m + 1 := ⟨fuel - 1, by omega⟩
    have hp : 2 ^ 1 ≤ 2 ^ k := Nat.pow_le_pow_right (by omega) h1
    have hc : c.length = 2 ^ (k + 1) := by rw [h.length_eq, List.length_map, rootsC_length]
    have st := ifftErr_step k (by omega) M e hM0 he
    have u0 := uu_pos
    have t0 := et_pos
    have me : 0 ≤ uu * (M + e) := by positivity
    have em : e ≤ ifftErr (k + 1) M e := by
      unfold ifftErr
      have : 0 ≤ ((k + 1 : Nat) : ℝ) * (31 * uu * (M + e) + 32 * et) := by positivity
      linarith
    obtain ⟨rs, Rs, e1, e2, f1, f2, b1, b2⟩ := (split_near_variant va) k h2 e M (by linarith) 0 c _ h hM (by omega)
    have hs : SplitFFT exactOps ((rootsC (k + 1)).map (evalR f)) =
        .ok ((rootsC k).map (evalR (splitPolys f).1), (rootsC k).map (evalR (splitPolys f).2)) := by
      unfold SplitFFT
      rw [List.length_map, rootsC_length]
      have hm := split_exact k h2 (evalR (splitPolys f).1) (evalR (splitPolys f).2) (2 ^ k) 0 (by omega)
      unfold rootsC
      rw [List.map_map, List.map_map, List.map_map]
      rw [List.range_eq_range', List.range_eq_range']
      refine Eq.trans ?_ hm
      rw [show 2 * 0 = 0 by rfl, show 2 * 2 ^ k = 2 ^ (k + 1) by ring]
      congr 1
      apply List.map_congr_left
      intro j _
      exact evalR_split f (by rw [hf, pow_succ]; omega) _
    unfold SplitFFT at hs
    rw [List.length_map, rootsC_length, e2] at hs
    have hR := Go.ok.inj hs
    subst hR
    have l1 : (splitPolys f).1.length = 2 ^ k := by rw [splitPolys_length1, hf, pow_succ]; omega
    have l2 : (splitPolys f).2.length = 2 ^ k := by rw [splitPolys_length2, hf, pow_succ]; omega
    have e0 : 0 ≤ e + 30 * uu * (M + e) + 20 * et := by linarith
    obtain ⟨a, ea, fa⟩ := ih (by omega) _ l1 rs.1 _ f1 b1 (by linarith) e0 m (by omega)
    obtain ⟨b, eb, fb⟩ := ih (by omega) _ l2 rs.2 _ f2 b2 (by linarith) e0 m (by omega)
    rw [ifftAux_succ, if_pos (by rw [hc, pow_succ]; omega)]
    have hS : SplitFFT va.ops c = .ok rs := by
      unfold SplitFFT
      rw [hc]
      exact e1
    rw [hS, Go.ok_bind, ea, Go.ok_bind, eb, Go.ok_bind]
    have hfl : f.length % 2 = 0 := by rw [hf, pow_succ]; omega
    have mp : mergePolys (splitPolys f).1 (splitPolys f).2 = .ok f := by
      clear * - hfl
      induction f using List.twoStepInduction with
      | nil => rfl
      | singleton a => simp at hfl
      | cons_cons a b rest ih _ =>
        have := ih (by simp at hfl; omega)
        simp [splitPolys, mergePolys, this]
    obtain ⟨r, er, fr⟩ := mergePolys_near _ a b _ _ fa fb (by rw [fa.length_eq, fb.length_eq, l1, l2]) f mp
    exact ⟨r, er, forall₂_mono fr fun x y hxy => hxy.mono st⟩

theorem ifftAux_near (k : Nat) (h1 : 1 ≤ k) (h2 : k ≤ 10) (f : List ℝ) (hf : f.length = 2 ^ k) (c : List (F64 × F64)) (e M : ℝ)
    (h : List.Forall₂ (CNear e) c ((rootsC k).map (evalR f))) (hM : ∀ z ∈ (rootsC k).map (evalR f), ‖z‖ ≤ M)
    (hbig : 100 * (M + ifftErr k M e + 1) ≤ Big) (he : 0 ≤ e) (hM0 : 0 ≤ M) (fuel : Nat) (hfu : k ≤ fuel) :
    ∃ r, ifftAux ieeeOps fuel c = .ok r ∧ List.Forall₂ (RNear (ifftErr k M e)) r f :=
  ifftAux_near_variant amd64V k h1 h2 f hf c e M h hM hbig he hM0 fuel hfu

theorem IFFT_near_variant (va : Variant) (k : Nat) (h1 : 1 ≤ k) (h2 : k ≤ 10) (f : List ℝ) (hf : f.length = 2 ^ k) (c : List (F64 × F64)) (e M : ℝ)
    (h : List.Forall₂ (CNear e) c ((rootsC k).map (evalR f))) (hM : ∀ z ∈ (rootsC k).map (evalR f), ‖z‖ ≤ M)
    (hbig : 300 * (M + e + 1) ≤ Big) (he : 0 ≤ e) (hM0 : 0 ≤ M) :
    ∃ r, IFFT va.ops c = .ok r ∧ List.Forall₂ (RNear (ifftErr k M e)) r f := by
  have hc : c.length = 2 ^ k := by rw [h.length_eq, List.length_map, rootsC_length]
  have := ifftErr_le k h2 M e hM0 he
  refine (ifftAux_near_variant va) k h1 h2 f hf c e M h hM (by linarith) he hM0 _ ?_
  rw [hc]
  exact (Nat.lt_two_pow_self).le.trans (Nat.le_succ _)

theorem IFFT_near (k : Nat) (h1 : 1 ≤ k) (h2 : k ≤ 10) (f : List ℝ) (hf : f.length = 2 ^ k) (c : List (F64 × F64)) (e M : ℝ)
    (h : List.Forall₂ (CNear e) c ((rootsC k).map (evalR f))) (hM : ∀ z ∈ (rootsC k).map (evalR f), ‖z‖ ≤ M)
    (hbig : 300 * (M + e + 1) ≤ Big) (he : 0 ≤ e) (hM0 : 0 ≤ M) :
    ∃ r, IFFT ieeeOps c = .ok r ∧ List.Forall₂ (RNear (ifftErr k M e)) r f :=
  IFFT_near_variant amd64V k h1 h2 f hf c e M h hM hbig he hM0

/-! ### Numeric bounds -/

theorem fftErr_num (k : Nat) (h : k ≤ 10) (S : ℝ) (hS : 0 ≤ S) : fftErr k S ≤ 3 / 10 ^ 14 * S + 1 / 10 ^ 110 := by
  have hk : (k : ℝ) ≤ 10 := by exact_mod_cast h
  have hp : (4 : ℝ) ^ k ≤ 4 ^ 10 := pow_le_pow_right₀ (by norm_num) h
  have u0 := uu_pos
  have t0 := et_pos
  have a1 : 27 * k * uu * S ≤ 27 * 10 * (1 / 9 / 10 ^ 15) * S := by
    have u1 := uu_le
    gcongr
  have a2 : 16 * 4 ^ k * et ≤ 16 * 4 ^ 10 * (1 / 10 ^ 120) := by
    have := et_num
    gcongr
  unfold fftErr
  have : (16 * 4 ^ 10 * (1 / 10 ^ 120) : ℝ) ≤ 1 / 10 ^ 110 := by norm_num
  linarith

theorem ifftErr_num (k : Nat) (h : k ≤ 10) (M e : ℝ) (hM : 0 ≤ M) (he : 0 ≤ e) : ifftErr k M e ≤ e + 35 / 10 ^ 15 * (M + e) + 1 / 10 ^ 110 := by
  have hk : (k : ℝ) ≤ 10 := by exact_mod_cast h
  have u0 := uu_pos
  have t0 := et_pos
  have : (k : ℝ) * (31 * uu * (M + e) + 32 * et) ≤ 10 * (31 * (1 / 9 / 10 ^ 15) * (M + e) + 32 * (1 / 10 ^ 120)) := by
    have := et_num
    have u1 := uu_le
    gcongr
  unfold ifftErr
  have h3 : (10 * (32 * (1 / 10 ^ 120)) : ℝ) ≤ 1 / 10 ^ 110 := by norm_num
  have : 0 ≤ M + e := by linarith
  linarith

theorem uu_num : uu ≤ 1 / 9 / 10 ^ 15 := uu_le

/-- The components of two vectors of computed slots. -/
theorem zipWith_near {α : Type} {r1 r2 r3 : F64 × F64 → ℂ → Prop} (L : List α) (p q s : α → ℂ) (op : F64 × F64 → F64 × F64 → F64 × F64)
    (a b : List (F64 × F64)) (ha : List.Forall₂ r1 a (L.map p)) (hb : List.Forall₂ r2 b (L.map q))
    (h : ∀ x ∈ L, ∀ c d, r1 c (p x) → r2 d (q x) → r3 (op c d) (s x)) : List.Forall₂ r3 (List.zipWith op a b) (L.map s) := by
  induction L generalizing a b with
  | nil => cases ha; cases hb; exact .nil
  | cons x L ih =>
    cases ha with | cons h1 ha => cases hb with | cons h2 hb =>
    exact .cons (h x (by simp) _ _ h1 h2) (ih _ _ ha hb fun y hy => h y (by simp [hy]))

theorem map_near {α : Type} {r1 r3 : F64 × F64 → ℂ → Prop} (L : List α) (p s : α → ℂ) (op : F64 × F64 → F64 × F64)
    (a : List (F64 × F64)) (ha : List.Forall₂ r1 a (L.map p)) (h : ∀ x ∈ L, ∀ c, r1 c (p x) → r3 (op c) (s x)) :
    List.Forall₂ r3 (a.map op) (L.map s) := by
  induction L generalizing a with
  | nil => cases ha; exact .nil
  | cons x L ih =>
    cases ha with | cons h1 ha =>
    exact .cons (h x (by simp) _ h1) (ih _ ha fun y hy => h y (by simp [hy]))

/-- The bound for slot products. -/
noncomputable def mulErr (A B a b : ℝ) : ℝ := A * b + a * (B + b) + 4 * uu * ((A + a) * (B + b)) + 8 * et

theorem mulErr_nonneg (A B a b : ℝ) (hA : 0 ≤ A) (hB : 0 ≤ B) (ha : 0 ≤ a) (hb : 0 ≤ b) : 0 ≤ mulErr A B a b := by
  have := uu_pos
  have := et_pos
  unfold mulErr
  positivity

theorem mulErr_num (k : Nat) (h : k ≤ 10) (A B : ℝ) (hA : 0 ≤ A) (hB : 0 ≤ B) :
    mulErr A B (fftErr k A) (fftErr k B) ≤ 605 / 10 ^ 16 * (A * B) + 1 / 10 ^ 108 * (A + B + 1) := by
  have a1 := fftErr_num k h A hA
  have b1 := fftErr_num k h B hB
  have a0 := fftErr_nonneg k A hA
  have b0 := fftErr_nonneg k B hB
  have u1 := uu_le
  have u0 := uu_pos
  have t1 := et_num
  unfold mulErr
  have key : A * fftErr k B + fftErr k A * (B + fftErr k B) + 4 * uu * ((A + fftErr k A) * (B + fftErr k B)) + 8 * et ≤
      A * (3 / 10 ^ 14 * B + 1 / 10 ^ 110) + (3 / 10 ^ 14 * A + 1 / 10 ^ 110) * (B + (3 / 10 ^ 14 * B + 1 / 10 ^ 110)) +
      4 * (1 / 9 / 10 ^ 15) * ((A + (3 / 10 ^ 14 * A + 1 / 10 ^ 110)) * (B + (3 / 10 ^ 14 * B + 1 / 10 ^ 110))) + 8 * (1 / 10 ^ 120) := by
    gcongr
  refine key.trans ?_
  have := mul_nonneg hA hB
  nlinarith

/-- `Mul` of two finite vectors. -/
theorem Mul_near_variant (va : Variant) (k : Nat) (h1 : 1 ≤ k) (h2 : k ≤ 10) (f g : List F64) (hf : f.length = 2 ^ k) (hg : g.length = 2 ^ k)
    (ff : ∀ x ∈ f, x.isFinite = true) (fg : ∀ x ∈ g, x.isFinite = true) (A B : ℝ) (hA : l1 (f.map R) ≤ A) (hB : l1 (g.map R) ≤ B)
    (bA : A ≤ 10 ^ 40) (bB : B ≤ 10 ^ 40) (p : List ℝ) (hp : p.length = 2 ^ k)
    (hd : (Polynomial.X ^ 2 ^ k + 1 : Polynomial ℝ) ∣ poly (f.map R) * poly (g.map R) - poly p) :
    ∃ r, Mul va.ops f g = .ok r ∧ List.Forall₂ (RNear (1 / 10 ^ 13 * (A * B) + 1 / 10 ^ 100 * (A + B + 1))) r p := by
  have big := Big_ge'
  have nA := (l1_nonneg (f.map R)).trans hA
  have nB := (l1_nonneg (g.map R)).trans hB
  have monoErr : ∀ S T : ℝ, S ≤ T → fftErr k S ≤ fftErr k T := by
    intro S T h
    have := uu_pos
    unfold fftErr
    gcongr
  obtain ⟨a, ea, na⟩ := (FFT_near_variant va) k h1 h2 f hf ff (by linarith)
  obtain ⟨b, eb, nb⟩ := (FFT_near_variant va) k h1 h2 g hg fg (by linarith)
  have la : a.length = 2 ^ k := by rw [na.length_eq, List.length_map, rootsC_length]
  have lb : b.length = 2 ^ k := by rw [nb.length_eq, List.length_map, rootsC_length]
  set eA := fftErr k A
  set eB := fftErr k B
  have eA0 : 0 ≤ eA := fftErr_nonneg k A nA
  have eB0 : 0 ≤ eB := fftErr_nonneg k B nB
  have eA1 := fftErr_le k h2 A nA
  have eB1 := fftErr_le k h2 B nB
  have slot : ∀ w ∈ rootsC k, evalR p w = evalR (f.map R) w * evalR (g.map R) w := by
    intro w hw
    have := evalR_dvd k _ hd w hw
    rw [Polynomial.eval₂_sub, Polynomial.eval₂_mul, ← evalR_eq, ← evalR_eq, ← evalR_eq, sub_eq_zero] at this
    exact this.symm
  have nm : List.Forall₂ (CNear (mulErr A B eA eB)) (List.zipWith va.ops.cmul a b) ((rootsC k).map (evalR p)) := by
    refine zipWith_near (rootsC k) _ _ _ _ a b na nb fun w hw c d hc hd' => ?_
    rw [slot w hw]
    have w1 := rootsC_norm k w hw
    refine (cmul_cnear_variant va) eA eB A B c d _ _ (hc.mono (monoErr _ _ hA)) (hd'.mono (monoErr _ _ hB)) ((evalR_norm _ w w1).trans hA)
      ((evalR_norm _ w w1).trans hB) ?_
    have q1 : A + eA ≤ 10 ^ 41 := by linarith
    have q2 : B + eB ≤ 10 ^ 41 := by linarith
    have : (A + eA) * (B + eB) ≤ 10 ^ 41 * 10 ^ 41 := mul_le_mul q1 q2 (by linarith) (by positivity)
    linarith
  have num := mulErr_num k h2 A B nA nB
  have nn := mulErr_nonneg A B eA eB nA nB eA0 eB0
  have hAB : A * B ≤ 10 ^ 40 * 10 ^ 40 := mul_le_mul bA bB nB (by positivity)
  have hAB0 : 0 ≤ A * B := mul_nonneg nA nB
  obtain ⟨r, er, nr⟩ := (IFFT_near_variant va) k h1 h2 p hp _ (mulErr A B eA eB) (A * B) nm (by
    intro z hz
    obtain ⟨w, hw, rfl⟩ := List.mem_map.1 hz
    have w1 := rootsC_norm k w hw
    rw [slot w hw, norm_mul]
    exact mul_le_mul ((evalR_norm _ w w1).trans hA) ((evalR_norm _ w w1).trans hB) (norm_nonneg _) nA) (by linarith) nn hAB0
  refine ⟨r, ?_, forall₂_mono nr fun x y h => h.mono ?_⟩
  · unfold Mul
    rw [ea, Go.ok_bind, eb, Go.ok_bind]
    unfold MulFFT
    rw [if_neg (by omega)]
    exact er
  · refine (ifftErr_num k h2 _ _ hAB0 nn).trans ?_
    linarith

theorem Mul_near (k : Nat) (h1 : 1 ≤ k) (h2 : k ≤ 10) (f g : List F64) (hf : f.length = 2 ^ k) (hg : g.length = 2 ^ k)
    (ff : ∀ x ∈ f, x.isFinite = true) (fg : ∀ x ∈ g, x.isFinite = true) (A B : ℝ) (hA : l1 (f.map R) ≤ A) (hB : l1 (g.map R) ≤ B)
    (bA : A ≤ 10 ^ 40) (bB : B ≤ 10 ^ 40) (p : List ℝ) (hp : p.length = 2 ^ k)
    (hd : (Polynomial.X ^ 2 ^ k + 1 : Polynomial ℝ) ∣ poly (f.map R) * poly (g.map R) - poly p) :
    ∃ r, Mul ieeeOps f g = .ok r ∧ List.Forall₂ (RNear (1 / 10 ^ 13 * (A * B) + 1 / 10 ^ 100 * (A + B + 1))) r p :=
  Mul_near_variant amd64V k h1 h2 f g hf hg ff fg A B hA hB bA bB p hp hd

end Falcon
