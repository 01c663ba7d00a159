import Verif.Lemmas.BabaiFine
import Verif.Props.BabaiFloat
import Verif.Props.HaltExact
/-!
# When `reduce` terminates in IEEE arithmetic (C70), and how short its results are (C67)
-/

namespace Falcon
open Spec Polynomial ComplexConjugate F64

/-- A real number at a distance of at least `δ` from every number halfway between two integers. -/
def FarFromTie (δ x : ℝ) : Prop := ∀ m : ℤ, δ ≤ |x - (m + 1 / 2)|

theorem far_sub (δ x : ℝ) (m : ℤ) (h : FarFromTie δ x) : FarFromTie δ (x - m) := by
  intro a
  have := h (a + m)
  rw [show x - m - (a + 1 / 2) = x - ((a + m : ℤ) + 1 / 2) by push_cast; ring]
  exact this

/-- The hypotheses on `(f, g)`: within the norm bound of Falcon, and not too small at any root of unity. -/
structure Lat (k : Nat) (f g : List Int) : Prop where
  lf : f.length = 2 ^ k
  lg : g.length = 2 ^ k
  hn : sqNorm (realI f) + sqNorm (realI g) ≤ 1.17 ^ 2 * 12289
  hd : ∀ w ∈ rootsC k, 784 / 100 ≤ gramAt f g w

theorem Lat.coprime {k : Nat} {f g : List Int} (h : Lat k f g) : IsCoprime (X ^ 2 ^ k + 1 : ℝ[X]) (gramPoly (realI f) (realI g)) := by
  refine gram_coprime k (realI f) (realI g) (by rw [realI_length, h.lf]) (by rw [realI_length, h.lg]) fun w hw => ?_
  by_contra hc
  push Not at hc
  have := h.hd w hw
  rw [gramAt, hc.1, hc.2, map_zero, add_zero] at this
  norm_num at this

/-- The transforms of `f` and `g` that `reduce` computes. -/
structure Ctx (k : Nat) (f g : List Int) (fa ga : List (F64 × F64)) : Prop extends Lat k f g where
  nf : List.Forall₂ (CNear (31 / 10 ^ 15 * (l1 (realI f) + 1))) fa ((rootsC k).map (evalR (realI f)))
  ng : List.Forall₂ (CNear (31 / 10 ^ 15 * (l1 (realI g) + 1))) ga ((rootsC k).map (evalR (realI g)))

theorem reduce_ctx_variant (va : Variant) {k : Nat} (h1 : 1 ≤ k) (h2 : k ≤ 10) {f g : List Int} (h : Lat k f g) :
    ∃ fa ga, Ctx k f g fa ga ∧ ∀ fuel F G, reduce va.ops fuel f g F G = reduceLoop va.ops f g 53 fa ga fuel F G := by
  have hs : ∀ v ∈ f ++ g, v.natAbs < 2 ^ 48 := by
    intro v hv
    have hn := h.hn
    have q1 := sqNorm_nonneg (realI f)
    have q2 := sqNorm_nonneg (realI g)
    have hv2 : (v : ℝ) ^ 2 ≤ 1.17 ^ 2 * 12289 := by
      rcases List.mem_append.1 hv with hv | hv
      · exact (sq_le_sqNorm (realI f) v (List.mem_map_of_mem hv)).trans (by linarith)
      · exact (sq_le_sqNorm (realI g) v (List.mem_map_of_mem hv)).trans (by linarith)
    have hv3 : v ^ 2 < 2 ^ 15 := by
      have : (v : ℝ) ^ 2 < 2 ^ 15 := lt_of_le_of_lt hv2 (by norm_num)
      exact_mod_cast this
    have h4 : v < 2 ^ 48 := by nlinarith
    have h5 : -(2 ^ 48) < v := by nlinarith
    omega
  obtain ⟨size, esz⟩ := sizeOf2_ok f g (ne_nil_of_length h.lf) (ne_nil_of_length h.lg)
  have hsize : size = 53 := by
    obtain ⟨a, _, c⟩ := sizeOf2_spec f g size esz
    rcases c with c | ⟨c, v, hv, hv2⟩
    · exact c
    · have := hs v hv
      have : 2 ^ 48 ≤ 2 ^ (size - 8) := Nat.pow_le_pow_right (by decide) (by omega)
      omega
  subst hsize
  have hsz := sizeOf2_spec f g 53 esz
  obtain ⟨af1, af2, af3, -⟩ := (adjust_ieee_variant va) 0 f (fun v hv => hsz.2.1 v (List.mem_append_left _ hv))
  obtain ⟨ag1, ag2, ag3, -⟩ := (adjust_ieee_variant va) 0 g (fun v hv => hsz.2.1 v (List.mem_append_right _ hv))
  rw [map_shift_zero] at af3 ag3
  obtain ⟨sf, sg, -, -⟩ := short_l1 k h2 f g h.lf h.lg h.hn
  obtain ⟨fa, ef, nf⟩ := (FFT_near'_variant va) k h1 h2 _ (af1.trans h.lf) af2 (l1 (realI f) + 1) (by rw [af3]) (by linarith)
  obtain ⟨ga, eg, ng⟩ := (FFT_near'_variant va) k h1 h2 _ (ag1.trans h.lg) ag2 (l1 (realI g) + 1) (by rw [ag3]) (by linarith)
  rw [af3] at nf
  rw [ag3] at ng
  refine ⟨fa, ga, ⟨h, nf, ng⟩, fun fuel F G => ?_⟩
  unfold reduce
  rw [esz, Go.ok_bind, show (53 : Nat) = 53 + 0 from rfl, ef, Go.ok_bind, eg, Go.ok_bind]

theorem reduce_ctx {k : Nat} (h1 : 1 ≤ k) (h2 : k ≤ 10) {f g : List Int} (h : Lat k f g) :
    ∃ fa ga, Ctx k f g fa ga ∧ ∀ fuel F G, reduce ieeeOps fuel f g F G = reduceLoop ieeeOps f g 53 fa ga fuel F G :=
  reduce_ctx_variant amd64V h1 h2 h

/-! ### Rounding -/

theorem round_ieee_variant (va : Variant) (a : F64) (h : a.isFinite = true) (hb : |R a| ≤ 2 * 10 ^ 9 ∨ va.Wide ∧ |R a| ≤ 9 * 10 ^ 18) :
    |R a - (va.ops.toInt (va.ops.round a) : ℝ)| ≤ 1 / 2 ∧ (|R a| < 1 / 2 → va.ops.toInt (va.ops.round a) = 0) := by
  rcases isFinite_cases a h with ⟨s, rfl⟩ | ⟨x, rfl⟩
  · have : va.ops.toInt (va.ops.round (F64.zero s)) = 0 := by
      exact va.toInt_zero s
    rw [this, R_zero]
    norm_num
  · rw [R_fin] at hb ⊢
    have hbq : |x| ≤ 2 * 10 ^ 9 ∨ va.Wide ∧ |x| ≤ 9 * 10 ^ 18 := by
      rcases hb with hb | ⟨hw, hb⟩
      · left; exact_mod_cast hb
      · right; exact ⟨hw, by exact_mod_cast hb⟩
    have ha : |x - awayInt x| ≤ 1 / 2 := by
      rw [abs_le]
      unfold awayInt
      split
      · have h1 : (⌊x + 1 / 2⌋ : ℚ) ≤ x + 1 / 2 := Int.floor_le _
        have h2 : x + 1 / 2 < (⌊x + 1 / 2⌋ : ℚ) + 1 := Int.lt_floor_add_one _
        show -(1 / 2) ≤ x - (⌊x + 1 / 2⌋ : ℚ) ∧ x - (⌊x + 1 / 2⌋ : ℚ) ≤ 1 / 2
        constructor <;> linarith
      · have h1 : (⌊-x + 1 / 2⌋ : ℚ) ≤ -x + 1 / 2 := Int.floor_le _
        have h2 : -x + 1 / 2 < (⌊-x + 1 / 2⌋ : ℚ) + 1 := Int.lt_floor_add_one _
        show -(1 / 2) ≤ x - ((-⌊-x + 1 / 2⌋ : ℤ) : ℚ) ∧ x - ((-⌊-x + 1 / 2⌋ : ℤ) : ℚ) ≤ 1 / 2
        push_cast
        constructor <;> linarith
    have hr : va.ops.toInt (va.ops.round (F64.fin x)) = awayInt x := by
      show va.toInt (round (.fin x)) = awayInt x
      unfold F64.round
      by_cases h0 : awayInt x = 0
      · simp only [h0, if_true]
        exact va.toInt_zero _
      · simp only [h0, if_false]
        rw [abs_le] at ha
        rcases hbq with hbq | ⟨hw, hbq⟩
        · rw [abs_le] at hbq
          have l1 : (-(2 ^ 31) : ℚ) ≤ awayInt x := by linarith [ha.1, ha.2, hbq.1, hbq.2]
          have l2 : (awayInt x : ℚ) < 2 ^ 31 := by linarith [ha.1, ha.2, hbq.1, hbq.2]
          exact va.toInt_int _ (by exact_mod_cast l1) (by exact_mod_cast l2)
        · rw [abs_le] at hbq
          have l1 : (-(2 ^ 63) : ℚ) ≤ awayInt x := by linarith [ha.1, ha.2, hbq.1, hbq.2]
          have l2 : (awayInt x : ℚ) < 2 ^ 63 := by linarith [ha.1, ha.2, hbq.1, hbq.2]
          exact hw.toInt_int _ (by exact_mod_cast l1) (by exact_mod_cast l2)
    rw [hr]
    constructor
    · have : ((|x - awayInt x| : ℚ) : ℝ) ≤ ((1 / 2 : ℚ) : ℝ) := by exact_mod_cast ha
      push_cast at this
      exact this
    · intro hlt
      apply awayInt_near
      have : ((|x| : ℚ) : ℝ) < ((1 / 2 : ℚ) : ℝ) := by push_cast; exact hlt
      rw [Int.cast_zero, sub_zero]
      exact_mod_cast this

theorem round_ieee (a : F64) (h : a.isFinite = true) (hb : |R a| ≤ 9 * 10 ^ 18) :
    |R a - (ieeeOps.toInt (ieeeOps.round a) : ℝ)| ≤ 1 / 2 ∧ (|R a| < 1 / 2 → ieeeOps.toInt (ieeeOps.round a) = 0) :=
  round_ieee_variant amd64V a h (.inr ⟨amd64V_wide, hb⟩)

/-! ### One iteration -/

/-- One iteration of the loop of `reduce`, from the coefficients that are subtracted. -/
theorem loop_step {O : FloatOps} {k : Nat} {f g F G : List Int} (lf : f.length = 2 ^ k) (lg : g.length = 2 ^ k) (hs : Solves k f g F G) (fa ga : List O.C)
    (κ μ : List ℝ) (hκ : IsQuot k (realI f) (realI g) (realI F) (realI G) κ) (s : Nat) (hS : sizeOf2 F G = .ok (53 + s))
    (hμ : IsQuot k (realI f) (realI g) (realI (F.map fun v : Int => v >>> s)) (realI (G.map fun v : Int => v >>> s)) μ)
    (q : List Int) (lq : q.length = 2 ^ k) (hb : babai O fa ga (adjust O (53 + s) F) (adjust O (53 + s) G) = .ok q) :
    ((∀ x ∈ q, x = 0) ∧ ∀ fuel, reduceLoop O f g 53 fa ga (fuel + 1) F G = .ok (F, G)) ∨
      ∃ F1 G1 : List Int, (∀ fuel, reduceLoop O f g 53 fa ga (fuel + 1) F G = reduceLoop O f g 53 fa ga fuel F1 G1) ∧ Solves k f g F1 G1 ∧
        (∃ x ∈ q, x ≠ 0) ∧
        IsQuot k (realI f) (realI g) (realI F1) (realI G1) (List.zipWith (fun (x : ℝ) (y : Int) => x - 2 ^ s * y) κ q) ∧
        IsQuot k (realI f) (realI g) (realI (F1.map fun v : Int => v >>> s)) (realI (G1.map fun v : Int => v >>> s))
          (List.zipWith (fun (x : ℝ) (y : Int) => x - y) μ q) := by
  by_cases hz : allZeroes q = true
  · left
    constructor
    · intro x hx
      rw [C55_allZeroes] at hz
      exact hz _ hx
    · intro fuel
      rw [reduceLoop, hS, Go.ok_bind, if_neg (by omega), hb, Go.ok_bind, if_pos hz]
      rfl
  · right
    obtain ⟨fk, e1, l1, c1⟩ := karamul_ok k f q lf lq
    obtain ⟨gk, e2, l2, c2⟩ := karamul_ok k g q lg lq
    have lF := hs.lF
    have lG := hs.lG
    obtain ⟨F1, e3, l3, -⟩ := subShifted_ok fk s f.length 0 F (by omega) (by omega)
    obtain ⟨G1, e4, l4, -⟩ := subShifted_ok gk s f.length 0 G (by omega) (by omega)
    have z3 := subShifted_coeff fk s f.length F F1 (by omega) (by omega) e3
    have z4 := subShifted_coeff gk s f.length G G1 (by omega) (by omega) e4
    have real : ∀ a r : List Int, CongrZ (2 ^ k) (polyZ a * polyZ q) (polyZ r) →
        (X ^ 2 ^ k + 1 : ℝ[X]) ∣ poly (realI a) * poly (realI q) - poly (realI r) := by
      intro a r hc
      obtain ⟨c, hcc⟩ := hc
      refine ⟨c.map (Int.castRingHom ℝ), ?_⟩
      have := congrArg (Polynomial.map (Int.castRingHom ℝ)) hcc
      unfold polyZ at this
      simp only [Polynomial.map_sub, Polynomial.map_mul, Polynomial.map_add, Polynomial.map_pow, Polynomial.map_X, Polynomial.map_one] at this
      rw [poly_realI, poly_realI, poly_realI]
      exact this
    have r1 := real f fk c1
    have r2 := real g gk c2
    have pF : poly (realI F1) = poly (realI F) - C (2 ^ s) * poly (realI fk) := by
      rw [z3]; exact poly_zipWith_sub F fk (by omega) (2 ^ s) (2 ^ s) (by push_cast; rfl)
    have pG : poly (realI G1) = poly (realI G) - C (2 ^ s) * poly (realI gk) := by
      rw [z4]; exact poly_zipWith_sub G gk (by omega) (2 ^ s) (2 ^ s) (by push_cast; rfl)
    have one : ∀ A B : List Int, List.zipWith (fun a b : Int => a - b) A B = List.zipWith (fun a b : Int => a - 1 * b) A B := by
      intro A B; simp only [one_mul]
    have sF : poly (realI (F1.map fun v : Int => v >>> s)) = poly (realI (F.map fun v : Int => v >>> s)) - C 1 * poly (realI fk) := by
      rw [z3, map_shift_sub, one]
      exact poly_zipWith_sub _ fk (by rw [List.length_map]; omega) 1 1 (by push_cast; rfl)
    have sG : poly (realI (G1.map fun v : Int => v >>> s)) = poly (realI (G.map fun v : Int => v >>> s)) - C 1 * poly (realI gk) := by
      rw [z4, map_shift_sub, one]
      exact poly_zipWith_sub _ gk (by rw [List.length_map]; omega) 1 1 (by push_cast; rfl)
    refine ⟨F1, G1, ?_, ⟨by omega, by omega, ?_⟩, ?_, ?_, ?_⟩
    · intro fuel
      rw [reduceLoop, hS, Go.ok_bind, if_neg (by omega), hb, Go.ok_bind, if_neg hz, e1, Go.ok_bind, e2, Go.ok_bind,
        show 53 + s - 53 = s by omega, e3, Go.ok_bind, e4, Go.ok_bind]
    · obtain ⟨c, hc⟩ := hs.det
      obtain ⟨a, ha⟩ := r1
      obtain ⟨b, hb⟩ := r2
      rw [pF, pG]
      exact ⟨c + C (2 ^ s) * (poly (realI f) * b - poly (realI g) * a),
        by linear_combination hc + C (2 ^ s) * (poly (realI f) * hb - poly (realI g) * ha)⟩
    · by_contra hc
      push Not at hc
      exact hz ((C55_allZeroes q).2 hc)
    · have := quot_sub k (realI f) (realI g) (realI F) (realI G) κ (realI q) (realI fk) (realI gk) (realI F1) (realI G1)
        (by rw [realI_length, lq]) (2 ^ s) hκ r1 r2 pF pG
      convert this using 1
      unfold realI
      rw [List.map_map, List.zipWith_map_right]
      congr 1
      funext x y
      simp only [Function.comp_apply]
      ring
    · have := quot_sub k (realI f) (realI g) _ _ μ (realI q) (realI fk) (realI gk) _ _
        (by rw [realI_length, lq]) 1 hμ r1 r2 sF sG
      convert this using 1
      unfold realI
      rw [List.map_map, List.zipWith_map_right]
      congr 1
      funext x y
      simp only [Function.comp_apply]
      ring

theorem forall₂_round_variant (va : Variant) {e B : ℝ} (hB : B + e ≤ 2 * 10 ^ 9 ∨ va.Wide ∧ B + e ≤ 9 * 10 ^ 18) {r : List F64} {κ : List ℝ} (h : List.Forall₂ (RNear e) r κ) (hκ : ∀ x ∈ κ, |x| ≤ B) :
    List.Forall₂ (fun (x : ℝ) (y : Int) => |x - y| ≤ 1 / 2 + e ∧ (|x| + e < 1 / 2 → y = 0)) κ (RoundAll va.ops r) := by
  have hr : RoundAll va.ops r = r.map fun x => va.ops.toInt (va.ops.round x) := rfl
  rw [hr]
  clear hr
  induction h with
  | nil => exact .nil
  | cons hab _ ih =>
    rename_i a b l m _
    refine .cons ?_ (ih fun x hx => hκ x (by simp [hx]))
    have hb := hκ b (by simp)
    have t := abs_sub_abs_le_abs_sub (R a) b
    have h2 := hab.2
    obtain ⟨u1, u2⟩ := (round_ieee_variant va) a hab.1 (hB.imp (fun _ => by linarith) fun hB => ⟨hB.1, by linarith [hB.2]⟩)
    constructor
    · have := abs_sub_le b (R a) (va.ops.toInt (va.ops.round a) : ℝ)
      rw [abs_sub_comm b (R a)] at this
      show |b - (va.ops.toInt (va.ops.round a) : ℝ)| ≤ _
      linarith
    · intro hlt
      exact u2 (by linarith)

theorem forall₂_round {e B : ℝ} (hB : B + e ≤ 9 * 10 ^ 18) {r : List F64} {κ : List ℝ} (h : List.Forall₂ (RNear e) r κ) (hκ : ∀ x ∈ κ, |x| ≤ B) :
    List.Forall₂ (fun (x : ℝ) (y : Int) => |x - y| ≤ 1 / 2 + e ∧ (|x| + e < 1 / 2 → y = 0)) κ (RoundAll ieeeOps r) :=
  forall₂_round_variant amd64V (.inr ⟨amd64V_wide, hB⟩) h hκ

theorem zip_bound {c : ℝ} {P : ℝ → Int → Prop} {κ : List ℝ} {q : List Int} (h : List.Forall₂ (fun (x : ℝ) (y : Int) => |x - (y : ℝ)| ≤ c ∧ P x y) κ q) :
    ∀ x ∈ List.zipWith (fun (x : ℝ) (y : Int) => x - y) κ q, |x| ≤ c := by
  induction h with
  | nil => simp
  | cons hab _ ih =>
    intro x hx
    simp only [List.zipWith_cons_cons, List.mem_cons] at hx
    rcases hx with rfl | hx
    · exact hab.1
    · exact ih x hx

theorem zip_far {δ : ℝ} (s : Nat) (κ : List ℝ) (q : List Int) (h : ∀ x ∈ κ, FarFromTie δ x) :
    ∀ x ∈ List.zipWith (fun (x : ℝ) (y : Int) => x - 2 ^ s * y) κ q, FarFromTie δ x := by
  induction κ generalizing q with
  | nil => simp
  | cons a κ ih =>
    rcases q with _ | ⟨b, q⟩
    · simp
    · intro x hx
      simp only [List.zipWith_cons_cons, List.mem_cons] at hx
      rcases hx with rfl | hx
      · have := far_sub δ a (2 ^ s * b) (h a (by simp))
        push_cast at this
        exact this
      · exact ih q (fun y hy => h y (by simp [hy])) x hx

theorem adjust_l1 {k : Nat} (h2 : k ≤ 10) {l : List Int} (hl : l.length = 2 ^ k) {s : Nat} (hb : ∀ x ∈ realI (l.map fun v : Int => v >>> s), |x| ≤ 2 ^ 53) :
    l1 (realI (l.map fun v : Int => v >>> s)) ≤ 2 ^ 63 := by
  have hk : (2 : ℝ) ^ k ≤ 2 ^ 10 := pow_le_pow_right₀ (by norm_num) h2
  have := l1_le_length _ _ hb
  rw [realI_length, List.length_map, hl] at this
  push_cast at this
  have h3 : (2 : ℝ) ^ k * 2 ^ 53 ≤ 2 ^ 10 * 2 ^ 53 := by gcongr
  norm_num at h3 this ⊢
  linarith

/-- The values of the quotient at the roots of unity. -/
theorem quot_norm {k : Nat} {f g : List Int} (h : Lat k f g) (F G κ : List ℝ)
    (hκ : IsQuot k (realI f) (realI g) F G κ) : ∀ w ∈ rootsC k, ‖evalR κ w‖ ≤ (l1 F + l1 G) / (28 / 10) := by
  intro w hw
  have w1 := rootsC_norm k w hw
  have h3 := evalR_dvd k _ hκ.2 w hw
  have e1 : (realI f).length = 2 ^ k := by rw [realI_length, h.lf]
  have e2 : (realI g).length = 2 ^ k := by rw [realI_length, h.lg]
  rw [eval₂_sub, eval₂_mul, eval₂_add, eval₂_mul, eval₂_mul, gram_eval k _ _ e1 e2 w hw, ← evalR_eq, ← evalR_eq, ← evalR_eq,
    ← evalR_eq, ← evalR_eq, evalR_adj k _ e1 w hw, evalR_adj k _ e2 w hw, sub_eq_zero, Complex.mul_conj, Complex.mul_conj, ← Complex.ofReal_add] at h3
  have hd := h.hd w hw
  unfold gramAt at hd
  have en := fun l : List ℝ => evalR_norm l w w1
  have a0 := l1_nonneg F
  have b0 := l1_nonneg G
  have hc := cauchy2 (evalR F w) (evalR G w) (evalR (realI f) w) (evalR (realI g) w) (l1 F + l1 G) (28 / 10) (by norm_num) (by linarith) (by
    rw [Complex.normSq_eq_norm_sq, Complex.normSq_eq_norm_sq]
    have a1 := pow_le_pow_left₀ (norm_nonneg _) (en F) 2
    have a2 := pow_le_pow_left₀ (norm_nonneg _) (en G) 2
    nlinarith) (by norm_num at hd ⊢; linarith)
  generalize Complex.normSq (evalR (realI f) w) + Complex.normSq (evalR (realI g) w) = d at *
  have d0 : 0 < d := by linarith
  rw [← h3, norm_mul, Complex.norm_real, Real.norm_eq_abs, abs_of_pos d0] at hc
  exact le_of_mul_le_mul_right hc d0

theorem exists_quot {k : Nat} {f g : List Int} (h : Lat k f g) (F G : List ℝ) : ∃ κ, IsQuot k (realI f) (realI g) F G κ := by
  obtain ⟨κ, hl, hdv⟩ := exists_div k (poly F * poly (adjList (realI f)) + poly G * poly (adjList (realI g))) _ h.coprime
  exact ⟨κ, hl, hdv⟩

/-- The coefficients that an iteration subtracts, with the coarse error bound. -/
theorem coarse_step_variant (va : Variant) {k : Nat} (h1 : 1 ≤ k) (h2 : k ≤ 10) {f g F G : List Int} {fa ga : List (F64 × F64)} (h : Ctx k f g fa ga) (hF : F.length = 2 ^ k)
    (hG : G.length = 2 ^ k) (s : Nat) (hS : sizeOf2 F G = .ok (53 + s)) (μ : List ℝ)
    (hμ : IsQuot k (realI f) (realI g) (realI (F.map fun v : Int => v >>> s)) (realI (G.map fun v : Int => v >>> s)) μ) (P Q : ℝ)
    (hP : P = l1 (realI (F.map fun v : Int => v >>> s))) (hQ : Q = l1 (realI (G.map fun v : Int => v >>> s)))
    (hw : va.Wide ∨ P + Q ≤ 2 ^ 44 ∧ ∀ x ∈ μ, |x| ≤ 10 ^ 9) :
    ∃ q : List Int, q.length = 2 ^ k ∧ babai va.ops fa ga (adjust va.ops (53 + s) F) (adjust va.ops (53 + s) G) = .ok q ∧
      List.Forall₂ (fun (x : ℝ) (y : Int) => |x - y| ≤ 1 / 2 + 57 / 10 ^ 9 * (P + Q + 2) ∧ (|x| + 57 / 10 ^ 9 * (P + Q + 2) < 1 / 2 → y = 0)) μ q := by
  obtain ⟨-, hup, -⟩ := sizeOf2_spec F G _ hS
  obtain ⟨aF1, aF2, aF3, aF4⟩ := (adjust_ieee_variant va) s F (fun v hv => hup v (List.mem_append_left _ hv))
  obtain ⟨aG1, aG2, aG3, aG4⟩ := (adjust_ieee_variant va) s G (fun v hv => hup v (List.mem_append_right _ hv))
  have bF := adjust_l1 h2 hF aF4
  have bG := adjust_l1 h2 hG aG4
  rw [← hP] at bF
  rw [← hQ] at bG
  norm_num at bF bG
  obtain ⟨sf, sg, -, hSS⟩ := short_l1 k h2 f g h.lf h.lg h.hn
  obtain ⟨μ', lμ, dμ, r, er, nr⟩ := (babai_near_variant va) k h1 h2 (realI f) (realI g) (by rw [realI_length, h.lf]) (by rw [realI_length, h.lg]) fa ga _ _
    (aF1.trans hF) (aG1.trans hG) aF2 aG2 (l1 (realI f) + 1) (l1 (realI g) + 1) (P + 1) (Q + 1)
    le_rfl le_rfl (by rw [aF3, hP]) (by rw [aG3, hQ]) hSS (by linarith) (by linarith) h.nf h.ng h.hd
  rw [aF3, aG3] at dμ
  have := quot_unique k _ _ _ _ _ _ h.coprime ⟨lμ, dμ⟩ hμ
  subst this
  have p0 : 0 ≤ P := by rw [hP]; exact l1_nonneg _
  have q0 : 0 ≤ Q := by rw [hQ]; exact l1_nonneg _
  have hqn := quot_norm h.toLat _ _ _ hμ
  rw [← hP, ← hQ] at hqn
  have hb := coef_le k μ' lμ _ (by positivity) hqn
  refine ⟨_, ?_, er, ?_⟩
  · show (r.map fun x => va.ops.toInt (va.ops.round x)).length = _
    rw [List.length_map, nr.length_eq, lμ]
  · have : List.Forall₂ (fun (x : ℝ) (y : Int) => |x - y| ≤ 1 / 2 + 57 / 10 ^ 9 * (P + 1 + (Q + 1)) ∧ (|x| + 57 / 10 ^ 9 * (P + 1 + (Q + 1)) < 1 / 2 → y = 0))
        μ' (RoundAll va.ops r) := by
      rcases hw with hw | ⟨hw1, hw2⟩
      · exact forall₂_round_variant va (e := 57 / 10 ^ 9 * (P + 1 + (Q + 1))) (.inr ⟨hw, by linarith⟩) nr hb
      · exact forall₂_round_variant va (e := 57 / 10 ^ 9 * (P + 1 + (Q + 1))) (.inl (by norm_num at hw1 ⊢; linarith)) nr hw2
    rwa [show P + 1 + (Q + 1) = P + Q + 2 by ring] at this

theorem coarse_step {k : Nat} (h1 : 1 ≤ k) (h2 : k ≤ 10) {f g F G : List Int} {fa ga : List (F64 × F64)} (h : Ctx k f g fa ga) (hF : F.length = 2 ^ k)
    (hG : G.length = 2 ^ k) (s : Nat) (hS : sizeOf2 F G = .ok (53 + s)) (μ : List ℝ)
    (hμ : IsQuot k (realI f) (realI g) (realI (F.map fun v : Int => v >>> s)) (realI (G.map fun v : Int => v >>> s)) μ) (P Q : ℝ)
    (hP : P = l1 (realI (F.map fun v : Int => v >>> s))) (hQ : Q = l1 (realI (G.map fun v : Int => v >>> s))) :
    ∃ q : List Int, q.length = 2 ^ k ∧ babai ieeeOps fa ga (adjust ieeeOps (53 + s) F) (adjust ieeeOps (53 + s) G) = .ok q ∧
      List.Forall₂ (fun (x : ℝ) (y : Int) => |x - y| ≤ 1 / 2 + 57 / 10 ^ 9 * (P + Q + 2) ∧ (|x| + 57 / 10 ^ 9 * (P + Q + 2) < 1 / 2 → y = 0)) μ q :=
  coarse_step_variant amd64V h1 h2 h hF hG s hS μ hμ P Q hP hQ (.inl amd64V_wide)

/-- The coefficients that an iteration subtracts, with the fine error bound. -/
theorem fine_step_variant (va : Variant) {k : Nat} (h1 : 1 ≤ k) (h2 : k ≤ 10) {f g F G : List Int} {fa ga : List (F64 × F64)} (h : Ctx k f g fa ga) (hs : Solves k f g F G)
    (hS : sizeOf2 F G = .ok 53) (κ : List ℝ) (hκ : IsQuot k (realI f) (realI g) (realI F) (realI G) κ) (T V e : ℝ)
    (hT : l1 (realI F) + l1 (realI G) ≤ T) (hT2 : T ≤ 10 ^ 9) (hV0 : 0 ≤ V) (hV2 : V ≤ 10 ^ 9) (hV : ∀ w ∈ rootsC k, ‖evalR κ w‖ ≤ V)
    (he : 31 / 10 ^ 11 * V + 17 / 10 ^ 8 + 13 / 10 ^ 15 * (T + 2) ≤ e) (he2 : e ≤ 1) :
    ∃ q : List Int, q.length = 2 ^ k ∧ babai va.ops fa ga (adjust va.ops (53 + 0) F) (adjust va.ops (53 + 0) G) = .ok q ∧
      List.Forall₂ (fun (x : ℝ) (y : Int) => |x - y| ≤ 1 / 2 + e ∧ (|x| + e < 1 / 2 → y = 0)) κ q := by
  obtain ⟨-, hup, -⟩ := sizeOf2_spec F G _ hS
  obtain ⟨aF1, aF2, aF3, -⟩ := (adjust_ieee_variant va) 0 F (fun v hv => hup v (List.mem_append_left _ hv))
  obtain ⟨aG1, aG2, aG3, -⟩ := (adjust_ieee_variant va) 0 G (fun v hv => hup v (List.mem_append_right _ hv))
  rw [map_shift_zero] at aF3 aG3
  obtain ⟨sf, sg, -, hSS⟩ := short_l1 k h2 f g h.lf h.lg h.hn
  obtain ⟨r, er, nr⟩ := (babai_fine_variant va) k h1 h2 (realI f) (realI g) (by rw [realI_length, h.lf]) (by rw [realI_length, h.lg]) fa ga _ _
    (aF1.trans hs.lF) (aG1.trans hs.lG) aF2 aG2 sf sg hSS (T + 2) V (by rw [aF3, aG3]; linarith) (by linarith) hV0 (by linarith) h.nf h.ng h.hd
    (by rw [aF3, aG3]; exact hs.det) κ hκ.1 (by rw [aF3, aG3]; exact hκ.2) hV
  have hb := coef_le k κ hκ.1 V hV0 hV
  refine ⟨_, ?_, er, ?_⟩
  · show (r.map fun x => va.ops.toInt (va.ops.round x)).length = _
    rw [List.length_map, nr.length_eq, hκ.1]
  · exact (forall₂_round_variant va) (.inl (by linarith)) (forall₂_mono nr fun _ _ hab => hab.mono he) hb

theorem fine_step {k : Nat} (h1 : 1 ≤ k) (h2 : k ≤ 10) {f g F G : List Int} {fa ga : List (F64 × F64)} (h : Ctx k f g fa ga) (hs : Solves k f g F G)
    (hS : sizeOf2 F G = .ok 53) (κ : List ℝ) (hκ : IsQuot k (realI f) (realI g) (realI F) (realI G) κ) (T V e : ℝ)
    (hT : l1 (realI F) + l1 (realI G) ≤ T) (hT2 : T ≤ 10 ^ 9) (hV0 : 0 ≤ V) (hV2 : V ≤ 10 ^ 9) (hV : ∀ w ∈ rootsC k, ‖evalR κ w‖ ≤ V)
    (he : 31 / 10 ^ 11 * V + 17 / 10 ^ 8 + 13 / 10 ^ 15 * (T + 2) ≤ e) (he2 : e ≤ 1) :
    ∃ q : List Int, q.length = 2 ^ k ∧ babai ieeeOps fa ga (adjust ieeeOps (53 + 0) F) (adjust ieeeOps (53 + 0) G) = .ok q ∧
      List.Forall₂ (fun (x : ℝ) (y : Int) => |x - y| ≤ 1 / 2 + e ∧ (|x| + e < 1 / 2 → y = 0)) κ q :=
  fine_step_variant amd64V h1 h2 h hs hS κ hκ T V e hT hT2 hV0 hV2 hV he he2

/-- The length of a solution whose quotient is bounded. -/
theorem sol_l1 {k : Nat} (h2 : k ≤ 10) {f g : List Int} (h : Lat k f g) (a b κ D : List ℝ) (L K : ℝ) (la : a.length = 2 ^ k) (lb : b.length = 2 ^ k)
    (hL : l1 D ≤ L) (hκ : IsQuot k (realI f) (realI g) a b κ) (hK0 : 0 ≤ K) (hK : ∀ x ∈ κ, |x| ≤ K)
    (hD : (X ^ 2 ^ k + 1 : ℝ[X]) ∣ poly (realI f) * poly b - poly (realI g) * poly a - poly D) :
    l1 a + l1 b ≤ 1024 * (K * 5870 + 20 / 28 * L) ∧ (∀ x ∈ a ++ b, |x| ≤ K * 4151 + 10 / 28 * L) := by
  have hc := h.coprime
  have ef : (realI f).length = 2 ^ k := by rw [realI_length, h.lf]
  have eg : (realI g).length = 2 ^ k := by rw [realI_length, h.lg]
  obtain ⟨Ft, hFt, d2⟩ := exists_div k (poly (adjList (realI f))) _ hc
  obtain ⟨Gt, hGt, d3⟩ := exists_div k (poly (adjList (realI g))) _ hc
  obtain ⟨bF, bG⟩ := gram_sq_bound k _ _ Ft Gt ef eg hFt hGt h.hd d2 d3
  obtain ⟨sf, sg, sfg, -⟩ := short_l1 k h2 f g h.lf h.lg h.hn
  have f0 := l1_nonneg (realI f)
  have g0 := l1_nonneg (realI g)
  have hk : (2 : ℝ) ^ k ≤ 2 ^ 10 := pow_le_pow_right₀ (by norm_num) h2
  have D0 := l1_nonneg D
  obtain ⟨r1, r2⟩ := core_bound k (realI f) (realI g) a b κ Ft Gt D ef eg la lb hκ.1 hFt hGt hc K hK (10 / 28) bF bG hκ.2 d2 d3 hD
  have t1 := l1_le_length a _ r1
  have t2 := l1_le_length b _ r2
  rw [la] at t1
  rw [lb] at t2
  push_cast at t1 t2
  have m1 : 0 ≤ K * l1 (realI f) + 10 / 28 * l1 D := by positivity
  have m2 : 0 ≤ K * l1 (realI g) + 10 / 28 * l1 D := by positivity
  have u1 : (2 : ℝ) ^ k * (K * l1 (realI f) + 10 / 28 * l1 D) ≤ 2 ^ 10 * (K * l1 (realI f) + 10 / 28 * l1 D) := mul_le_mul_of_nonneg_right hk m1
  have u2 : (2 : ℝ) ^ k * (K * l1 (realI g) + 10 / 28 * l1 D) ≤ 2 ^ 10 * (K * l1 (realI g) + 10 / 28 * l1 D) := mul_le_mul_of_nonneg_right hk m2
  have u3 : K * (l1 (realI f) + l1 (realI g)) ≤ K * 5870 := mul_le_mul_of_nonneg_left sfg hK0
  have u4 : K * l1 (realI f) ≤ K * 4151 := mul_le_mul_of_nonneg_left sf hK0
  have u5 : K * l1 (realI g) ≤ K * 4151 := mul_le_mul_of_nonneg_left sg hK0
  constructor
  · norm_num at u1 u2; linarith
  · intro x hx
    rcases List.mem_append.1 hx with hx | hx
    · exact (r1 x hx).trans (by linarith)
    · exact (r2 x hx).trans (by linarith)

theorem sol_l1_0 {k : Nat} (h2 : k ≤ 10) {f g F G : List Int} (h : Lat k f g) (hs : Solves k f g F G) (κ : List ℝ) (K : ℝ)
    (hκ : IsQuot k (realI f) (realI g) (realI F) (realI G) κ) (hK0 : 0 ≤ K) (hK : ∀ x ∈ κ, |x| ≤ K) :
    l1 (realI F) + l1 (realI G) ≤ 1024 * (K * 5870 + 20 / 28 * 12289) ∧ ∀ x ∈ realI F ++ realI G, |x| ≤ K * 4151 + 10 / 28 * 12289 :=
  sol_l1 h2 h (realI F) (realI G) κ [12289] 12289 K (by rw [realI_length, hs.lF]) (by rw [realI_length, hs.lG]) (by simp [l1]) hκ hK0 hK
    (by simpa using hs.det)

/-- Dropping bits. -/
theorem l1_shift (l : List Int) (s : Nat) : l1 (realI l) ≤ 2 ^ s * (l1 (realI (l.map fun v : Int => v >>> s)) + l.length) ∧
    2 ^ s * l1 (realI (l.map fun v : Int => v >>> s)) ≤ l1 (realI l) + 2 ^ s * l.length := by
  induction l with
  | nil => simp [l1, realI]
  | cons v l ih =>
    simp only [realI, List.map_cons, List.length_cons] at ih ⊢
    rw [l1_cons, l1_cons]
    push_cast
    have hv : |(v : ℝ) - 2 ^ s * ((v >>> s : Int) : ℝ)| ≤ 2 ^ s := by
      rw [Int.shiftRight_eq_div_pow]
      have h1 := Int.emod_add_mul_ediv v ((2 ^ s : Nat) : Int)
      have h2 := Int.emod_nonneg v (by positivity : ((2 ^ s : Nat) : Int) ≠ 0)
      have h3 := Int.emod_lt_of_pos v (by positivity : (0 : Int) < ((2 ^ s : Nat) : Int))
      generalize v / ((2 ^ s : Nat) : Int) = w at *
      have e : (v : ℝ) - 2 ^ s * (w : ℝ) = ((v % ((2 ^ s : Nat) : Int) : Int) : ℝ) := by
        have : ((v % ((2 ^ s : Nat) : Int) : Int) : ℝ) + ((2 ^ s : Nat) : ℝ) * w = v := by exact_mod_cast h1
        push_cast at this ⊢
        linarith
      rw [e, abs_of_nonneg (by exact_mod_cast h2)]
      have : ((v % ((2 ^ s : Nat) : Int) : Int) : ℝ) ≤ ((2 ^ s : Nat) : ℝ) := by exact_mod_cast h3.le
      push_cast at this ⊢
      exact this
    have p : (0 : ℝ) < 2 ^ s := by positivity
    have n : |2 ^ s * ((v >>> s : Int) : ℝ)| = 2 ^ s * |((v >>> s : Int) : ℝ)| := by rw [abs_mul, abs_of_pos p]
    have t1 := abs_sub_abs_le_abs_sub (v : ℝ) (2 ^ s * ((v >>> s : Int) : ℝ))
    have t2 := abs_sub_abs_le_abs_sub (2 ^ s * ((v >>> s : Int) : ℝ)) (v : ℝ)
    rw [abs_sub_comm] at t2
    rw [n] at t1 t2
    constructor
    · linarith [ih.1]
    · linarith [ih.2]

theorem size_zero {F G : List Int} (S : Nat) (hS : sizeOf2 F G = .ok S) (h : l1 (realI F) + l1 (realI G) < 2 ^ 45) : S = 53 := by
  obtain ⟨-, -, c⟩ := sizeOf2_spec F G S hS
  rcases c with c | ⟨c, v, hv, hv2⟩
  · exact c
  exfalso
  have h3 : (2 ^ 45 : Nat) ≤ 2 ^ (S - 8) := Nat.pow_le_pow_right (by decide) (by omega)
  have h4 : (2 ^ 45 : Nat) ≤ v.natAbs := h3.trans hv2
  have h5 : (2 ^ 45 : ℝ) ≤ |(v : ℝ)| := by
    rw [← Int.cast_abs, Int.abs_eq_natAbs]
    exact_mod_cast h4
  have a0 := l1_nonneg (realI F)
  have b0 := l1_nonneg (realI G)
  have mem : ∀ l : List ℝ, (v : ℝ) ∈ l → |(v : ℝ)| ≤ l1 l := by
    intro l hl
    exact List.single_le_sum (by simp) _ (List.mem_map_of_mem hl)
  rcases List.mem_append.1 hv with hv | hv
  · have := mem (realI F) (List.mem_map_of_mem hv)
    linarith
  · have := mem (realI G) (List.mem_map_of_mem hv)
    linarith

/-! ### The loop -/

theorem noties_small (x : ℝ) (h : FarFromTie (1 / 10 ^ 6) x) (hx : |x| ≤ 1 / 2 + 6 / 10 ^ 7) : |x| ≤ 1 / 2 - 1 / 10 ^ 6 := by
  have h0 := h 0
  have h1 := h (-1)
  push_cast at h0 h1
  rw [abs_le] at hx ⊢
  constructor
  · by_contra hc
    push Not at hc
    have : |x - (-1 + 1 / 2)| < 1 / 10 ^ 6 := by rw [abs_lt]; constructor <;> linarith [hx.1]
    linarith
  · by_contra hc
    push Not at hc
    have : |x - (0 + 1 / 2)| < 1 / 10 ^ 6 := by rw [abs_lt]; constructor <;> linarith [hx.2]
    linarith

/-- The state of the loop: a solution and its quotient. -/
structure State (k : Nat) (f g F G : List Int) (κ : List ℝ) (T : ℝ) : Prop where
  sol : Solves k f g F G
  quot : IsQuot k (realI f) (realI g) (realI F) (realI G) κ
  far : ∀ x ∈ κ, FarFromTie (1 / 10 ^ 6) x
  len : l1 (realI F) + l1 (realI G) ≤ T

theorem l1_coef {k : Nat} (h2 : k ≤ 10) (κ : List ℝ) (hl : κ.length = 2 ^ k) (K : ℝ) (hK0 : 0 ≤ K) (hK : ∀ x ∈ κ, |x| ≤ K) :
    ∀ w ∈ rootsC k, ‖evalR κ w‖ ≤ 1024 * K := by
  intro w hw
  refine (evalR_norm κ w (rootsC_norm k w hw)).trans ((l1_le_length κ K hK).trans ?_)
  rw [hl]
  push_cast
  have hk : (2 : ℝ) ^ k ≤ 2 ^ 10 := pow_le_pow_right₀ (by norm_num) h2
  norm_num at hk
  exact mul_le_mul_of_nonneg_right hk hK0

/-- One iteration without dropped bits: either the loop returns or the quotient is close to the cube of side 1. -/
theorem fine_next_variant (va : Variant) {k : Nat} (h1 : 1 ≤ k) (h2 : k ≤ 10) {f g F G : List Int} {fa ga : List (F64 × F64)} (h : Ctx k f g fa ga) {κ : List ℝ} {T : ℝ}
    (st : State k f g F G κ T) (hT2 : T ≤ 10 ^ 9) (V e : ℝ) (hV0 : 0 ≤ V) (hV2 : V ≤ 10 ^ 9) (hV : ∀ w ∈ rootsC k, ‖evalR κ w‖ ≤ V)
    (he : 31 / 10 ^ 11 * V + 17 / 10 ^ 8 + 13 / 10 ^ 15 * (T + 2) ≤ e) (he2 : e ≤ 1) (he0 : 0 ≤ e) :
    ((∀ fuel, reduceLoop va.ops f g 53 fa ga (fuel + 1) F G = .ok (F, G))) ∨ ((∃ x ∈ κ, 1 / 2 ≤ |x| + e) ∧
      ∃ F1 G1 κ1, (∀ fuel, reduceLoop va.ops f g 53 fa ga (fuel + 1) F G = reduceLoop va.ops f g 53 fa ga fuel F1 G1) ∧
        State k f g F1 G1 κ1 (1024 * ((1 / 2 + e) * 5870 + 20 / 28 * 12289)) ∧ ∀ x ∈ κ1, |x| ≤ 1 / 2 + e) := by
  obtain ⟨S, hS⟩ := sizeOf2_ok F G (ne_nil_of_length st.sol.lF) (ne_nil_of_length st.sol.lG)
  have := size_zero S hS (lt_of_le_of_lt st.len (lt_of_le_of_lt hT2 (by norm_num)))
  subst this
  obtain ⟨q, lq, hb, hq⟩ := (fine_step_variant va) h1 h2 h st.sol hS κ st.quot T V e st.len hT2 hV0 hV2 hV he he2
  have hq0 := st.quot
  rw [← map_shift_zero F, ← map_shift_zero G] at hq0
  rcases loop_step (O := va.ops) h.lf h.lg st.sol fa ga κ κ st.quot 0 hS hq0 q lq hb with ⟨-, hl⟩ | ⟨F1, G1, hl, hs1, ⟨y, hy, hy2⟩, hq1, -⟩
  · exact Or.inl hl
  · right
    have hz := zip_far (δ := 1 / 10 ^ 6) 0 κ q st.far
    have e0 : List.zipWith (fun (x : ℝ) (y : Int) => x - 2 ^ 0 * y) κ q = List.zipWith (fun (x : ℝ) (y : Int) => x - y) κ q := by
      congr 1
      funext x y
      rw [pow_zero, one_mul]
    rw [e0] at hq1 hz
    have hb1 := zip_bound hq
    refine ⟨?_, F1, G1, _, hl, ⟨hs1, hq1, hz, (sol_l1_0 h2 h.toLat hs1 _ _ hq1 (by linarith) hb1).1⟩, hb1⟩
    obtain ⟨i, hi, rfl⟩ := List.getElem_of_mem hy
    have hi' : i < κ.length := by rw [hq.length_eq]; exact hi
    have hg := hq.get hi' hi
    refine ⟨κ[i], List.getElem_mem hi', ?_⟩
    by_contra hc
    push Not at hc
    exact hy2 (hg.2 hc)

theorem fine_next {k : Nat} (h1 : 1 ≤ k) (h2 : k ≤ 10) {f g F G : List Int} {fa ga : List (F64 × F64)} (h : Ctx k f g fa ga) {κ : List ℝ} {T : ℝ}
    (st : State k f g F G κ T) (hT2 : T ≤ 10 ^ 9) (V e : ℝ) (hV0 : 0 ≤ V) (hV2 : V ≤ 10 ^ 9) (hV : ∀ w ∈ rootsC k, ‖evalR κ w‖ ≤ V)
    (he : 31 / 10 ^ 11 * V + 17 / 10 ^ 8 + 13 / 10 ^ 15 * (T + 2) ≤ e) (he2 : e ≤ 1) (he0 : 0 ≤ e) :
    ((∀ fuel, reduceLoop ieeeOps f g 53 fa ga (fuel + 1) F G = .ok (F, G))) ∨ ((∃ x ∈ κ, 1 / 2 ≤ |x| + e) ∧
      ∃ F1 G1 κ1, (∀ fuel, reduceLoop ieeeOps f g 53 fa ga (fuel + 1) F G = reduceLoop ieeeOps f g 53 fa ga fuel F1 G1) ∧
        State k f g F1 G1 κ1 (1024 * ((1 / 2 + e) * 5870 + 20 / 28 * 12289)) ∧ ∀ x ∈ κ1, |x| ≤ 1 / 2 + e) :=
  fine_next_variant amd64V h1 h2 h st hT2 V e hV0 hV2 hV he he2 he0

theorem phase_D_variant (va : Variant) {k : Nat} (h1 : 1 ≤ k) (h2 : k ≤ 10) {f g F G : List Int} {fa ga : List (F64 × F64)} (h : Ctx k f g fa ga) {κ : List ℝ}
    (st : State k f g F G κ (13 * 10 ^ 6)) (hκ : ∀ x ∈ κ, |x| ≤ 1 / 2 - 1 / 10 ^ 6) (fuel : Nat) :
    ∃ r, reduceLoop va.ops f g 53 fa ga (fuel + 1) F G = .ok r := by
  rcases (fine_next_variant va) h1 h2 h st (by norm_num) (1024 * (1 / 2 - 1 / 10 ^ 6)) (6 / 10 ^ 7) (by norm_num) (by norm_num)
    (l1_coef h2 κ st.quot.1 _ (by norm_num) hκ) (by norm_num) (by norm_num) (by norm_num) with hl | ⟨⟨x, hx, hx2⟩, -⟩
  · exact ⟨_, hl fuel⟩
  · exfalso
    have := hκ x hx
    norm_num at this hx2
    linarith

theorem phase_D {k : Nat} (h1 : 1 ≤ k) (h2 : k ≤ 10) {f g F G : List Int} {fa ga : List (F64 × F64)} (h : Ctx k f g fa ga) {κ : List ℝ}
    (st : State k f g F G κ (13 * 10 ^ 6)) (hκ : ∀ x ∈ κ, |x| ≤ 1 / 2 - 1 / 10 ^ 6) (fuel : Nat) :
    ∃ r, reduceLoop ieeeOps f g 53 fa ga (fuel + 1) F G = .ok r :=
  phase_D_variant amd64V h1 h2 h st hκ fuel

theorem State.mono {k : Nat} {f g F G : List Int} {κ : List ℝ} {T T' : ℝ} (st : State k f g F G κ T) (h : T ≤ T') : State k f g F G κ T' :=
  ⟨st.sol, st.quot, st.far, st.len.trans h⟩

theorem phase_C_variant (va : Variant) {k : Nat} (h1 : 1 ≤ k) (h2 : k ≤ 10) {f g F G : List Int} {fa ga : List (F64 × F64)} (h : Ctx k f g fa ga) {κ : List ℝ}
    (st : State k f g F G κ (13 * 10 ^ 6)) (hκ : ∀ x ∈ κ, |x| ≤ 52 / 100) (fuel : Nat) :
    ∃ r, reduceLoop va.ops f g 53 fa ga (fuel + 2) F G = .ok r := by
  rcases (fine_next_variant va) h1 h2 h st (by norm_num) (1024 * (52 / 100)) (6 / 10 ^ 7) (by norm_num) (by norm_num)
    (l1_coef h2 κ st.quot.1 _ (by norm_num) hκ) (by norm_num) (by norm_num) (by norm_num) with hl | ⟨-, F1, G1, κ1, hl, st1, hb⟩
  · exact ⟨_, hl (fuel + 1)⟩
  · rw [hl (fuel + 1)]
    exact (phase_D_variant va) h1 h2 h (st1.mono (by norm_num)) (fun x hx => noties_small x (st1.far x hx) (hb x hx)) fuel

theorem phase_C {k : Nat} (h1 : 1 ≤ k) (h2 : k ≤ 10) {f g F G : List Int} {fa ga : List (F64 × F64)} (h : Ctx k f g fa ga) {κ : List ℝ}
    (st : State k f g F G κ (13 * 10 ^ 6)) (hκ : ∀ x ∈ κ, |x| ≤ 52 / 100) (fuel : Nat) :
    ∃ r, reduceLoop ieeeOps f g 53 fa ga (fuel + 2) F G = .ok r :=
  phase_C_variant amd64V h1 h2 h st hκ fuel

theorem phase_B_variant (va : Variant) {k : Nat} (h1 : 1 ≤ k) (h2 : k ≤ 10) {f g F G : List Int} {fa ga : List (F64 × F64)} (h : Ctx k f g fa ga) {κ : List ℝ}
    (st : State k f g F G κ (2 ^ 27)) (fuel : Nat) :
    ∃ r, reduceLoop va.ops f g 53 fa ga (fuel + 3) F G = .ok r := by
  have hV : ∀ w ∈ rootsC k, ‖evalR κ w‖ ≤ 5 * 10 ^ 7 := by
    intro w hw
    refine (quot_norm h.toLat _ _ _ st.quot w hw).trans ?_
    have := st.len
    norm_num at this
    rw [div_le_iff₀ (by norm_num)]
    linarith
  rcases (fine_next_variant va) h1 h2 h st (by norm_num) (5 * 10 ^ 7) (2 / 100) (by norm_num) (by norm_num)
    hV (by norm_num) (by norm_num) (by norm_num) with hl | ⟨-, F1, G1, κ1, hl, st1, hb⟩
  · exact ⟨_, hl (fuel + 2)⟩
  · rw [hl (fuel + 2)]
    exact (phase_C_variant va) h1 h2 h (st1.mono (by norm_num)) (fun x hx => (hb x hx).trans (by norm_num)) fuel

theorem phase_B {k : Nat} (h1 : 1 ≤ k) (h2 : k ≤ 10) {f g F G : List Int} {fa ga : List (F64 × F64)} (h : Ctx k f g fa ga) {κ : List ℝ}
    (st : State k f g F G κ (2 ^ 27)) (fuel : Nat) :
    ∃ r, reduceLoop ieeeOps f g 53 fa ga (fuel + 3) F G = .ok r :=
  phase_B_variant amd64V h1 h2 h st fuel

/-- The coefficients of the quotient fit into an `int`: it has 64 bits, or they are at most `10^9` and the inputs are not long. -/
def FitsInt (va : Variant) (κ : List ℝ) (T : ℝ) : Prop := va.Wide ∨ T ≤ 2 ^ 44 ∧ ∀ x ∈ κ, |x| ≤ 10 ^ 9

/-- One iteration on long inputs halves the length. -/
theorem coarse_next_variant (va : Variant) {k : Nat} (h1 : 1 ≤ k) (h2 : k ≤ 10) {f g F G : List Int} {fa ga : List (F64 × F64)} (h : Ctx k f g fa ga) {κ : List ℝ} {T : ℝ}
    (st : State k f g F G κ T) (hT : 2 ^ 27 ≤ T) (hw : FitsInt va κ T) :
    (∀ fuel, reduceLoop va.ops f g 53 fa ga (fuel + 1) F G = .ok (F, G)) ∨
      ∃ F1 G1 κ1, (∀ fuel, reduceLoop va.ops f g 53 fa ga (fuel + 1) F G = reduceLoop va.ops f g 53 fa ga fuel F1 G1) ∧
        State k f g F1 G1 κ1 (T / 2) ∧ FitsInt va κ1 (T / 2) := by
  obtain ⟨S, hS⟩ := sizeOf2_ok F G (ne_nil_of_length st.sol.lF) (ne_nil_of_length st.sol.lG)
  obtain ⟨h53, -, -⟩ := sizeOf2_spec F G S hS
  obtain ⟨s, rfl⟩ : ∃ s, S = 53 + s := ⟨S - 53, by omega⟩
  obtain ⟨μ, hμ⟩ := exists_quot h.toLat (realI (F.map fun v : Int => v >>> s)) (realI (G.map fun v : Int => v >>> s))
  set P := l1 (realI (F.map fun v : Int => v >>> s)) with hP
  set Q := l1 (realI (G.map fun v : Int => v >>> s)) with hQ
  have p0 : 0 ≤ P := l1_nonneg _
  have q0 : 0 ≤ Q := l1_nonneg _
  obtain ⟨q, lq, hb, hq⟩ := (coarse_step_variant va) h1 h2 h st.sol.lF st.sol.lG s hS μ hμ P Q hP hQ (hw.imp id fun ⟨w1, w2⟩ => by
    obtain rfl : s = 0 := by
      have := size_zero _ hS (lt_of_le_of_lt (st.len.trans w1) (by norm_num))
      omega
    rw [map_shift_zero] at hP hQ
    rw [map_shift_zero, map_shift_zero] at hμ
    rw [← quot_unique k _ _ _ _ _ _ h.coprime st.quot hμ, hP, hQ]
    exact ⟨st.len.trans w1, w2⟩)
  rcases loop_step (O := va.ops) h.lf h.lg st.sol fa ga κ μ st.quot s hS hμ q lq hb with ⟨-, hl⟩ | ⟨F1, G1, hl, hs1, -, hq1, hq2⟩
  · exact Or.inl hl
  · right
    have hb1 := zip_bound hq
    refine ⟨F1, G1, _, hl, ⟨hs1, hq1, zip_far s κ q st.far, ?_⟩, hw.imp id fun ⟨w1, w2⟩ => ⟨by norm_num at w1 hT ⊢; linarith, ?_⟩⟩
    rotate_left
    · obtain rfl : s = 0 := by
        have := size_zero _ hS (lt_of_le_of_lt (st.len.trans w1) (by norm_num))
        omega
      rw [map_shift_zero] at hP hQ
      rw [map_shift_zero, map_shift_zero] at hμ
      have e := quot_unique k _ _ _ _ _ _ h.coprime st.quot hμ
      intro x hx
      simp only [pow_zero, one_mul] at hx
      rw [e] at hx
      have h3 := hb1 x hx
      have h4 := st.len
      rw [← hP, ← hQ] at h4
      norm_num at w1 h3 ⊢
      linarith
    have hlen := st.len
    have hk : (2 : ℝ) ^ k ≤ 2 ^ 10 := pow_le_pow_right₀ (by norm_num) h2
    norm_num at hk
    by_cases hs0 : s = 0
    · subst hs0
      rw [map_shift_zero] at hP hQ
      rw [map_shift_zero, map_shift_zero] at hq2
      have := (sol_l1_0 h2 h.toLat hs1 _ _ hq2 (by positivity) hb1).1
      rw [← hP, ← hQ] at hlen
      norm_num at hT
      linarith
    · obtain ⟨D, -, hDb, d4⟩ := shift_det k h2 f g F1 G1 hs1.lF hs1.lG h.hn hs1.det s
      have hm := (sol_l1 h2 h.toLat _ _ _ D _ _ (by rw [realI_length, List.length_map, hs1.lF]) (by rw [realI_length, List.length_map, hs1.lG]) hDb hq2
        (by positivity) hb1 d4).1
      have a1 := (l1_shift F1 s).1
      have a2 := (l1_shift G1 s).1
      have a3 := (l1_shift F s).2
      have a4 := (l1_shift G s).2
      rw [hs1.lF] at a1
      rw [hs1.lG] at a2
      rw [st.sol.lF, ← hP] at a3
      rw [st.sol.lG, ← hQ] at a4
      push_cast at a1 a2 a3 a4
      have ps : (0 : ℝ) < 2 ^ s := by positivity
      have hbig : 2 ^ s * 2 ^ 45 ≤ l1 (realI F) + l1 (realI G) := by
        by_contra hc
        push Not at hc
        obtain ⟨-, -, c⟩ := sizeOf2_spec F G _ hS
        rcases c with c | ⟨c, v, hv, hv2⟩
        · omega
        have h4 : (2 ^ s * 2 ^ 45 : Nat) ≤ v.natAbs := by
          rw [← pow_add]
          rwa [show 53 + s - 8 = s + 45 by omega] at hv2
        have h5 : (2 ^ s * 2 ^ 45 : ℝ) ≤ |(v : ℝ)| := by
          rw [← Int.cast_abs, Int.abs_eq_natAbs]
          exact_mod_cast h4
        have a0 := l1_nonneg (realI F)
        have b0 := l1_nonneg (realI G)
        have mem : ∀ l : List ℝ, (v : ℝ) ∈ l → |(v : ℝ)| ≤ l1 l := by
          intro l hl
          exact List.single_le_sum (by simp) _ (List.mem_map_of_mem hl)
        rcases List.mem_append.1 hv with hv | hv
        · have := mem (realI F) (List.mem_map_of_mem hv)
          linarith
        · have := mem (realI G) (List.mem_map_of_mem hv)
          linarith
      set P1 := l1 (realI (F1.map fun v : Int => v >>> s))
      set Q1 := l1 (realI (G1.map fun v : Int => v >>> s))
      have m1 := mul_le_mul_of_nonneg_left hm ps.le
      have m2 : (2 : ℝ) ^ s * 2 ^ k ≤ 2 ^ s * 1024 := mul_le_mul_of_nonneg_left hk ps.le
      generalize (2 : ℝ) ^ s = Z at *
      generalize (2 : ℝ) ^ k = N at *
      norm_num at m1 hbig
      have e1 : Z * (1024 * ((1 / 2 + 57 / 1000000000 * (P + Q + 2)) * 5870 + 20 / 28 * 29811712)) =
        1024 * 5870 * 57 / 1000000000 * (Z * P + Z * Q) + Z * (1024 * ((1 / 2 + 57 / 1000000000 * 2) * 5870 + 20 / 28 * 29811712)) := by ring
      norm_num at e1
      rw [e1] at m1
      linarith

theorem coarse_next {k : Nat} (h1 : 1 ≤ k) (h2 : k ≤ 10) {f g F G : List Int} {fa ga : List (F64 × F64)} (h : Ctx k f g fa ga) {κ : List ℝ} {T : ℝ}
    (st : State k f g F G κ T) (hT : 2 ^ 27 ≤ T) :
    (∀ fuel, reduceLoop ieeeOps f g 53 fa ga (fuel + 1) F G = .ok (F, G)) ∨
      ∃ F1 G1 κ1, (∀ fuel, reduceLoop ieeeOps f g 53 fa ga (fuel + 1) F G = reduceLoop ieeeOps f g 53 fa ga fuel F1 G1) ∧
        State k f g F1 G1 κ1 (T / 2) :=
  (coarse_next_variant amd64V h1 h2 h st hT (.inl amd64V_wide)).imp id fun ⟨F1, G1, κ1, hl, st1, _⟩ => ⟨F1, G1, κ1, hl, st1⟩

theorem phase_A_variant (va : Variant) {k : Nat} (h1 : 1 ≤ k) (h2 : k ≤ 10) {f g : List Int} {fa ga : List (F64 × F64)} (h : Ctx k f g fa ga) (m : Nat) (F G : List Int) (κ : List ℝ)
    (st : State k f g F G κ (2 ^ (27 + m))) (hw : FitsInt va κ (2 ^ (27 + m))) (fuel : Nat) : ∃ r, reduceLoop va.ops f g 53 fa ga (fuel + m + 3) F G = .ok r := by
  induction m generalizing F G κ with
  | zero => exact (phase_B_variant va) h1 h2 h st fuel
  | succ m ih =>
    rcases (coarse_next_variant va) h1 h2 h st (pow_le_pow_right₀ (by norm_num) (by omega)) hw with hl | ⟨F1, G1, κ1, hl, st1, hw1⟩
    · exact ⟨_, hl (fuel + m + 3)⟩
    · have : fuel + (m + 1) + 3 = fuel + m + 3 + 1 := by omega
      rw [this, hl (fuel + m + 3)]
      have e : (2 : ℝ) ^ (27 + (m + 1)) / 2 = 2 ^ (27 + m) := by
        rw [← add_assoc, pow_succ]
        ring
      rw [e] at st1 hw1
      exact ih F1 G1 κ1 st1 hw1

theorem phase_A {k : Nat} (h1 : 1 ≤ k) (h2 : k ≤ 10) {f g : List Int} {fa ga : List (F64 × F64)} (h : Ctx k f g fa ga) (m : Nat) (F G : List Int) (κ : List ℝ)
    (st : State k f g F G κ (2 ^ (27 + m))) (fuel : Nat) : ∃ r, reduceLoop ieeeOps f g 53 fa ga (fuel + m + 3) F G = .ok r :=
  phase_A_variant amd64V h1 h2 h m F G κ st (.inl amd64V_wide) fuel

/-- `C70_ieee` for every variant of the arithmetic. -/
theorem variant_C70_ieee (va : Variant) (hw : va.Wide) (k : Nat) (h1 : 1 ≤ k) (h2 : k ≤ 10) (f g F G : List Int) (hf : f.length = 2 ^ k) (hg : g.length = 2 ^ k)
    (hn : sqNorm (realI f) + sqNorm (realI g) ≤ 1.17 ^ 2 * 12289) (hd : ∀ w ∈ rootsC k, 784 / 100 ≤ gramAt f g w)
    (lF : F.length = 2 ^ k) (lG : G.length = 2 ^ k) (hdet : CongrZ (2 ^ k) (ntruDet f g F G) (C 12289)) (κ : List ℝ)
    (hκ : IsQuot k (realI f) (realI g) (realI F) (realI G) κ) (hfar : ∀ x ∈ κ, FarFromTie (1 / 10 ^ 6) x) (S : Nat) (hS : sizeOf2 F G = .ok S)
    (fuel : Nat) (hfu : S ≤ fuel) : ∃ r, reduce va.ops fuel f g F G = .ok r := by
  obtain ⟨fa, ga, hc, hl⟩ := (reduce_ctx_variant va) h1 h2 ⟨hf, hg, hn, hd⟩
  obtain ⟨h53, hup, -⟩ := sizeOf2_spec F G S hS
  have hk : (2 : ℝ) ^ k ≤ 2 ^ 10 := pow_le_pow_right₀ (by norm_num) h2
  have hlen : ∀ l : List Int, l.length = 2 ^ k → (∀ v ∈ l, v.natAbs < 2 ^ S) → l1 (realI l) ≤ 2 ^ 10 * 2 ^ S := by
    intro l hl hb
    refine (l1_le_length (realI l) (2 ^ S) ?_).trans ?_
    · intro x hx
      obtain ⟨v, hv, rfl⟩ := List.mem_map.1 hx
      rw [← Int.cast_abs, Int.abs_eq_natAbs]
      exact_mod_cast (hb v hv).le
    · rw [realI_length, hl]
      push_cast
      gcongr
  have b1 := hlen F lF fun v hv => hup v (List.mem_append_left _ hv)
  have b2 := hlen G lG fun v hv => hup v (List.mem_append_right _ hv)
  obtain ⟨m, hm⟩ : ∃ m, S + 11 = 27 + m := ⟨S - 16, by omega⟩
  have st : State k f g F G κ (2 ^ (27 + m)) := ⟨solves_of_det lF lG hdet, hκ, hfar, by
    rw [← hm, pow_add]
    have : (2 : ℝ) ^ S * 2 ^ 11 = 2 ^ 10 * 2 ^ S + 2 ^ 10 * 2 ^ S := by ring
    linarith⟩
  obtain ⟨r, hr⟩ := (phase_A_variant va) h1 h2 hc m F G κ st (.inl hw) (fuel - m - 3)
  rw [hl, show fuel = fuel - m - 3 + m + 3 by omega]
  exact ⟨r, hr⟩

/-- The same for an `int` of 32 bits, if the coefficients of the quotient are at most `10^9` and the absolute values of the coefficients of
`F` and `G` add up to at most `2^44`. -/
theorem variant_C70_narrow (va : Variant) (k : Nat) (h1 : 1 ≤ k) (h2 : k ≤ 10) (f g F G : List Int) (hf : f.length = 2 ^ k) (hg : g.length = 2 ^ k)
    (hn : sqNorm (realI f) + sqNorm (realI g) ≤ 1.17 ^ 2 * 12289) (hd : ∀ w ∈ rootsC k, 784 / 100 ≤ gramAt f g w)
    (lF : F.length = 2 ^ k) (lG : G.length = 2 ^ k) (hdet : CongrZ (2 ^ k) (ntruDet f g F G) (C 12289)) (κ : List ℝ)
    (hκ : IsQuot k (realI f) (realI g) (realI F) (realI G) κ) (hfar : ∀ x ∈ κ, FarFromTie (1 / 10 ^ 6) x)
    (hl : l1 (realI F) + l1 (realI G) ≤ 2 ^ 44) (hb : ∀ x ∈ κ, |x| ≤ 10 ^ 9) (fuel : Nat) (hfu : 20 ≤ fuel) : ∃ r, reduce va.ops fuel f g F G = .ok r := by
  obtain ⟨fa, ga, hc, e⟩ := (reduce_ctx_variant va) h1 h2 ⟨hf, hg, hn, hd⟩
  obtain ⟨r, hr⟩ := (phase_A_variant va) h1 h2 hc 17 F G κ ⟨solves_of_det lF lG hdet, hκ, hfar, hl⟩ (.inr ⟨le_rfl, hb⟩) (fuel - 20)
  rw [e, show fuel = fuel - 20 + 17 + 3 by omega]
  exact ⟨r, hr⟩

/-- C70: in IEEE arithmetic, for a pair `(f, g)` within the norm bound with `|f(w)|^2 + |g(w)|^2 >= 7.84` at every root of unity, and a solution
`(F, G)` of the NTRU equation of any size, `reduce` returns if no coefficient of `(F f* + G g*)/(f f* + g g*)` is within `10^-6` of a number
halfway between two integers. The number of iterations is at most the bit size of the largest coefficient (rounded up to a multiple of 8,
and at least 53). -/
theorem C70_ieee (k : Nat) (h1 : 1 ≤ k) (h2 : k ≤ 10) (f g F G : List Int) (hf : f.length = 2 ^ k) (hg : g.length = 2 ^ k)
    (hn : sqNorm (realI f) + sqNorm (realI g) ≤ 1.17 ^ 2 * 12289) (hd : ∀ w ∈ rootsC k, 784 / 100 ≤ gramAt f g w)
    (lF : F.length = 2 ^ k) (lG : G.length = 2 ^ k) (hdet : CongrZ (2 ^ k) (ntruDet f g F G) (C 12289)) (κ : List ℝ)
    (hκ : IsQuot k (realI f) (realI g) (realI F) (realI G) κ) (hfar : ∀ x ∈ κ, FarFromTie (1 / 10 ^ 6) x) (S : Nat) (hS : sizeOf2 F G = .ok S)
    (fuel : Nat) (hfu : S ≤ fuel) : ∃ r, reduce ieeeOps fuel f g F G = .ok r :=
  variant_C70_ieee amd64V amd64V_wide k h1 h2 f g F G hf hg hn hd lF lG hdet κ hκ hfar S hS fuel hfu

/-- `C67_sharp` for every variant of the arithmetic. -/
theorem variant_C67_sharp (va : Variant) (k : Nat) (h1 : 1 ≤ k) (h2 : k ≤ 10) (f g F G : List Int) (hf : f.length = 2 ^ k) (hg : g.length = 2 ^ k)
    (hF : F.length = 2 ^ k) (hG : G.length = 2 ^ k) (hn : sqNorm (realI f) + sqNorm (realI g) ≤ 1.17 ^ 2 * 12289)
    (hd : ∀ w ∈ rootsC k, 784 / 100 ≤ gramAt f g w) (fuel : Nat) (F' G' : List Int)
    (h : reduce va.ops fuel f g F G = .ok (F', G')) (hdet : CongrZ (2 ^ k) (ntruDet f g F' G') (C 12289)) :
    (∃ κ, IsQuot k (realI f) (realI g) (realI F') (realI G') κ ∧ ∀ x ∈ κ, |x| ≤ 1 / 2 + 7 / 10 ^ 7) ∧ ∀ v ∈ F' ++ G', |(v : ℝ)| ≤ 6465 := by
  have hlat : Lat k f g := ⟨hf, hg, hn, hd⟩
  have hsh := (variant_C67_short va) k h1 h2 f g F G hf hg hF hG hn hd fuel F' G' h hdet
  obtain ⟨-, hok⟩ := reduce_ok (O := va.ops) k h2 f g hf hg fuel F G hF hG
  obtain ⟨lF', lG', -⟩ := hok F' G' h
  have hs := solves_of_det lF' lG' hdet
  have hk : (2 : ℝ) ^ k ≤ 2 ^ 10 := pow_le_pow_right₀ (by norm_num) h2
  have hlen : ∀ l : List Int, l.length = 2 ^ k → (∀ v ∈ l, |(v : ℝ)| ≤ 11000) → l1 (realI l) ≤ 2 ^ 10 * 11000 := by
    intro l hl hb
    refine (l1_le_length (realI l) 11000 ?_).trans ?_
    · intro x hx
      obtain ⟨v, hv, rfl⟩ := List.mem_map.1 hx
      exact hb v hv
    · rw [realI_length, hl]
      push_cast
      gcongr
  have b1 := hlen F' lF' fun v hv => hsh v (List.mem_append_left _ hv)
  have b2 := hlen G' lG' fun v hv => hsh v (List.mem_append_right _ hv)
  obtain ⟨s, κ, hs0, lκ, bκ, dκ⟩ := (variant_C67_reduced va) k h1 h2 f g F G hf hg hF hG hn hd fuel F' G' h
  have hz : s = 0 := by
    rcases hs0 with hs0 | ⟨v, hv, hv2⟩
    · exact hs0
    exfalso
    have h3 : (2 ^ 45 : Nat) ≤ 2 ^ (s + 45) := Nat.pow_le_pow_right (by decide) (by omega)
    have h4 : (2 ^ 45 : Nat) ≤ v.natAbs := h3.trans hv2
    have h5 : (2 ^ 45 : ℝ) ≤ |(v : ℝ)| := by
      rw [← Int.cast_abs, Int.abs_eq_natAbs]
      exact_mod_cast h4
    have := hsh v hv
    norm_num at h5
    linarith
  subst hz
  rw [map_shift_zero, map_shift_zero] at dκ bκ
  have hκ : IsQuot k (realI f) (realI g) (realI F') (realI G') κ := ⟨lκ, dκ⟩
  obtain ⟨fa, ga, hc, hl⟩ := (reduce_ctx_variant va) h1 h2 hlat
  rw [hl] at h
  obtain ⟨S, hSz, h⟩ := reduceLoop_exit va.ops _ _ _ _ _ _ _ _ _ _ h
  obtain ⟨h53, -, -⟩ := sizeOf2_spec F' G' S hSz
  have := size_zero S hSz (by norm_num at b1 b2 ⊢; linarith)
  subst this
  rcases h with h | ⟨q, hq, hq0⟩
  · omega
  have hbig : ∀ x ∈ κ, |x| ≤ 2 := by
    intro x hx
    refine (bκ x hx).trans ?_
    norm_num at b1 b2 ⊢
    linarith
  have step : ∀ B e : ℝ, 0 ≤ B → B ≤ 2 → (∀ x ∈ κ, |x| ≤ B) → 31 / 10 ^ 11 * (1024 * B) + 17 / 10 ^ 8 + 13 / 10 ^ 15 * (2 ^ 11 * 11000 + 2) ≤ e → e ≤ 1 →
      ∀ x ∈ κ, |x| ≤ 1 / 2 + e := by
    intro B e hB0 hB2 hB he he1
    obtain ⟨q', -, e', hq'⟩ := (fine_step_variant va) h1 h2 hc hs hSz κ hκ (2 ^ 11 * 11000) (1024 * B) e (by norm_num at b1 b2 ⊢; linarith) (by norm_num)
      (by positivity) (by linarith) (l1_coef h2 κ lκ B hB0 hB) he he1
    rw [show (53 : Nat) = 53 + 0 from rfl, e', Go.ok.injEq] at hq
    subst hq
    rw [C55_allZeroes] at hq0
    intro x hx
    obtain ⟨i, hi, rfl⟩ := List.getElem_of_mem hx
    have hi' : i < q'.length := by rw [← hq'.length_eq]; exact hi
    have hg := (hq'.get hi hi').1
    simp only [List.get_eq_getElem] at hg
    rw [hq0 _ (List.getElem_mem hi'), Int.cast_zero, sub_zero] at hg
    exact hg
  have r1 := step 2 (1 / 10 ^ 5) (by norm_num) le_rfl hbig (by norm_num) (by norm_num)
  have r2 := step (1 / 2 + 1 / 10 ^ 5) (7 / 10 ^ 7) (by norm_num) (by norm_num) r1 (by norm_num) (by norm_num)
  refine ⟨⟨κ, hκ, r2⟩, fun v hv => ?_⟩
  have := (sol_l1_0 h2 hlat hs κ _ hκ (by norm_num) r2).2 (v : ℝ) (by
    unfold realI
    rw [← List.map_append]
    exact List.mem_map_of_mem hv)
  norm_num at this ⊢
  linarith

/-- C67: in IEEE arithmetic, when `reduce` returns a solution of the NTRU equation for such a pair `(f, g)`, every coefficient of the quotient is at
most `1/2 + 7e-7`, and every coefficient of the solution at most 6465 in absolute value. -/
theorem C67_sharp (k : Nat) (h1 : 1 ≤ k) (h2 : k ≤ 10) (f g F G : List Int) (hf : f.length = 2 ^ k) (hg : g.length = 2 ^ k)
    (hF : F.length = 2 ^ k) (hG : G.length = 2 ^ k) (hn : sqNorm (realI f) + sqNorm (realI g) ≤ 1.17 ^ 2 * 12289)
    (hd : ∀ w ∈ rootsC k, 784 / 100 ≤ gramAt f g w) (fuel : Nat) (F' G' : List Int)
    (h : reduce ieeeOps fuel f g F G = .ok (F', G')) (hdet : CongrZ (2 ^ k) (ntruDet f g F' G') (C 12289)) :
    (∃ κ, IsQuot k (realI f) (realI g) (realI F') (realI G') κ ∧ ∀ x ∈ κ, |x| ≤ 1 / 2 + 7 / 10 ^ 7) ∧ ∀ v ∈ F' ++ G', |(v : ℝ)| ≤ 6465 :=
  variant_C67_sharp amd64V k h1 h2 f g F G hf hg hF hG hn hd fuel F' G' h hdet

/-! ### Degree 2 -/

theorem far_div (x N : Int) (hN : 0 < N) (hN2 : N ≤ 500000) (h : 2 * x % (2 * N) ≠ N) : FarFromTie (1 / 10 ^ 6) ((x : ℝ) / N) := by
  intro m
  have hNr : (0 : ℝ) < N := by exact_mod_cast hN
  have hNr2 : (N : ℝ) ≤ 500000 := by exact_mod_cast hN2
  have hne : 2 * x - N * (2 * m + 1) ≠ 0 := by
    intro h0
    apply h
    rw [show 2 * x = N + 2 * N * m by linarith, Int.add_mul_emod_self_left, Int.emod_eq_of_lt hN.le (by omega)]
  have h1 : (1 : ℝ) ≤ |((2 * x - N * (2 * m + 1) : Int) : ℝ)| := by
    rw [← Int.cast_abs]
    exact_mod_cast Int.one_le_abs hne
  have e : (x : ℝ) / N - (m + 1 / 2) = ((2 * x - N * (2 * m + 1) : Int) : ℝ) / (2 * N) := by
    push_cast
    field_simp
  rw [e, abs_div, abs_of_pos (by linarith : (0 : ℝ) < 2 * N), le_div_iff₀ (by linarith)]
  linarith

/-- `C70_ieee_degree2` for every variant of the arithmetic. -/
theorem variant_C70_ieee_degree2 (va : Variant) (a b c d p q r s : Int) (N : Int) (hN : N = a * a + b * b + c * c + d * d) (hge : 8 ≤ N) (hle : N ≤ 16822)
    (hdet : CongrZ (2 ^ 1) (ntruDet [a, b] [c, d] [p, q] [r, s]) (C 12289))
    (t1 : 2 * (p * a + q * b + (r * c + s * d)) % (2 * N) ≠ N) (t2 : 2 * (q * a - p * b + (s * c - r * d)) % (2 * N) ≠ N)
    (hw : va.Wide ∨ |p| + |q| + |r| + |s| ≤ 2 ^ 44 ∧ |p * a + q * b + (r * c + s * d)| ≤ 10 ^ 9 * N ∧ |q * a - p * b + (s * c - r * d)| ≤ 10 ^ 9 * N)
    (S : Nat) (hS : sizeOf2 [p, q] [r, s] = .ok S) (fuel : Nat) (hfu : S ≤ fuel) :
    ∃ F G, reduce va.ops fuel [a, b] [c, d] [p, q] [r, s] = .ok (F, G) := by
  have hNr : (8 : ℝ) ≤ N := by exact_mod_cast hge
  have hNr2 : (N : ℝ) ≤ 16822 := by exact_mod_cast hle
  have hNe : (N : ℝ) = a * a + b * b + c * c + d * d := by rw [hN]; push_cast; ring
  have hq := quot2 a b c d p q r s N hN (by omega)
  obtain ⟨h53, -, -⟩ := sizeOf2_spec _ _ S hS
  have use : ∀ (hn : sqNorm (realI [a, b]) + sqNorm (realI [c, d]) ≤ 1.17 ^ 2 * 12289) (hd : ∀ w ∈ rootsC 1, 784 / 100 ≤ gramAt [a, b] [c, d] w)
      (κ : List ℝ), κ = [((p * a + q * b + (r * c + s * d) : Int) : ℝ) / N, ((q * a - p * b + (s * c - r * d) : Int) : ℝ) / N] →
      IsQuot 1 (realI [a, b]) (realI [c, d]) (realI [p, q]) (realI [r, s]) κ →
      (∀ x ∈ κ, FarFromTie (1 / 10 ^ 6) x) → ∃ r', reduce va.ops fuel [a, b] [c, d] [p, q] [r, s] = .ok r' := by
    intro hn hd κ e hκ hfar
    rcases hw with hw | ⟨w0, w1, w2⟩
    · exact variant_C70_ieee va hw 1 (by decide) (by decide) [a, b] [c, d] [p, q] [r, s] rfl rfl hn hd rfl rfl hdet κ hκ hfar S hS fuel hfu
    · refine variant_C70_narrow va 1 (by decide) (by decide) [a, b] [c, d] [p, q] [r, s] rfl rfl hn hd rfl rfl hdet κ hκ hfar ?_ ?_ fuel (by omega)
      · have : ((|p| + |q| + |r| + |s| : Int) : ℝ) ≤ ((2 ^ 44 : Int) : ℝ) := by exact_mod_cast w0
        simp only [l1, realI, List.map_cons, List.map_nil, List.sum_cons, List.sum_nil]
        push_cast at this
        linarith
      · subst e
        have div : ∀ x : Int, |x| ≤ 10 ^ 9 * N → |(x : ℝ) / N| ≤ 10 ^ 9 := by
          intro x hx
          have : ((|x| : Int) : ℝ) ≤ ((10 ^ 9 * N : Int) : ℝ) := by exact_mod_cast hx
          rw [abs_div, abs_of_pos (by linarith : (0 : ℝ) < N), div_le_iff₀ (by linarith)]
          push_cast at this
          norm_num at this ⊢
          exact this
        intro x hx
        simp only [List.mem_cons, List.not_mem_nil, or_false] at hx
        rcases hx with rfl | rfl
        · exact div _ w1
        · exact div _ w2
  obtain ⟨⟨F, G⟩, hr⟩ := use (by
      simp only [sqNorm, realI, List.map_cons, List.map_nil, List.sum_cons, List.sum_nil]
      norm_num
      nlinarith) (by
      intro w hw
      have hw2 := rootsC_root 1 w hw
      have hns : Complex.normSq w = 1 := by rw [Complex.normSq_eq_norm_sq, rootsC_norm 1 w hw]; norm_num
      have hre : w.re = 0 := by
        have h1 := congrArg Complex.re hw2
        have h2 := congrArg Complex.im hw2
        rw [Complex.normSq_apply] at hns
        rw [pow_one, pow_two] at h1 h2
        simp only [Complex.mul_re, Complex.mul_im, Complex.neg_re, Complex.neg_im, Complex.one_re, Complex.one_im] at h1 h2
        nlinarith
      have key : ∀ x y : Int, Complex.normSq (evalR (realI [x, y]) w) = x * x + y * y := by
        intro x y
        rw [Complex.normSq_apply, hre] at hns
        simp only [realI, List.map_cons, List.map_nil, evalR_cons]
        rw [show evalR [] w = 0 by simp [evalR]]
        rw [Complex.normSq_apply]
        simp [hre]
        linear_combination (y : ℝ) * y * hns
      rw [gramAt, key, key]
      linarith)
    [((p * a + q * b + (r * c + s * d) : Int) : ℝ) / N, ((q * a - p * b + (s * c - r * d) : Int) : ℝ) / N] rfl (by
      push_cast
      exact hq) (by
      intro x hx
      simp only [List.mem_cons, List.not_mem_nil, or_false] at hx
      rcases hx with rfl | rfl
      · exact far_div _ N (by omega) (by omega) t1
      · exact far_div _ N (by omega) (by omega) t2)
  exact ⟨F, G, hr⟩

/-- C70 for degree 2 in IEEE arithmetic: `reduce` returns, on every solution of the NTRU equation of any size, if neither coefficient of
`F f* + G g*` is an odd multiple of half the squared norm of `(f, g)`. -/
theorem C70_ieee_degree2 (a b c d p q r s : Int) (N : Int) (hN : N = a * a + b * b + c * c + d * d) (hge : 8 ≤ N) (hle : N ≤ 16822)
    (hdet : CongrZ (2 ^ 1) (ntruDet [a, b] [c, d] [p, q] [r, s]) (C 12289))
    (t1 : 2 * (p * a + q * b + (r * c + s * d)) % (2 * N) ≠ N) (t2 : 2 * (q * a - p * b + (s * c - r * d)) % (2 * N) ≠ N)
    (S : Nat) (hS : sizeOf2 [p, q] [r, s] = .ok S) (fuel : Nat) (hfu : S ≤ fuel) :
    ∃ F G, reduce ieeeOps fuel [a, b] [c, d] [p, q] [r, s] = .ok (F, G) :=
  variant_C70_ieee_degree2 amd64V a b c d p q r s N hN hge hle hdet t1 t2 (.inl amd64V_wide) S hS fuel hfu

/-- A solution with a coefficient of more than 70 bits is reduced within 88 iterations. -/
example : ∃ F G, reduce ieeeOps 88 [72, 5] [60, 31] [-40 + 2 ^ 70 * 72, 31 + 2 ^ 70 * 5] [124 + 2 ^ 70 * 60, 2 ^ 70 * 31] = .ok (F, G) := by
  refine C70_ieee_degree2 72 5 60 31 _ _ _ _ _ rfl (by decide) (by decide) ⟨C (-961), ?_⟩ (by decide) (by decide) 80 (by decide +kernel) 88 (by decide)
  simp only [ntruDet, polyZ, poly_cons, poly_nil]
  simp
  ring

end Falcon
