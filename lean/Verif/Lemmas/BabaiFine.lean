import Verif.Lemmas.BabaiNear
/-!
# A finer error bound for the Babai quotient

`babai_near` bounds the error by the lengths of all four polynomials. When `(F, G)` solves the NTRU equation the values of `F` and `G` at a root
of unity are at most `|K| ρ + q/ρ` where `K` is the value of the quotient and `ρ^2 = |f|^2 + |g|^2`, and the error is much smaller.
-/

namespace Falcon
open Spec Polynomial ComplexConjugate F64

/-- A product whose factors are bounded by `ρ W` and `ρ`, with relative errors. -/
theorem prod_fine_variant (va : Variant) (ρ W α β : ℝ) (hρ : 28 / 10 ≤ ρ) (hρ2 : ρ ≤ 10 ^ 4) (hW : 1 ≤ W) (hW2 : W ≤ 10 ^ 20) (hα0 : 0 ≤ α) (hα : α ≤ 1 / 10 ^ 9) (hβ0 : 0 ≤ β)
    (hβ : β ≤ 10 ^ 20) (x y : F64 × F64) (X Y : ℂ) (hx : CNear (ρ * β) x X) (hy : CNear (ρ * α) y Y) (nX : ‖X‖ ≤ ρ * W) (nY : ‖Y‖ ≤ ρ) :
    CNear (ρ ^ 2 * (W * (α + 6 / 10 ^ 16) + 101 / 100 * β)) (va.ops.cmul x y) (X * Y) := by
  have big := Big_ge'
  have u0 := uu_pos
  have u1 := uu_le
  have t1 := et_num
  have r0 : 0 ≤ ρ := by linarith
  have r2 : ρ ^ 2 ≤ (10 ^ 4) ^ 2 := pow_le_pow_left₀ r0 hρ2 2
  have r3 : (28 / 10) ^ 2 ≤ ρ ^ 2 := pow_le_pow_left₀ (by norm_num) hρ 2
  have e0 : (ρ * W + ρ * β) * (ρ + ρ * α) = ρ ^ 2 * ((W + β) * (1 + α)) := by ring
  have wb : (W + β) * (1 + α) ≤ (10 ^ 20 + 10 ^ 20) * (1 + 1 / 10 ^ 9) :=
    mul_le_mul (by linarith) (by linarith) (by linarith) (by norm_num)
  have wb0 : 0 ≤ (W + β) * (1 + α) := by positivity
  have hb : ρ ^ 2 * ((W + β) * (1 + α)) ≤ (10 ^ 4) ^ 2 * ((10 ^ 20 + 10 ^ 20) * (1 + 1 / 10 ^ 9)) := mul_le_mul r2 wb wb0 (by positivity)
  have hc := (cmul_cnear_variant va) (ρ * β) (ρ * α) (ρ * W) ρ x y X Y hx hy nX nY (by rw [e0]; norm_num at hb; linarith)
  refine hc.mono ?_
  rw [e0]
  have aβ : β * α ≤ β * (1 / 10 ^ 9) := mul_le_mul_of_nonneg_left hα hβ0
  have aW : W * α ≤ W * (1 / 10 ^ 9) := mul_le_mul_of_nonneg_left hα (by linarith)
  have h1 : uu * ((W + β) * (1 + α)) ≤ 1 / 9 / 10 ^ 15 * ((W + β) * (1 + α)) := mul_le_mul_of_nonneg_right u1 wb0
  have key : W * α + β * (1 + α) + 4 * uu * ((W + β) * (1 + α)) + 1 / 10 ^ 17 ≤ W * (α + 6 / 10 ^ 16) + 101 / 100 * β := by linarith
  have k2 := mul_le_mul_of_nonneg_left key (by positivity : 0 ≤ ρ ^ 2)
  have e1 : ρ * W * (ρ * α) + ρ * β * (ρ + ρ * α) + 4 * uu * (ρ ^ 2 * ((W + β) * (1 + α))) =
    ρ ^ 2 * (W * α + β * (1 + α) + 4 * uu * ((W + β) * (1 + α)) + 1 / 10 ^ 17) - ρ ^ 2 * (1 / 10 ^ 17) := by ring
  rw [e1]
  linarith

theorem prod_fine (ρ W α β : ℝ) (hρ : 28 / 10 ≤ ρ) (hρ2 : ρ ≤ 10 ^ 4) (hW : 1 ≤ W) (hW2 : W ≤ 10 ^ 20) (hα0 : 0 ≤ α) (hα : α ≤ 1 / 10 ^ 9) (hβ0 : 0 ≤ β)
    (hβ : β ≤ 10 ^ 20) (x y : F64 × F64) (X Y : ℂ) (hx : CNear (ρ * β) x X) (hy : CNear (ρ * α) y Y) (nX : ‖X‖ ≤ ρ * W) (nY : ‖Y‖ ≤ ρ) :
    CNear (ρ ^ 2 * (W * (α + 6 / 10 ^ 16) + 101 / 100 * β)) (ieeeOps.cmul x y) (X * Y) :=
  prod_fine_variant amd64V ρ W α β hρ hρ2 hW hW2 hα0 hα hβ0 hβ x y X Y hx hy nX nY

/-- A sum of two values bounded by `ρ^2 W`. -/
theorem sum_fine_variant (va : Variant) (ρ W p q : ℝ) (hρ : 28 / 10 ≤ ρ) (hρ2 : ρ ≤ 10 ^ 4) (hW : 1 ≤ W) (hW2 : W ≤ 10 ^ 20) (hp : p ≤ 10 ^ 21) (hq : q ≤ 10 ^ 21)
    (hp0 : 0 ≤ p) (hq0 : 0 ≤ q)
    (a b : F64 × F64) (A B : ℂ) (ha : CNear (ρ ^ 2 * p) a A) (hb : CNear (ρ ^ 2 * q) b B) (nA : ‖A‖ ≤ ρ ^ 2 * W) (nB : ‖B‖ ≤ ρ ^ 2 * W) :
    CNear (ρ ^ 2 * (1001 / 1000 * (p + q) + 3 / 10 ^ 16 * W)) (va.ops.cadd a b) (A + B) := by
  have big := Big_ge'
  have u0 := uu_pos
  have u1 := uu_le
  have t1 := et_num
  have r0 : 0 ≤ ρ := by linarith
  have r2 : ρ ^ 2 ≤ (10 ^ 4) ^ 2 := pow_le_pow_left₀ r0 hρ2 2
  have r3 : (28 / 10) ^ 2 ≤ ρ ^ 2 := pow_le_pow_left₀ (by norm_num) hρ 2
  have z0 : 0 ≤ W + W + p + q := by linarith
  have hbd : ρ ^ 2 * (W + W + p + q) ≤ (10 ^ 4) ^ 2 * (10 ^ 20 + 10 ^ 20 + 10 ^ 21 + 10 ^ 21) := mul_le_mul r2 (by linarith) z0 (by positivity)
  have h := cadd_cnear _ _ (ρ ^ 2 * W + ρ ^ 2 * W) a b A B ha hb ((norm_add_le _ _).trans (add_le_add nA nB)) (by norm_num at hbd; linarith)
  refine h.mono ?_
  have e : ρ ^ 2 * W + ρ ^ 2 * W + ρ ^ 2 * p + ρ ^ 2 * q = ρ ^ 2 * (W + W + p + q) := by ring
  rw [e]
  have h1 : uu * (W + W + p + q) ≤ 1 / 9 / 10 ^ 15 * (W + W + p + q) := mul_le_mul_of_nonneg_right u1 z0
  have key : p + q + uu * (W + W + p + q) + 1 / 10 ^ 17 ≤ 1001 / 1000 * (p + q) + 3 / 10 ^ 16 * W := by linarith
  have k2 := mul_le_mul_of_nonneg_left key (by positivity : 0 ≤ ρ ^ 2)
  have e1 : ρ ^ 2 * p + ρ ^ 2 * q + uu * (ρ ^ 2 * (W + W + p + q)) = ρ ^ 2 * (p + q + uu * (W + W + p + q) + 1 / 10 ^ 17) - ρ ^ 2 * (1 / 10 ^ 17) := by ring
  rw [e1]
  linarith

theorem sum_fine (ρ W p q : ℝ) (hρ : 28 / 10 ≤ ρ) (hρ2 : ρ ≤ 10 ^ 4) (hW : 1 ≤ W) (hW2 : W ≤ 10 ^ 20) (hp : p ≤ 10 ^ 21) (hq : q ≤ 10 ^ 21)
    (hp0 : 0 ≤ p) (hq0 : 0 ≤ q)
    (a b : F64 × F64) (A B : ℂ) (ha : CNear (ρ ^ 2 * p) a A) (hb : CNear (ρ ^ 2 * q) b B) (nA : ‖A‖ ≤ ρ ^ 2 * W) (nB : ‖B‖ ≤ ρ ^ 2 * W) :
    CNear (ρ ^ 2 * (1001 / 1000 * (p + q) + 3 / 10 ^ 16 * W)) (ieeeOps.cadd a b) (A + B) :=
  sum_fine_variant amd64V ρ W p q hρ hρ2 hW hW2 hp hq hp0 hq0 a b A B ha hb nA nB

/-- The values of a solution of the NTRU equation, given the value of the quotient. -/
theorem sol_norm (f g F G : ℂ) (ρ V : ℝ) (hρ : 28 / 10 ≤ ρ) (hV : 0 ≤ V) (hd : Complex.normSq f + Complex.normSq g = ρ ^ 2)
    (hN : ‖F * conj f + G * conj g‖ ≤ V * ρ ^ 2) (hD : ‖f * G - g * F‖ ≤ 12289) : ‖F‖ ≤ ρ * (V + 1568) ∧ ‖G‖ ≤ ρ * (V + 1568) := by
  have e : (Complex.normSq F + Complex.normSq G) * (Complex.normSq f + Complex.normSq g) =
      Complex.normSq (F * conj f + G * conj g) + Complex.normSq (f * G - g * F) := by
    simp only [Complex.normSq_apply, Complex.add_re, Complex.add_im, Complex.mul_re, Complex.mul_im, Complex.conj_re, Complex.conj_im,
      Complex.sub_re, Complex.sub_im]
    ring
  rw [hd, Complex.normSq_eq_norm_sq (F * _ + _), Complex.normSq_eq_norm_sq (f * G - _)] at e
  have n1 := pow_le_pow_left₀ (norm_nonneg _) hN 2
  have n2 := pow_le_pow_left₀ (norm_nonneg _) hD 2
  have r0 : 0 < ρ := by linarith
  have r3 : (28 / 10) ^ 2 ≤ ρ ^ 2 := pow_le_pow_left₀ (by norm_num) hρ 2
  have hsum : Complex.normSq F + Complex.normSq G ≤ (ρ * (V + 1568)) ^ 2 := by
    have : (Complex.normSq F + Complex.normSq G) * ρ ^ 2 ≤ (ρ * (V + 1568)) ^ 2 * ρ ^ 2 := by
      rw [e]
      have h1 : (ρ * (V + 1568)) ^ 2 * ρ ^ 2 = (V * ρ ^ 2) ^ 2 + 3136 * V * (ρ ^ 2) ^ 2 + 1568 ^ 2 * (ρ ^ 2) ^ 2 := by ring
      have h2 : ((28 / 10) ^ 2) ^ 2 ≤ (ρ ^ 2) ^ 2 := pow_le_pow_left₀ (by norm_num) r3 2
      rw [h1]
      have h3 : 0 ≤ 3136 * V * (ρ ^ 2) ^ 2 := by positivity
      norm_num at h2 n2 ⊢
      linarith
    exact le_of_mul_le_mul_right this (by positivity)
  have p0 : 0 ≤ ρ * (V + 1568) := by positivity
  have a1 := Complex.normSq_nonneg F
  have a2 := Complex.normSq_nonneg G
  rw [Complex.normSq_eq_norm_sq] at *
  rw [Complex.normSq_eq_norm_sq] at *
  exact ⟨(abs_le_of_sq_le_sq' (by linarith) p0).2, (abs_le_of_sq_le_sq' (by linarith) p0).2⟩

/-- One slot of the Babai quotient of a solution of the NTRU equation. -/
theorem babai_slot_fine_variant (va : Variant) (V TF TG : ℝ) (hV : 0 ≤ V) (hV2 : V ≤ 10 ^ 10) (hTF : 0 ≤ TF) (hTG : 0 ≤ TG) (hTF2 : TF ≤ 10 ^ 20) (hTG2 : TG ≤ 10 ^ 20)
    (f' g' F' G' : F64 × F64) (f g F G : ℂ) (nf : Complex.normSq f + Complex.normSq g ≤ 174 * 10 ^ 5)
    (hf : CNear (13 / 10 ^ 11) f' f) (hg : CNear (13 / 10 ^ 11) g' g) (hF : CNear (31 / 10 ^ 15 * TF) F' F) (hG : CNear (31 / 10 ^ 15 * TG) G' G)
    (hd : 784 / 100 ≤ Complex.normSq f + Complex.normSq g) (hD : ‖f * G - g * F‖ ≤ 12289)
    (hN : ‖F * conj f + G * conj g‖ ≤ V * (Complex.normSq f + Complex.normSq g)) :
    CNear (3 / 10 ^ 10 * V + 16 / 10 ^ 8 + 12 / 10 ^ 15 * (TF + TG))
      (va.ops.cdiv (va.ops.cadd (va.ops.cmul F' (va.ops.conj f')) (va.ops.cmul G' (va.ops.conj g')))
        (va.ops.cadd (va.ops.cmul f' (va.ops.conj f')) (va.ops.cmul g' (va.ops.conj g'))))
      ((F * conj f + G * conj g) / (f * conj f + g * conj g)) := by
  set d := Complex.normSq f + Complex.normSq g with hdd
  have d0 : 0 < d := by linarith
  have ed : f * conj f + g * conj g = (d : ℂ) := by
    rw [Complex.mul_conj, Complex.mul_conj, hdd]; push_cast; rfl
  obtain ⟨ρ, hρ, hρd⟩ : ∃ ρ : ℝ, 28 / 10 ≤ ρ ∧ d = ρ ^ 2 :=
    ⟨√d, Real.le_sqrt_of_sq_le (by norm_num; norm_num at hd; linarith), (Real.sq_sqrt d0.le).symm⟩
  have r0 : 0 < ρ := by linarith
  have hρ2 : ρ ≤ 10 ^ 4 := by
    apply (abs_le_of_sq_le_sq' _ (by norm_num)).2
    rw [← hρd]; norm_num; linarith
  have r3 : (28 / 10) ^ 2 ≤ ρ ^ 2 := pow_le_pow_left₀ (by norm_num) hρ 2
  obtain ⟨bF, bG⟩ := sol_norm f g F G ρ V hρ hV (hdd.symm.trans hρd) (by rw [← hρd]; exact hN) hD
  have a1 := Complex.normSq_nonneg f
  have a2 := Complex.normSq_nonneg g
  have bf : ‖f‖ ≤ ρ := by
    apply (abs_le_of_sq_le_sq' _ r0.le).2
    rw [← Complex.normSq_eq_norm_sq]; linarith
  have bg : ‖g‖ ≤ ρ := by
    apply (abs_le_of_sq_le_sq' _ r0.le).2
    rw [← Complex.normSq_eq_norm_sq]; linarith
  have ncf : ‖conj f‖ ≤ ρ := by rw [Complex.norm_conj]; exact bf
  have ncg : ‖conj g‖ ≤ ρ := by rw [Complex.norm_conj]; exact bg
  set W := V + 1568 with hW
  set α : ℝ := 465 / 10 ^ 13 with hα
  have sc : ∀ e : ℝ, 0 ≤ e → e ≤ ρ * (10 / 28 * e) := by intro e he; nlinarith
  have hf' : CNear (ρ * α) f' f := hf.mono (by rw [hα]; linarith)
  have hg' : CNear (ρ * α) g' g := hg.mono (by rw [hα]; linarith)
  have hF' := hF.mono (sc _ (by positivity))
  have hG' := hG.mono (sc _ (by positivity))
  set βF := 10 / 28 * (31 / 10 ^ 15 * TF) with hβF
  set βG := 10 / 28 * (31 / 10 ^ 15 * TG) with hβG
  have bF0 : 0 ≤ βF := by rw [hβF]; positivity
  have bG0 : 0 ≤ βG := by rw [hβG]; positivity
  have bF1 : βF ≤ 10 ^ 10 := by rw [hβF]; linarith
  have bG1 : βG ≤ 10 ^ 10 := by rw [hβG]; linarith
  have cf := (conj_cnear_variant va) _ _ _ hf'
  have cg := (conj_cnear_variant va) _ _ _ hg'
  have α0 : 0 ≤ α := by rw [hα]; positivity
  have α1 : α ≤ 1 / 10 ^ 9 := by rw [hα]; norm_num
  have p1 := (prod_fine_variant va) ρ W α βF hρ hρ2 (by linarith) (by linarith) α0 α1 bF0 (by linarith) _ _ _ _ hF' cf bF ncf
  have p2 := (prod_fine_variant va) ρ W α βG hρ hρ2 (by linarith) (by linarith) α0 α1 bG0 (by linarith) _ _ _ _ hG' cg bG ncg
  have p3 := (prod_fine_variant va) ρ 1 α α hρ hρ2 (by linarith) (by norm_num) α0 α1 α0 (α1.trans (by norm_num)) _ _ _ _ hf' cf (by rw [mul_one]; exact bf) ncf
  have p4 := (prod_fine_variant va) ρ 1 α α hρ hρ2 (by linarith) (by norm_num) α0 α1 α0 (α1.trans (by norm_num)) _ _ _ _ hg' cg (by rw [mul_one]; exact bg) ncg
  have ml : ∀ (x y : ℂ) (A : ℝ), 0 ≤ A → ‖x‖ ≤ ρ * A → ‖y‖ ≤ ρ → ‖x * y‖ ≤ ρ ^ 2 * A := fun x y A hA hx hy => by
    rw [norm_mul]
    exact (mul_le_mul hx hy (norm_nonneg _) (by positivity)).trans (le_of_eq (by ring))
  have W0 : 0 ≤ W := by linarith
  have s1 := (sum_fine_variant va) ρ W _ _ hρ hρ2 (by linarith) (by linarith) (by rw [hα]; linarith) (by rw [hα]; linarith) (by positivity) (by positivity) _ _ _ _ p1 p2
    (ml _ _ _ W0 bF ncf) (ml _ _ _ W0 bG ncg)
  have s2 := (sum_fine_variant va) ρ 1 _ _ hρ hρ2 (by linarith) (by norm_num) (by rw [hα]; norm_num) (by rw [hα]; norm_num) (by positivity) (by positivity) _ _ _ _ p3 p4
    (ml _ _ 1 (by norm_num) (by rw [mul_one]; exact bf) ncf) (ml _ _ 1 (by norm_num) (by rw [mul_one]; exact bg) ncg)
  rw [ed] at s2 ⊢
  rw [← hρd] at s1 s2
  set en := 1001 / 1000 * (W * (α + 6 / 10 ^ 16) + 101 / 100 * βF + (W * (α + 6 / 10 ^ 16) + 101 / 100 * βG)) + 3 / 10 ^ 16 * W with hen
  set edd := 1001 / 1000 * (1 * (α + 6 / 10 ^ 16) + 101 / 100 * α + (1 * (α + 6 / 10 ^ 16) + 101 / 100 * α)) + 3 / 10 ^ 16 * 1 with hedd
  have en1 : en ≤ 94 / 10 ^ 12 * W + 102 / 100 * (βF + βG) := by rw [hen, hα]; linarith
  have en0 : 0 ≤ en := by rw [hen]; positivity
  have ed1 : edd ≤ 188 / 10 ^ 12 := by rw [hedd, hα]; norm_num
  have ed0 : 0 ≤ edd := by rw [hedd]; positivity
  have m1 : d * edd ≤ d * (188 / 10 ^ 12) := mul_le_mul_of_nonneg_left ed1 d0.le
  have m2 : d * en ≤ (174 * 10 ^ 5) * (10 ^ 12) := mul_le_mul nf (by linarith) en0 (by norm_num)
  have q := (div_slot_variant va) _ _ _ d _ _ V s1 s2 (by linarith) (by linarith) hN (by linarith) (by linarith) (by linarith)
  rw [mul_div_cancel_left₀ _ d0.ne', mul_div_cancel_left₀ _ d0.ne'] at q
  refine q.mono ?_
  have vE : V * edd ≤ V * (188 / 10 ^ 12) := mul_le_mul_of_nonneg_left ed1 hV
  rw [hβF, hβG, hW] at en1
  linarith

theorem babai_slot_fine (V TF TG : ℝ) (hV : 0 ≤ V) (hV2 : V ≤ 10 ^ 10) (hTF : 0 ≤ TF) (hTG : 0 ≤ TG) (hTF2 : TF ≤ 10 ^ 20) (hTG2 : TG ≤ 10 ^ 20)
    (f' g' F' G' : F64 × F64) (f g F G : ℂ) (nf : Complex.normSq f + Complex.normSq g ≤ 174 * 10 ^ 5)
    (hf : CNear (13 / 10 ^ 11) f' f) (hg : CNear (13 / 10 ^ 11) g' g) (hF : CNear (31 / 10 ^ 15 * TF) F' F) (hG : CNear (31 / 10 ^ 15 * TG) G' G)
    (hd : 784 / 100 ≤ Complex.normSq f + Complex.normSq g) (hD : ‖f * G - g * F‖ ≤ 12289)
    (hN : ‖F * conj f + G * conj g‖ ≤ V * (Complex.normSq f + Complex.normSq g)) :
    CNear (3 / 10 ^ 10 * V + 16 / 10 ^ 8 + 12 / 10 ^ 15 * (TF + TG))
      (ieeeOps.cdiv (ieeeOps.cadd (ieeeOps.cmul F' (ieeeOps.conj f')) (ieeeOps.cmul G' (ieeeOps.conj g')))
        (ieeeOps.cadd (ieeeOps.cmul f' (ieeeOps.conj f')) (ieeeOps.cmul g' (ieeeOps.conj g'))))
      ((F * conj f + G * conj g) / (f * conj f + g * conj g)) :=
  babai_slot_fine_variant amd64V V TF TG hV hV2 hTF hTG hTF2 hTG2 f' g' F' G' f g F G nf hf hg hF hG hd hD hN

/-- The Babai coefficients, from a bound for every slot. -/
theorem babai_gen_variant (va : Variant) (k : Nat) (h1 : 1 ≤ k) (h2 : k ≤ 10) (f g : List ℝ) (fa ga : List (F64 × F64))
    (FA GA : List F64) (hF : FA.length = 2 ^ k) (hG : GA.length = 2 ^ k) (fF : ∀ x ∈ FA, x.isFinite = true) (fG : ∀ x ∈ GA, x.isFinite = true)
    (Sf Sg TF TG e V : ℝ) (hTF : l1 (FA.map R) + 1 ≤ TF) (hTG : l1 (GA.map R) + 1 ≤ TG) (hTF2 : TF ≤ 10 ^ 23) (hTG2 : TG ≤ 10 ^ 23)
    (nf : List.Forall₂ (CNear Sf) fa ((rootsC k).map (evalR f))) (ng : List.Forall₂ (CNear Sg) ga ((rootsC k).map (evalR g)))
    (κ : List ℝ) (hl : κ.length = 2 ^ k) (hV : ∀ w ∈ rootsC k, ‖evalR κ w‖ ≤ V) (he : 0 ≤ e) (he2 : e ≤ 10 ^ 30) (hV0 : 0 ≤ V) (hV2 : V ≤ 10 ^ 30)
    (slot : ∀ w ∈ rootsC k, ∀ f' g' F' G' : F64 × F64, CNear Sf f' (evalR f w) → CNear Sg g' (evalR g w) →
      CNear (31 / 10 ^ 15 * TF) F' (evalR (FA.map R) w) → CNear (31 / 10 ^ 15 * TG) G' (evalR (GA.map R) w) →
      CNear e (va.ops.cdiv (va.ops.cadd (va.ops.cmul F' (va.ops.conj f')) (va.ops.cmul G' (va.ops.conj g')))
        (va.ops.cadd (va.ops.cmul f' (va.ops.conj f')) (va.ops.cmul g' (va.ops.conj g')))) (evalR κ w)) :
    ∃ r : List F64, babai va.ops fa ga FA GA = .ok (RoundAll va.ops r) ∧ List.Forall₂ (RNear (e + 35 / 10 ^ 15 * (V + e) + 1 / 10 ^ 110)) r κ := by
  have l0'' := l1_nonneg (FA.map R)
  have l0''' := l1_nonneg (GA.map R)
  obtain ⟨Fa, eFa, nF⟩ := (FFT_near'_variant va) k h1 h2 FA hF fF TF hTF (by linarith)
  obtain ⟨Ga, eGa, nG⟩ := (FFT_near'_variant va) k h1 h2 GA hG fG TG hTG (by linarith)
  have lfa : fa.length = 2 ^ k := by rw [nf.length_eq, List.length_map, rootsC_length]
  have lga : ga.length = 2 ^ k := by rw [ng.length_eq, List.length_map, rootsC_length]
  have lFa : Fa.length = 2 ^ k := by rw [nF.length_eq, List.length_map, rootsC_length]
  have lGa : Ga.length = 2 ^ k := by rw [nG.length_eq, List.length_map, rootsC_length]
  have slots : ∀ (L : List ℂ) (fa ga Fa Ga : List (F64 × F64)), (∀ w ∈ L, w ∈ rootsC k) →
      List.Forall₂ (CNear Sf) fa (L.map (evalR f)) → List.Forall₂ (CNear Sg) ga (L.map (evalR g)) →
      List.Forall₂ (CNear (31 / 10 ^ 15 * TF)) Fa (L.map (evalR (FA.map R))) → List.Forall₂ (CNear (31 / 10 ^ 15 * TG)) Ga (L.map (evalR (GA.map R))) →
      List.Forall₂ (CNear e)
        (List.zipWith va.ops.cdiv (List.zipWith va.ops.cadd (List.zipWith va.ops.cmul Fa (fa.map va.ops.conj)) (List.zipWith va.ops.cmul Ga (ga.map va.ops.conj)))
          (List.zipWith va.ops.cadd (List.zipWith va.ops.cmul fa (fa.map va.ops.conj)) (List.zipWith va.ops.cmul ga (ga.map va.ops.conj))))
        (L.map (evalR κ)) := by
    intro L
    induction L with
    | nil =>
      intro fa ga Fa Ga _ a1 a2 a3 a4
      cases a1; cases a2; cases a3; cases a4
      exact .nil
    | cons w L ih =>
      intro fa ga Fa Ga hL a1 a2 a3 a4
      cases a1 with | cons b1 a1 => cases a2 with | cons b2 a2 => cases a3 with | cons b3 a3 => cases a4 with | cons b4 a4 =>
      exact .cons (slot w (hL w (by simp)) _ _ _ _ b1 b2 b3 b4) (ih _ _ _ _ (fun x hx => hL x (by simp [hx])) a1 a2 a3 a4)
  have hslots := slots (rootsC k) fa ga Fa Ga (fun w h => h) nf ng nF nG
  have big := Big_ge'
  obtain ⟨r, er, nr⟩ := (IFFT_near_variant va) k h1 h2 κ hl _ e V hslots (by
    intro z hz
    obtain ⟨w, hw, rfl⟩ := List.mem_map.1 hz
    exact hV w hw) (by linarith) he hV0
  refine ⟨r, ?_, forall₂_mono nr fun x y h => h.mono (ifftErr_num k h2 _ _ hV0 he)⟩
  unfold babai
  rw [eFa, eGa]
  simp only [Go.ok_bind, AdjFFT, MulFFT, AddFFT, DivFFT, List.length_map, List.length_zipWith, lfa, lga, lFa, lGa,
    min_self, ne_eq, not_true_eq_false, if_false, lt_self_iff_false]
  rw [er]
  rfl

theorem babai_gen (k : Nat) (h1 : 1 ≤ k) (h2 : k ≤ 10) (f g : List ℝ) (fa ga : List (F64 × F64))
    (FA GA : List F64) (hF : FA.length = 2 ^ k) (hG : GA.length = 2 ^ k) (fF : ∀ x ∈ FA, x.isFinite = true) (fG : ∀ x ∈ GA, x.isFinite = true)
    (Sf Sg TF TG e V : ℝ) (hTF : l1 (FA.map R) + 1 ≤ TF) (hTG : l1 (GA.map R) + 1 ≤ TG) (hTF2 : TF ≤ 10 ^ 23) (hTG2 : TG ≤ 10 ^ 23)
    (nf : List.Forall₂ (CNear Sf) fa ((rootsC k).map (evalR f))) (ng : List.Forall₂ (CNear Sg) ga ((rootsC k).map (evalR g)))
    (κ : List ℝ) (hl : κ.length = 2 ^ k) (hV : ∀ w ∈ rootsC k, ‖evalR κ w‖ ≤ V) (he : 0 ≤ e) (he2 : e ≤ 10 ^ 30) (hV0 : 0 ≤ V) (hV2 : V ≤ 10 ^ 30)
    (slot : ∀ w ∈ rootsC k, ∀ f' g' F' G' : F64 × F64, CNear Sf f' (evalR f w) → CNear Sg g' (evalR g w) →
      CNear (31 / 10 ^ 15 * TF) F' (evalR (FA.map R) w) → CNear (31 / 10 ^ 15 * TG) G' (evalR (GA.map R) w) →
      CNear e (ieeeOps.cdiv (ieeeOps.cadd (ieeeOps.cmul F' (ieeeOps.conj f')) (ieeeOps.cmul G' (ieeeOps.conj g')))
        (ieeeOps.cadd (ieeeOps.cmul f' (ieeeOps.conj f')) (ieeeOps.cmul g' (ieeeOps.conj g')))) (evalR κ w)) :
    ∃ r : List F64, babai ieeeOps fa ga FA GA = .ok (RoundAll ieeeOps r) ∧ List.Forall₂ (RNear (e + 35 / 10 ^ 15 * (V + e) + 1 / 10 ^ 110)) r κ :=
  babai_gen_variant amd64V k h1 h2 f g fa ga FA GA hF hG fF fG Sf Sg TF TG e V hTF hTG hTF2 hTG2 nf ng κ hl hV he he2 hV0 hV2 slot

/-- The Babai coefficients of a solution of the NTRU equation in IEEE arithmetic. -/
theorem babai_fine_variant (va : Variant) (k : Nat) (h1 : 1 ≤ k) (h2 : k ≤ 10) (f g : List ℝ) (hf : f.length = 2 ^ k) (hg : g.length = 2 ^ k) (fa ga : List (F64 × F64))
    (FA GA : List F64) (hF : FA.length = 2 ^ k) (hG : GA.length = 2 ^ k) (fF : ∀ x ∈ FA, x.isFinite = true) (fG : ∀ x ∈ GA, x.isFinite = true)
    (sf : l1 f ≤ 4151) (sg : l1 g ≤ 4151) (hS : (l1 f + 1) ^ 2 + (l1 g + 1) ^ 2 ≤ 174 * 10 ^ 5) (T V : ℝ)
    (hT : l1 (FA.map R) + l1 (GA.map R) + 2 ≤ T) (hT2 : T ≤ 10 ^ 20) (hV0 : 0 ≤ V) (hV2 : V ≤ 10 ^ 10)
    (nf : List.Forall₂ (CNear (31 / 10 ^ 15 * (l1 f + 1))) fa ((rootsC k).map (evalR f)))
    (ng : List.Forall₂ (CNear (31 / 10 ^ 15 * (l1 g + 1))) ga ((rootsC k).map (evalR g)))
    (hd : ∀ w ∈ rootsC k, 784 / 100 ≤ Complex.normSq (evalR f w) + Complex.normSq (evalR g w))
    (hdet : (X ^ 2 ^ k + 1 : ℝ[X]) ∣ poly f * poly (GA.map R) - poly g * poly (FA.map R) - C 12289)
    (κ : List ℝ) (hl : κ.length = 2 ^ k)
    (hdv : (X ^ 2 ^ k + 1 : ℝ[X]) ∣ poly κ * gramPoly f g - (poly (FA.map R) * poly (adjList f) + poly (GA.map R) * poly (adjList g)))
    (hV : ∀ w ∈ rootsC k, ‖evalR κ w‖ ≤ V) :
    ∃ r : List F64, babai va.ops fa ga FA GA = .ok (RoundAll va.ops r) ∧
      List.Forall₂ (RNear (31 / 10 ^ 11 * V + 17 / 10 ^ 8 + 13 / 10 ^ 15 * T)) r κ := by
  have a0 := l1_nonneg (FA.map R)
  have b0 := l1_nonneg (GA.map R)
  have f0 := l1_nonneg f
  have g0 := l1_nonneg g
  obtain ⟨r, er, nr⟩ := (babai_gen_variant va) k h1 h2 f g fa ga FA GA hF hG fF fG (31 / 10 ^ 15 * (l1 f + 1)) (31 / 10 ^ 15 * (l1 g + 1)) (l1 (FA.map R) + 1)
    (l1 (GA.map R) + 1) (3 / 10 ^ 10 * V + 16 / 10 ^ 8 + 12 / 10 ^ 15 * (l1 (FA.map R) + 1 + (l1 (GA.map R) + 1))) V le_rfl le_rfl (by linarith) (by linarith)
    nf ng κ hl hV (by positivity) (by linarith) hV0 (by linarith) (by
      intro w hw f' g' F' G' n1 n2 n3 n4
      have w1 := rootsC_norm k w hw
      have h3 := evalR_dvd k _ hdv w hw
      rw [eval₂_sub, eval₂_mul, eval₂_add, eval₂_mul, eval₂_mul, gram_eval k f g hf hg w hw, ← evalR_eq, ← evalR_eq, ← evalR_eq,
        ← evalR_eq, ← evalR_eq, evalR_adj k f hf w hw, evalR_adj k g hg w hw, sub_eq_zero] at h3
      have h4 := evalR_dvd k _ hdet w hw
      rw [eval₂_sub, eval₂_sub, eval₂_mul, eval₂_mul, eval₂_C, ← evalR_eq, ← evalR_eq, ← evalR_eq, ← evalR_eq, sub_eq_zero] at h4
      have hdw := hd w hw
      have d0 : 0 < Complex.normSq (evalR f w) + Complex.normSq (evalR g w) := by linarith
      have ed : evalR f w * conj (evalR f w) + evalR g w * conj (evalR g w) = ((Complex.normSq (evalR f w) + Complex.normSq (evalR g w) : ℝ) : ℂ) := by
        rw [Complex.mul_conj, Complex.mul_conj]; push_cast; rfl
      have hne : evalR f w * conj (evalR f w) + evalR g w * conj (evalR g w) ≠ 0 := by rw [ed]; exact_mod_cast d0.ne'
      rw [show evalR κ w = (evalR (FA.map R) w * conj (evalR f w) + evalR (GA.map R) w * conj (evalR g w)) /
        (evalR f w * conj (evalR f w) + evalR g w * conj (evalR g w)) by rw [← h3, mul_div_assoc, div_self hne, mul_one]]
      refine (babai_slot_fine_variant va) V _ _ hV0 hV2 (by linarith) (by linarith) (by linarith) (by linarith) _ _ _ _ _ _ _ _ ?_ (n1.mono (by linarith))
        (n2.mono (by linarith)) n3 n4 hdw ?_ ?_
      · rw [Complex.normSq_eq_norm_sq, Complex.normSq_eq_norm_sq]
        have a1 := pow_le_pow_left₀ (norm_nonneg _) ((evalR_norm f w w1).trans (by linarith : l1 f ≤ l1 f + 1)) 2
        have a2 := pow_le_pow_left₀ (norm_nonneg _) ((evalR_norm g w w1).trans (by linarith : l1 g ≤ l1 g + 1)) 2
        linarith
      · rw [h4]
        simp
      · rw [← h3, norm_mul, ed, Complex.norm_real, Real.norm_eq_abs, abs_of_pos d0]
        exact mul_le_mul_of_nonneg_right (hV w hw) d0.le)
  refine ⟨r, er, forall₂_mono nr fun x y h => h.mono ?_⟩
  linarith

theorem babai_fine (k : Nat) (h1 : 1 ≤ k) (h2 : k ≤ 10) (f g : List ℝ) (hf : f.length = 2 ^ k) (hg : g.length = 2 ^ k) (fa ga : List (F64 × F64))
    (FA GA : List F64) (hF : FA.length = 2 ^ k) (hG : GA.length = 2 ^ k) (fF : ∀ x ∈ FA, x.isFinite = true) (fG : ∀ x ∈ GA, x.isFinite = true)
    (sf : l1 f ≤ 4151) (sg : l1 g ≤ 4151) (hS : (l1 f + 1) ^ 2 + (l1 g + 1) ^ 2 ≤ 174 * 10 ^ 5) (T V : ℝ)
    (hT : l1 (FA.map R) + l1 (GA.map R) + 2 ≤ T) (hT2 : T ≤ 10 ^ 20) (hV0 : 0 ≤ V) (hV2 : V ≤ 10 ^ 10)
    (nf : List.Forall₂ (CNear (31 / 10 ^ 15 * (l1 f + 1))) fa ((rootsC k).map (evalR f)))
    (ng : List.Forall₂ (CNear (31 / 10 ^ 15 * (l1 g + 1))) ga ((rootsC k).map (evalR g)))
    (hd : ∀ w ∈ rootsC k, 784 / 100 ≤ Complex.normSq (evalR f w) + Complex.normSq (evalR g w))
    (hdet : (X ^ 2 ^ k + 1 : ℝ[X]) ∣ poly f * poly (GA.map R) - poly g * poly (FA.map R) - C 12289)
    (κ : List ℝ) (hl : κ.length = 2 ^ k)
    (hdv : (X ^ 2 ^ k + 1 : ℝ[X]) ∣ poly κ * gramPoly f g - (poly (FA.map R) * poly (adjList f) + poly (GA.map R) * poly (adjList g)))
    (hV : ∀ w ∈ rootsC k, ‖evalR κ w‖ ≤ V) :
    ∃ r : List F64, babai ieeeOps fa ga FA GA = .ok (RoundAll ieeeOps r) ∧
      List.Forall₂ (RNear (31 / 10 ^ 11 * V + 17 / 10 ^ 8 + 13 / 10 ^ 15 * T)) r κ :=
  babai_fine_variant amd64V k h1 h2 f g hf hg fa ga FA GA hF hG fF fG sf sg hS T V hT hT2 hV0 hV2 nf ng hd hdet κ hl hdv hV

end Falcon
