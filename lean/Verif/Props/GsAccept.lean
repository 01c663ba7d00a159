import Verif.Props.GsFloat
/-!
# Pairs that the quality check of key generation accepts in IEEE arithmetic (C68)
-/

namespace Falcon
open Spec Polynomial ComplexConjugate F64

theorem bound_ieee_ge : 168224 / 10 ≤ R (ieeeOps.mul (ieeeOps.pow2 (ieeeOps.lit 1.17)) (ieeeOps.ofInt Q)) := by
  have h : 168224 / 10 ≤ (ieeeOps.mul (ieeeOps.pow2 (ieeeOps.lit 1.17)) (ieeeOps.ofInt Q) : F64).val := by decide +kernel
  unfold R
  have h2 : ((168224 / 10 : ℚ) : ℝ) ≤ (((ieeeOps.mul (ieeeOps.pow2 (ieeeOps.lit 1.17)) (ieeeOps.ofInt Q) : F64).val : ℚ) : ℝ) := by exact_mod_cast h
  push_cast at h2
  exact h2

theorem accept_both (b x y : F64) (hb : b.isFinite = true) (hx : x.isFinite = true) (hy : y.isFinite = true) (h1 : R x ≤ R b) (h2 : R y ≤ R b) :
    F64.lt b (if F64.lt x y then y else x) = false := by
  by_contra hc
  rw [Bool.not_eq_false] at hc
  split at hc
  · exact absurd ((lt_fin b y hb hy).1 hc) (by linarith)
  · exact absurd ((lt_fin b x hb hx).1 hc) (by linarith)

/-- A pair with exact norms below the bound is accepted. -/
theorem gs_accepts_variant (va : Variant) (k : Nat) (h1 : 1 ≤ k) (h2 : k ≤ 10) (f g : List Int16) (hf : f.length = 2 ^ k) (hg : g.length = 2 ^ k)
    (hn : sqNorm (realI (int16ToBigInt f)) + sqNorm (realI (int16ToBigInt g)) ≤ 16822)
    (hsp : ∀ w ∈ rootsC k, 87 / 10 ≤ gramAt (int16ToBigInt f) (int16ToBigInt g) w) (Ft Gt : List ℝ) (lFt : Ft.length = 2 ^ k) (lGt : Gt.length = 2 ^ k)
    (dF : ∀ w ∈ rootsC k, evalR Ft w * (gramAt (int16ToBigInt f) (int16ToBigInt g) w : ℂ) = conj (evalR (realI (int16ToBigInt f)) w))
    (dG : ∀ w ∈ rootsC k, evalR Gt w * (gramAt (int16ToBigInt f) (int16ToBigInt g) w : ℂ) = conj (evalR (realI (int16ToBigInt g)) w))
    (hs : 12289 ^ 2 * (sqNorm Ft + sqNorm Gt) ≤ 16760) :
    ∃ norm, GsNorm va.ops (Int16ToFloat64 va.ops f) (Int16ToFloat64 va.ops g) (va.ops.ofInt Q) = .ok norm ∧
      va.ops.lt (va.ops.mul (va.ops.pow2 (va.ops.lit 1.17)) (va.ops.ofInt Q)) norm = false := by
  obtain ⟨κf, κg, rf, rg, x, y, lκf, lκg, ⟨e, fx, fy, hx, hy⟩, nf, ng, hv⟩ := (gs_calc_variant va) k h1 h2 f g hf hg hn (34 / 100) (by norm_num) (by norm_num) (by
    intro v hv
    have := hsp v hv
    norm_num
    linarith)
  refine ⟨_, e, ?_⟩
  have hk : (2 : ℝ) ^ k ≤ 1024 := (pow_le_pow_right₀ (by norm_num) h2).trans (by norm_num)
  have k0 : (0 : ℝ) < 2 ^ k := by positivity
  have slotcmp : ∀ (u H κ : List ℝ), H.length = 2 ^ k → κ.length = 2 ^ k →
      (∀ w ∈ rootsC k, evalR H w * (gramAt (int16ToBigInt f) (int16ToBigInt g) w : ℂ) = conj (evalR u w)) →
      (∀ w ∈ rootsC k, ∀ d, d = gramAt (int16ToBigInt f) (int16ToBigInt g) w → ‖evalR κ w - conj (evalR u w) / (d : ℂ)‖ ≤ 33 / 10 ^ 4 * (‖evalR u w‖ / d) / d + 33 / 10 ^ 8 / d) →
      sqNorm κ ≤ 1002 / 1000 * sqNorm H + 1 / 10 ^ 11 := by
    intro u H κ lH lκ dH hv
    have pH := parseval k H lH
    have pκ := parseval k κ lκ
    have hs : ∑ i ∈ Finset.range (2 ^ k), Complex.normSq (evalR κ (rootC k i)) ≤
        ∑ i ∈ Finset.range (2 ^ k), (1002 / 1000 * Complex.normSq (evalR H (rootC k i)) + 1 / 10 ^ 11) := by
      apply Finset.sum_le_sum
      intro i hi
      have hw : rootC k i ∈ rootsC k := by
        simp only [rootsC, List.mem_map]
        exact ⟨i, List.mem_range.2 (Finset.mem_range.1 hi), rfl⟩
      generalize rootC k i = w at hw
      have h3 := dH w hw
      have h4 := hv w hw _ rfl
      have h5 := hsp w hw
      generalize gramAt (int16ToBigInt f) (int16ToBigInt g) w = d at h3 h4 h5
      have d0 : 0 < d := by linarith
      have dne : (d : ℂ) ≠ 0 := by exact_mod_cast d0.ne'
      rw [← h3, mul_div_assoc, div_self dne, mul_one] at h4
      have e : ‖evalR u w‖ / d = ‖evalR H w‖ := by
        have := congrArg (fun z : ℂ => ‖z‖) h3
        rw [norm_mul, Complex.norm_conj, Complex.norm_real, Real.norm_eq_abs, abs_of_pos d0] at this
        rw [← this]
        field_simp
      rw [e] at h4
      have h6 : 33 / 10 ^ 4 * ‖evalR H w‖ / d ≤ 33 / 10 ^ 4 * ‖evalR H w‖ / (87 / 10) := div_le_div₀ (by positivity) le_rfl (by norm_num) h5
      have h7 : (33 : ℝ) / 10 ^ 8 / d ≤ 33 / 10 ^ 8 / (87 / 10) := div_le_div₀ (by norm_num) le_rfl (by norm_num) h5
      have h8 := norm_sub_norm_le (evalR κ w) (evalR H w)
      rw [Complex.normSq_eq_norm_sq, Complex.normSq_eq_norm_sq]
      have n1 := norm_nonneg (evalR H w)
      have n2 := norm_nonneg (evalR κ w)
      generalize ‖evalR H w‖ = x at *
      generalize ‖evalR κ w‖ = y at *
      have h9 : y ≤ 10004 / 10000 * x + 4 / 10 ^ 8 := by norm_num at *; linarith
      have h10 := pow_le_pow_left₀ n2 h9 2
      nlinarith [sq_nonneg (x - 1 / 10 ^ 4)]
    rw [pκ, Finset.sum_add_distrib, ← Finset.mul_sum, pH, Finset.sum_const, Finset.card_range, nsmul_eq_mul] at hs
    push_cast at hs
    apply le_of_mul_le_mul_left _ k0
    linarith
  have cF := slotcmp _ Ft κf lFt lκf dF (fun w hw d hd => (hv w hw d hd).1 _ rfl)
  have cG := slotcmp _ Gt κg lGt lκg dG (fun w hw d hd => (hv w hw d hd).2 _ rfl)
  have coefcmp : ∀ (r : List F64) (κ : List ℝ), List.Forall₂ (RNear (7 / 10 ^ 7 * (34 / 100) ^ 3)) r κ →
      sqNorm (r.map R) ≤ 1001 / 1000 * sqNorm κ + κ.length * (1 / 10 ^ 12) := by
    intro r κ hr
    induction hr with
    | nil => simp [sqNorm]
    | @cons a x r κ h3 hs ih =>
      have e1 : sqNorm (x :: κ) = x ^ 2 + sqNorm κ := by simp [sqNorm]
      have e2 : sqNorm ((a :: r).map R) = R a ^ 2 + sqNorm (r.map R) := by simp [sqNorm]
      rw [e1, e2, List.length_cons]
      push_cast
      have h4 := h3.2
      have h5 : R a ^ 2 ≤ 1001 / 1000 * x ^ 2 + 1 / 10 ^ 12 := by
        have h6 : |R a - x| ≤ 3 / 10 ^ 8 := by norm_num at *; linarith
        have h7 : (R a - x) ^ 2 ≤ (3 / 10 ^ 8) ^ 2 := by rw [← sq_abs]; exact pow_le_pow_left₀ (abs_nonneg _) h6 2
        nlinarith [sq_nonneg (x / 10 ^ 3 - (R a - x))]
      linarith
  have dF' := coefcmp rf κf nf
  have dG' := coefcmp rg κg ng
  rw [lκf] at dF'
  rw [lκg] at dG'
  push_cast at dF' dG'
  have hb := bound_ieee_ge
  refine accept_both _ _ _ bound_ieee.1 fx fy ?_ ?_
  · refine le_trans ?_ hb
    rw [abs_le] at hx
    linarith [hx.2]
  · refine le_trans ?_ hb
    rw [abs_le] at hy
    have hy2 := hy.2
    generalize R y = y at *
    clear * - cF cG dF' dG' hs hk hy2
    norm_num at *
    linarith

theorem gs_accepts (k : Nat) (h1 : 1 ≤ k) (h2 : k ≤ 10) (f g : List Int16) (hf : f.length = 2 ^ k) (hg : g.length = 2 ^ k)
    (hn : sqNorm (realI (int16ToBigInt f)) + sqNorm (realI (int16ToBigInt g)) ≤ 16822)
    (hsp : ∀ w ∈ rootsC k, 87 / 10 ≤ gramAt (int16ToBigInt f) (int16ToBigInt g) w) (Ft Gt : List ℝ) (lFt : Ft.length = 2 ^ k) (lGt : Gt.length = 2 ^ k)
    (dF : ∀ w ∈ rootsC k, evalR Ft w * (gramAt (int16ToBigInt f) (int16ToBigInt g) w : ℂ) = conj (evalR (realI (int16ToBigInt f)) w))
    (dG : ∀ w ∈ rootsC k, evalR Gt w * (gramAt (int16ToBigInt f) (int16ToBigInt g) w : ℂ) = conj (evalR (realI (int16ToBigInt g)) w))
    (hs : 12289 ^ 2 * (sqNorm Ft + sqNorm Gt) ≤ 16760) :
    ∃ norm, GsNorm ieeeOps (Int16ToFloat64 ieeeOps f) (Int16ToFloat64 ieeeOps g) (ieeeOps.ofInt Q) = .ok norm ∧
      ieeeOps.lt (ieeeOps.mul (ieeeOps.pow2 (ieeeOps.lit 1.17)) (ieeeOps.ofInt Q)) norm = false :=
  gs_accepts_variant amd64V k h1 h2 f g hf hg hn hsp Ft Gt lFt lGt dF dG hs

/-- `C68_accepts` for every variant of the arithmetic. -/
theorem variant_C68_accepts (va : Variant) (k : Nat) (h1 : 1 ≤ k) (h2 : k ≤ 10) (f g : List Int16) (hf : f.length = 2 ^ k) (hg : g.length = 2 ^ k)
    (hn : sqNorm (realI (int16ToBigInt f)) + sqNorm (realI (int16ToBigInt g)) ≤ 16822)
    (hsp : ∀ w ∈ rootsC k, 87 / 10 ≤ gramAt (int16ToBigInt f) (int16ToBigInt g) w) (Ft Gt : List ℝ) (lFt : Ft.length = 2 ^ k) (lGt : Gt.length = 2 ^ k)
    (dF : (X ^ 2 ^ k + 1 : ℝ[X]) ∣ poly Ft * gramPoly (realI (int16ToBigInt f)) (realI (int16ToBigInt g)) - poly (adjList (realI (int16ToBigInt f))))
    (dG : (X ^ 2 ^ k + 1 : ℝ[X]) ∣ poly Gt * gramPoly (realI (int16ToBigInt f)) (realI (int16ToBigInt g)) - poly (adjList (realI (int16ToBigInt g))))
    (hs : 12289 ^ 2 * (sqNorm Ft + sqNorm Gt) ≤ 16760) :
    ∃ norm, GsNorm va.ops (Int16ToFloat64 va.ops f) (Int16ToFloat64 va.ops g) (va.ops.ofInt Q) = .ok norm ∧
      va.ops.lt (va.ops.mul (va.ops.pow2 (va.ops.lit 1.17)) (va.ops.ofInt Q)) norm = false := by
  have hlf : (realI (int16ToBigInt f)).length = 2 ^ k := by simp [realI, int16ToBigInt, hf]
  have hlg : (realI (int16ToBigInt g)).length = 2 ^ k := by simp [realI, int16ToBigInt, hg]
  have slot : ∀ (u H : List ℝ), u.length = 2 ^ k →
      (X ^ 2 ^ k + 1 : ℝ[X]) ∣ poly H * gramPoly (realI (int16ToBigInt f)) (realI (int16ToBigInt g)) - poly (adjList u) →
      ∀ w ∈ rootsC k, evalR H w * (gramAt (int16ToBigInt f) (int16ToBigInt g) w : ℂ) = conj (evalR u w) := by
    intro u H lu dH w hw
    have h3 := evalR_dvd k _ dH w hw
    rw [eval₂_sub, eval₂_mul, gram_eval k _ _ hlf hlg w hw, ← evalR_eq, ← evalR_eq, evalR_adj k u lu w hw, sub_eq_zero, Complex.mul_conj,
      Complex.mul_conj, ← Complex.ofReal_add] at h3
    exact h3
  exact (gs_accepts_variant va) k h1 h2 f g hf hg hn hsp Ft Gt lFt lGt (slot _ Ft hlf dF) (slot _ Gt hlg dG) hs

/-- C68, the converse: a pair of squared norm at most 16822 whose second Gram-Schmidt vector has squared norm at most 16760 (the bound is
16822.4) and for which `|f(w)|^2 + |g(w)|^2 >= 8.7` at every root of `x^n+1` is accepted by the IEEE check. -/
theorem C68_accepts (k : Nat) (h1 : 1 ≤ k) (h2 : k ≤ 10) (f g : List Int16) (hf : f.length = 2 ^ k) (hg : g.length = 2 ^ k)
    (hn : sqNorm (realI (int16ToBigInt f)) + sqNorm (realI (int16ToBigInt g)) ≤ 16822)
    (hsp : ∀ w ∈ rootsC k, 87 / 10 ≤ gramAt (int16ToBigInt f) (int16ToBigInt g) w) (Ft Gt : List ℝ) (lFt : Ft.length = 2 ^ k) (lGt : Gt.length = 2 ^ k)
    (dF : (X ^ 2 ^ k + 1 : ℝ[X]) ∣ poly Ft * gramPoly (realI (int16ToBigInt f)) (realI (int16ToBigInt g)) - poly (adjList (realI (int16ToBigInt f))))
    (dG : (X ^ 2 ^ k + 1 : ℝ[X]) ∣ poly Gt * gramPoly (realI (int16ToBigInt f)) (realI (int16ToBigInt g)) - poly (adjList (realI (int16ToBigInt g))))
    (hs : 12289 ^ 2 * (sqNorm Ft + sqNorm Gt) ≤ 16760) :
    ∃ norm, GsNorm ieeeOps (Int16ToFloat64 ieeeOps f) (Int16ToFloat64 ieeeOps g) (ieeeOps.ofInt Q) = .ok norm ∧
      ieeeOps.lt (ieeeOps.mul (ieeeOps.pow2 (ieeeOps.lit 1.17)) (ieeeOps.ofInt Q)) norm = false :=
  variant_C68_accepts amd64V k h1 h2 f g hf hg hn hsp Ft Gt lFt lGt dF dG hs

/-- The pair `72 + 5x`, `60 + 31x` meets the hypotheses of `C68_accepts`: its second Gram-Schmidt vector has squared norm 15457.5. -/
example : sqNorm (realI (int16ToBigInt [72, 5])) + sqNorm (realI (int16ToBigInt [60, 31])) ≤ 16822 ∧
    (∀ w ∈ rootsC 1, 87 / 10 ≤ gramAt (int16ToBigInt [72, 5]) (int16ToBigInt [60, 31]) w) ∧
    (X ^ 2 ^ 1 + 1 : ℝ[X]) ∣ poly [72 / 9770, -5 / 9770] * gramPoly (realI (int16ToBigInt [72, 5])) (realI (int16ToBigInt [60, 31])) -
      poly (adjList (realI (int16ToBigInt [72, 5]))) ∧
    12289 ^ 2 * (sqNorm [72 / 9770, -5 / 9770] + sqNorm [60 / 9770, -31 / 9770]) ≤ 16760 := by
  refine ⟨?_, ?_, ?_, ?_⟩
  · simp [sqNorm, realI, int16ToBigInt]
    norm_num
  · intro w hw
    have h := gramAt_two 72 5 60 31 w (by simpa using (mem_rootsC 1 w).1 hw)
    have e : gramAt (int16ToBigInt [72, 5]) (int16ToBigInt [60, 31]) w = gramAt [72, 5] [60, 31] w := rfl
    rw [e, h]
    norm_num
  · refine ⟨C (-986 / 9770) * (C 72 - C 5 * X), ?_⟩
    simp only [gramPoly, realI, int16ToBigInt, adjList, List.map_cons, List.map_nil, List.reverse_cons, List.reverse_nil, List.nil_append, poly_cons]
    have e1 : ((Int16.toInt 72 : Int) : ℝ) = 72 := by rw [show Int16.toInt 72 = 72 by rfl]; norm_num
    have e2 : ((Int16.toInt 5 : Int) : ℝ) = 5 := by rw [show Int16.toInt 5 = 5 by rfl]; norm_num
    have e3 : ((Int16.toInt 60 : Int) : ℝ) = 60 := by rw [show Int16.toInt 60 = 60 by rfl]; norm_num
    have e4 : ((Int16.toInt 31 : Int) : ℝ) = 31 := by rw [show Int16.toInt 31 = 31 by rfl]; norm_num
    rw [e1, e2, e3, e4]
    apply Polynomial.funext
    intro x
    simp [poly]
    ring
  · simp [sqNorm]
    norm_num

end Falcon
