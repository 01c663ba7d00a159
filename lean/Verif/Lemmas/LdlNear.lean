import Verif.Lemmas.GsNear
import Verif.Props.Ldl
/-!
# The rounding error of `Gram` and `LdlFFT`
-/

namespace Falcon
open F64 Spec ComplexConjugate Polynomial

/-- One term of a `Gram` entry: the product with the computed adjoint, added to the sum so far. -/
theorem gram_term_near (va : Variant) (k : Nat) (h1 : 1 ≤ k) (h2 : k ≤ 10) (x y acc : List F64) (hx : x.length = 2 ^ k) (hy : y.length = 2 ^ k)
    (ha : acc.length = 2 ^ k) (fx : ∀ v ∈ x, v.isFinite = true) (fy : ∀ v ∈ y, v.isFinite = true) (fa : ∀ v ∈ acc, v.isFinite = true)
    (Sx Sy : ℝ) (hSx : l1 (x.map R) + 1 ≤ Sx) (hSy : l1 (y.map R) + 1 ≤ Sy) (bx : Sx ≤ 10 ^ 10) (bY : Sy ≤ 10 ^ 10)
    (hacc : ∀ v ∈ acc, |R v| ≤ 1001 / 1000 * (Sx * Sy)) :
    ∃ ay p r, Adj va.ops y = .ok ay ∧ Mul va.ops x ay = .ok p ∧ Add va.ops acc p = .ok r ∧ r.length = 2 ^ k ∧ (∀ v ∈ r, v.isFinite = true) ∧
      (∀ A : ℝ, (∀ v ∈ acc, |R v| ≤ A) → ∀ v ∈ r, |R v| ≤ A + 10001 / 10000 * (Sx * Sy)) ∧
      ∀ w ∈ rootsC k, ‖evalR (r.map R) w - (evalR (acc.map R) w + evalR (x.map R) w * conj (evalR (y.map R) w))‖ ≤
        2 ^ k * (172 / 10 ^ 15 * (Sx * Sy)) := by
  have x0 := l1_nonneg (x.map R)
  have y0 := l1_nonneg (y.map R)
  have hk : (2 : ℝ) ^ k ≤ 1024 := (pow_le_pow_right₀ (by norm_num) h2).trans (by norm_num)
  have k0 : (0 : ℝ) < 2 ^ k := by positivity
  have hT : Sx ≤ Sx * Sy := le_mul_of_one_le_right (by linarith) (by linarith)
  have hT' : Sy ≤ Sx * Sy := le_mul_of_one_le_left (by linarith) (by linarith)
  have T2 : Sx * Sy ≤ 10 ^ 20 := (mul_le_mul bx bY (by linarith) (by norm_num)).trans (by norm_num)
  have ylen : (y.map R).length = 2 ^ k := by rw [List.length_map, hy]
  obtain ⟨ay, eay, nay⟩ := (Adj_near_variant va) k h1 h2 y hy fy Sy hSy (by linarith)
  have adjl : (adjList (y.map R)).length = 2 ^ k := by rw [adjList_length, ylen]
  have lay : ay.length = 2 ^ k := by rw [nay.length_eq, adjl]
  have hay := near_l1 nay
  rw [adjl, adjList_l1] at hay
  push_cast at hay
  have m1 : (2 : ℝ) ^ k * (7 / 10 ^ 14 * Sy) ≤ 1024 * (7 / 10 ^ 14 * Sy) := mul_le_mul_of_nonneg_right hk (by linarith)
  have laS : l1 (ay.map R) ≤ Sy := by linarith
  obtain ⟨q, lq, dq⟩ := exists_mod k (poly (x.map R) * poly (ay.map R))
  obtain ⟨p, ep, np⟩ := (Mul_near_variant va) k h1 h2 x ay hx lay fx (near_finite nay) Sx Sy (by linarith) laS (by linarith) (by linarith) q lq dq
  have vq : ∀ w ∈ rootsC k, evalR q w = evalR (x.map R) w * evalR (ay.map R) w := by
    intro w hw
    have h3 := evalR_dvd k _ dq w hw
    rw [eval₂_sub, eval₂_mul, ← evalR_eq, ← evalR_eq, ← evalR_eq, sub_eq_zero] at h3
    exact h3.symm
  generalize hTd : Sx * Sy = T at *
  have em : 1 / 10 ^ 13 * T + 1 / 10 ^ 100 * (Sx + Sy + 1) ≤ 101 / 10 ^ 15 * T := by linarith
  have em0 : 0 ≤ 1 / 10 ^ 13 * T + 1 / 10 ^ 100 * (Sx + Sy + 1) := by linarith
  have qb := coef_le k q lq T (by linarith) (by
    intro w hw
    rw [vq w hw, norm_mul, ← hTd]
    have w1 := rootsC_norm k w hw
    exact mul_le_mul ((evalR_norm _ w w1).trans (by linarith)) ((evalR_norm _ w w1).trans laS) (norm_nonneg _) (by linarith))
  have lp : p.length = 2 ^ k := by rw [np.length_eq, lq]
  have fp := near_finite np
  have bp : ∀ v ∈ p, |R v| ≤ (1 + 1 / 10 ^ 12) * T := by
    intro v hv
    obtain ⟨i, hi, rfl⟩ := List.getElem_of_mem hv
    have hi' : i < q.length := by rw [lq, ← lp]; exact hi
    have h3 := np.get hi hi'
    simp only [List.get_eq_getElem] at h3
    have h4 := qb _ (List.getElem_mem hi')
    have h5 := abs_sub_abs_le_abs_sub (R p[i]) q[i]
    linarith [h3.2]
  have nr := add_list_near (1001 / 1000 * T) (by linarith) acc p (fun v hv => ⟨fa v hv, hacc v hv⟩)
    (fun v hv => ⟨fp v hv, (bp v hv).trans (by linarith)⟩) (by rw [ha, lp])
  have u0 := uu_pos
  have u1 := uu_le
  have t0 := et_pos
  have t1 := et_le_uu
  have ue : 3 * uu * (1001 / 1000 * T) + et ≤ 4 / 10 ^ 16 * T := by
    have h8 : uu * T ≤ 1 / 9 / 10 ^ 15 * T := mul_le_mul_of_nonneg_right u1 (by linarith)
    have h9 : 3 * uu * (1001 / 1000 * T) = 3003 / 1000 * (uu * T) := by ring
    rw [h9]
    linarith
  have lz : (List.zipWith (· + ·) (acc.map R) (p.map R)).length = 2 ^ k := by simp [ha, lp]
  refine ⟨ay, p, List.zipWith F64.add acc p, eay, ep, ?_, by simp [ha, lp], near_finite nr, ?_, ?_⟩
  · unfold Add
    rw [if_neg (by rw [ha, lp]; simp)]
  · intro A hA v hv
    obtain ⟨i, hi, rfl⟩ := List.getElem_of_mem hv
    have hi2 : i < (List.zipWith (· + ·) (acc.map R) (p.map R)).length := by rw [← nr.length_eq]; exact hi
    have h3 := nr.get hi hi2
    simp only [List.get_eq_getElem, List.getElem_zipWith, List.getElem_map] at h3
    have i1 : i < acc.length := by simp at hi; omega
    have i2 : i < p.length := by simp at hi; omega
    have h4 := hA _ (List.getElem_mem i1)
    have h5 := bp _ (List.getElem_mem i2)
    have h6 := abs_add_le (R acc[i]) (R p[i])
    have h7 := abs_sub_abs_le_abs_sub (R (acc[i].add p[i])) (R acc[i] + R p[i])
    simp only [List.getElem_zipWith]
    linarith [h3.2]
  · intro w hw
    have w1 := rootsC_norm k w hw
    have a1 := near_eval nay w w1
    rw [adjl, evalR_adj k _ ylen w hw] at a1
    have a2 := near_eval np w w1
    rw [lq, vq w hw] at a2
    have a3 := near_eval nr w w1
    rw [lz, evalR_zipAdd _ _ (by simp [ha, lp])] at a3
    push_cast at a1 a2 a3
    have b1 : ‖evalR (x.map R) w * evalR (ay.map R) w - evalR (x.map R) w * conj (evalR (y.map R) w)‖ ≤ 2 ^ k * (7 / 10 ^ 14 * T) := by
      rw [← mul_sub, norm_mul, ← hTd]
      refine (mul_le_mul ((evalR_norm _ w w1).trans (by linarith : l1 (x.map R) ≤ Sx)) a1 (norm_nonneg _) (by linarith)).trans_eq ?_
      ring
    have b2 : (2 : ℝ) ^ k * (1 / 10 ^ 13 * T + 1 / 10 ^ 100 * (Sx + Sy + 1)) ≤ 2 ^ k * (101 / 10 ^ 15 * T) := mul_le_mul_of_nonneg_left em k0.le
    have b3 : (2 : ℝ) ^ k * (3 * uu * (1001 / 1000 * T) + et) ≤ 2 ^ k * (4 / 10 ^ 16 * T) := mul_le_mul_of_nonneg_left ue k0.le
    have t1 := norm_add_le (evalR (p.map R) w - evalR (x.map R) w * evalR (ay.map R) w)
      (evalR (x.map R) w * evalR (ay.map R) w - evalR (x.map R) w * conj (evalR (y.map R) w))
    rw [sub_add_sub_cancel] at t1
    have t2 := norm_add_le (evalR ((List.zipWith F64.add acc p).map R) w - (evalR (acc.map R) w + evalR (p.map R) w))
      (evalR (p.map R) w - evalR (x.map R) w * conj (evalR (y.map R) w))
    rw [show ∀ a b c d : ℂ, a - (b + c) + (c - d) = a - (b + d) from fun a b c d => by ring] at t2
    have kT : 0 ≤ (2 : ℝ) ^ k * T := mul_nonneg k0.le (by linarith)
    linarith

/-- A `Gram` entry: row `i` times the adjoint of row `j`. -/
theorem gram_cell_near (va : Variant) (k : Nat) (h1 : 1 ≤ k) (h2 : k ≤ 10) (B : List (List (List F64))) (i j : Nat) (x0 x1 y0 y1 : List F64)
    (e1 : idx2 B i 0 = .ok x0) (e2 : idx2 B i 1 = .ok x1) (e3 : idx2 B j 0 = .ok y0) (e4 : idx2 B j 1 = .ok y1)
    (hx0 : x0.length = 2 ^ k) (hx1 : x1.length = 2 ^ k) (hy0 : y0.length = 2 ^ k) (hy1 : y1.length = 2 ^ k)
    (fx0 : ∀ v ∈ x0, v.isFinite = true) (fx1 : ∀ v ∈ x1, v.isFinite = true) (fy0 : ∀ v ∈ y0, v.isFinite = true) (fy1 : ∀ v ∈ y1, v.isFinite = true)
    (Sx Sy : ℝ) (bx0 : l1 (x0.map R) + 1 ≤ Sx) (bx1 : l1 (x1.map R) + 1 ≤ Sx) (by0 : l1 (y0.map R) + 1 ≤ Sy) (by1 : l1 (y1.map R) + 1 ≤ Sy)
    (bx : Sx ≤ 10 ^ 10) (bY : Sy ≤ 10 ^ 10) :
    ∃ r, gramCell va.ops B i j 2 0 (List.replicate (2 ^ k) (va.ops.lit 0)) = .ok r ∧ r.length = 2 ^ k ∧ (∀ v ∈ r, v.isFinite = true) ∧
      (∀ v ∈ r, |R v| ≤ 2001 / 1000 * (Sx * Sy)) ∧
      ∀ w ∈ rootsC k, ‖evalR (r.map R) w - (evalR (x0.map R) w * conj (evalR (y0.map R) w) + evalR (x1.map R) w * conj (evalR (y1.map R) w))‖ ≤
        2 ^ k * (344 / 10 ^ 15 * (Sx * Sy)) := by
  have n0 := l1_nonneg (x0.map R)
  have n1 := l1_nonneg (y0.map R)
  have T0 : 0 ≤ Sx * Sy := mul_nonneg (by linarith) (by linarith)
  have z1 : (va.ops.lit 0 : F64).isFinite = true := by show (ieeeOps.lit 0 : F64).isFinite = true; decide +kernel
  have z2 : R (va.ops.lit 0 : F64) = 0 := by
    show R (ieeeOps.lit 0) = 0
    unfold R
    have h : (ieeeOps.lit 0 : F64).val = 0 := by decide +kernel
    rw [h]; simp
  have zm : ∀ v ∈ List.replicate (2 ^ k) (va.ops.lit 0 : F64), v.isFinite = true ∧ R v = 0 := by
    intro v hv
    rw [List.eq_of_mem_replicate hv]
    exact ⟨z1, z2⟩
  obtain ⟨a, p, r, ea, ep, er, lr, fr, br, vr⟩ := gram_term_near va k h1 h2 x0 y0 (List.replicate (2 ^ k) (va.ops.lit 0)) hx0 hy0 (by simp) fx0 fy0
    (fun v hv => (zm v hv).1) Sx Sy bx0 by0 bx bY (fun v hv => by rw [(zm v hv).2]; simp; linarith)
  have br0 := br 0 (fun v hv => by rw [(zm v hv).2]; simp)
  obtain ⟨b, q, s, eb, eq, es, ls, fs, bs, vs⟩ := gram_term_near va k h1 h2 x1 y1 r hx1 hy1 lr fx1 fy1 fr Sx Sy bx1 by1 bx bY
    (fun v hv => (br0 v hv).trans (by linarith))
  refine ⟨s, ?_, ls, fs, fun v hv => (bs _ br0 v hv).trans (by linarith), fun w hw => ?_⟩
  · rw [gramCell, e1, Go.ok_bind, e3, Go.ok_bind, ea, Go.ok_bind, ep, Go.ok_bind, er, Go.ok_bind, gramCell, e2, Go.ok_bind, e4, Go.ok_bind, eb,
      Go.ok_bind, eq, Go.ok_bind, es, Go.ok_bind, gramCell]
  · have c1 := vr w hw
    have c2 := vs w hw
    have hz : evalR ((List.replicate (2 ^ k) (va.ops.lit 0 : F64)).map R) w = 0 := by
      rw [List.map_replicate, z2]
      unfold evalR
      generalize 2 ^ k = m
      induction m with
      | zero => simp
      | succ m ih => simp [List.replicate_succ] at ih ⊢; right; exact ih
    rw [hz, zero_add] at c1
    have t := norm_add_le (evalR (s.map R) w - (evalR (r.map R) w + evalR (x1.map R) w * conj (evalR (y1.map R) w)))
      (evalR (r.map R) w - evalR (x0.map R) w * conj (evalR (y0.map R) w))
    rw [show ∀ a b c d : ℂ, a - (b + c) + (b - d) = a - (d + c) from fun a b c d => by ring] at t
    linarith

theorem cneg_cnear (e : ℝ) (c : F64 × F64) (z : ℂ) (h : CNear e c z) : CNear e (ieeeOps.cneg c) (-z) := by
  obtain ⟨f1, v1⟩ := neg_fin c.1 h.1.1
  obtain ⟨f2, v2⟩ := neg_fin c.2 h.1.2
  have hc : cval (ieeeOps.cneg c) = -cval c := Complex.ext v1 v2
  refine ⟨⟨f1, f2⟩, ?_⟩
  rw [hc, neg_sub_neg, norm_sub_rev]
  exact h.2

/-- One slot of `LdlFFT`, with all errors relative to `eps`: `V` bounds the quotient, `K` the lower right entry. -/
theorem ldl_slot_near (va : Variant) (a b c : F64 × F64) (A B C : ℂ) (eps V K : ℝ) (h1 : 1 / 10 ^ 14 ≤ eps) (h2 : eps ≤ 1 / 10 ^ 3)
    (ha : CNear (eps * ‖A‖) a A) (hb : CNear (eps * (V * ‖A‖)) b B) (hc : CNear (eps * K) c C) (hA : 1 / 10 ^ 7 ≤ ‖A‖) (hA2 : ‖A‖ ≤ 10 ^ 30)
    (hB : ‖B‖ ≤ V * ‖A‖) (hV : 1 / 10 ^ 20 ≤ V) (hV2 : V ≤ 10 ^ 20) (hC : ‖C‖ ≤ K) (hK : K ≤ 10 ^ 80) :
    CNear (32 / 10 * eps * V) (va.ops.cdiv b a) (B / A) ∧
    CNear (8 * eps * (K + V ^ 2 * ‖A‖))
      (va.ops.cadd c (va.ops.cneg (va.ops.cmul (va.ops.cmul (va.ops.cdiv b a) (va.ops.conj (va.ops.cdiv b a))) a))) (C - B / A * conj (B / A) * A) := by
  have big := Big_ge'
  have u0 := uu_pos
  have u1 := uu_le
  have t0 := et_pos
  have t1 := et_le_uu
  have e0 : 0 < eps := lt_of_lt_of_le (by norm_num) h1
  have V0 : 0 < V := lt_of_lt_of_le (by norm_num) hV
  have A0 : 0 < ‖A‖ := lt_of_lt_of_le (by norm_num) hA
  have K0 : 0 ≤ K := (norm_nonneg _).trans hC
  have eV : eps * V ≤ 1 / 10 ^ 3 * V := mul_le_mul_of_nonneg_right h2 V0.le
  have eV0 : 1 / 10 ^ 14 * (1 / 10 ^ 20) ≤ eps * V := mul_le_mul h1 hV (by norm_num) e0.le
  have d := divC_slot_variant va b a B A (eps * (V * ‖A‖)) (eps * ‖A‖) V hb ha hA
    (by have := mul_le_mul_of_nonneg_right h2 A0.le; linarith) hB (by linarith) hA2 (by
      have : V * ‖A‖ ≤ 10 ^ 20 * 10 ^ 30 := mul_le_mul hV2 hA2 A0.le (by norm_num)
      have := mul_le_mul h2 this (by positivity) (by norm_num)
      norm_num at this ⊢
      linarith)
  have s1 : eps * (V * ‖A‖) / ‖A‖ = eps * V := by field_simp
  have s2 : eps * ‖A‖ / ‖A‖ = eps := by field_simp
  rw [s1, s2] at d
  have hL := d.mono (e' := 32 / 10 * eps * V) (by
    have : 1 / 10 ^ 14 * V ≤ eps * V := mul_le_mul_of_nonneg_right h1 V0.le
    have : V * eps = eps * V := mul_comm _ _
    nlinarith)
  refine ⟨hL, ?_⟩
  set l := va.ops.cdiv b a
  have nL : ‖B / A‖ ≤ V := by rw [norm_div, div_le_iff₀ A0]; exact hB
  have nL' : ‖conj (B / A)‖ ≤ V := by rw [RCLike.norm_conj]; exact nL
  have V2 : V ^ 2 ≤ 10 ^ 40 := (pow_le_pow_left₀ V0.le hV2 2).trans (by norm_num)
  have V20 : 1 / 10 ^ 40 ≤ V ^ 2 := (by norm_num : (1 : ℝ) / 10 ^ 40 ≤ (1 / 10 ^ 20) ^ 2).trans (pow_le_pow_left₀ (by norm_num) hV 2)
  have eV2 : 1 / 10 ^ 14 * V ^ 2 ≤ eps * V ^ 2 := mul_le_mul_of_nonneg_right h1 (by positivity)
  have fe : (32 / 10 * eps * V) * (V + 32 / 10 * eps * V) ≤ 3211 / 1000 * (eps * V ^ 2) := by
    have : (32 / 10 * eps * V) * (V + 32 / 10 * eps * V) = (32 / 10 + 1024 / 100 * eps) * (eps * V ^ 2) := by ring
    rw [this]
    exact mul_le_mul_of_nonneg_right (by linarith) (by positivity)
  have fm : (V + 32 / 10 * eps * V) * (V + 32 / 10 * eps * V) ≤ 101 / 100 * V ^ 2 := by
    have : (V + 32 / 10 * eps * V) * (V + 32 / 10 * eps * V) = (1 + 32 / 10 * eps) ^ 2 * V ^ 2 := by ring
    rw [this]
    exact mul_le_mul_of_nonneg_right (by nlinarith) (by positivity)
  have p1 := cmul_cnear_variant va (32 / 10 * eps * V) (32 / 10 * eps * V) V V l (va.ops.conj l) _ _ hL (conj_cnear_variant va _ _ _ hL) nL nL' (by
    norm_num at V2 big ⊢; linarith)
  have um : 4 * uu * ((V + 32 / 10 * eps * V) * (V + 32 / 10 * eps * V)) ≤ 1 / 10 * (eps * V ^ 2) := by
    have q1 : uu * ((V + 32 / 10 * eps * V) * (V + 32 / 10 * eps * V)) ≤ 1 / 9 / 10 ^ 15 * (101 / 100 * V ^ 2) :=
      mul_le_mul u1 fm (by positivity) (by norm_num)
    linarith
  have p1' := p1.mono (e' := 652 / 100 * (eps * V ^ 2)) (by
    have q1 : V * (32 / 10 * eps * V) = 32 / 10 * (eps * V ^ 2) := by ring
    linarith)
  have W0 : 0 < V ^ 2 * ‖A‖ := by positivity
  have W1 : V ^ 2 * ‖A‖ ≤ 10 ^ 70 := (mul_le_mul V2 hA2 A0.le (by norm_num)).trans (by norm_num)
  have W2 : 1 / 10 ^ 47 ≤ V ^ 2 * ‖A‖ := (by norm_num : (1 : ℝ) / 10 ^ 47 ≤ 1 / 10 ^ 40 * (1 / 10 ^ 7)).trans (mul_le_mul V20 hA (by norm_num) (by positivity))
  have eW : 1 / 10 ^ 14 * (V ^ 2 * ‖A‖) ≤ eps * (V ^ 2 * ‖A‖) := mul_le_mul_of_nonneg_right h1 W0.le
  have eW' : eps * (V ^ 2 * ‖A‖) ≤ 1 / 10 ^ 3 * (V ^ 2 * ‖A‖) := mul_le_mul_of_nonneg_right h2 W0.le
  have nP : ‖B / A * conj (B / A)‖ ≤ V ^ 2 := by
    rw [norm_mul, pow_two]
    exact mul_le_mul nL nL' (norm_nonneg _) V0.le
  have gm : (V ^ 2 + 652 / 100 * (eps * V ^ 2)) * (‖A‖ + eps * ‖A‖) ≤ 101 / 100 * (V ^ 2 * ‖A‖) := by
    have : (V ^ 2 + 652 / 100 * (eps * V ^ 2)) * (‖A‖ + eps * ‖A‖) = (1 + 652 / 100 * eps) * (1 + eps) * (V ^ 2 * ‖A‖) := by ring
    rw [this]
    exact mul_le_mul_of_nonneg_right (by nlinarith) W0.le
  have ge : 652 / 100 * (eps * V ^ 2) * (‖A‖ + eps * ‖A‖) ≤ 653 / 100 * (eps * (V ^ 2 * ‖A‖)) := by
    have : 652 / 100 * (eps * V ^ 2) * (‖A‖ + eps * ‖A‖) = 652 / 100 * (1 + eps) * (eps * (V ^ 2 * ‖A‖)) := by ring
    rw [this]
    exact mul_le_mul_of_nonneg_right (by linarith) (by positivity)
  have p2 := cmul_cnear_variant va _ _ (V ^ 2) ‖A‖ _ a _ _ p1' ha nP le_rfl (by norm_num at W1 big ⊢; linarith)
  have p2' := p2.mono (e' := 76 / 10 * (eps * (V ^ 2 * ‖A‖))) (by
    have q1 : V ^ 2 * (eps * ‖A‖) = eps * (V ^ 2 * ‖A‖) := by ring
    have q2 : uu * ((V ^ 2 + 652 / 100 * (eps * V ^ 2)) * (‖A‖ + eps * ‖A‖)) ≤ 1 / 9 / 10 ^ 15 * (101 / 100 * (V ^ 2 * ‖A‖)) :=
      mul_le_mul u1 gm (by positivity) (by norm_num)
    linarith)
  have eK : eps * K ≤ 1 / 10 ^ 3 * K := mul_le_mul_of_nonneg_right h2 K0
  have eK' : 1 / 10 ^ 14 * K ≤ eps * K := mul_le_mul_of_nonneg_right h1 K0
  have nQ : ‖C + -(B / A * conj (B / A) * A)‖ ≤ K + V ^ 2 * ‖A‖ := by
    refine (norm_add_le _ _).trans (add_le_add hC ?_)
    rw [norm_neg, norm_mul]
    exact mul_le_mul_of_nonneg_right nP A0.le
  have p3 := cadd_cnear _ _ (K + V ^ 2 * ‖A‖) c _ C _ hc (cneg_cnear _ _ _ p2') nQ (by norm_num at W1 big ⊢; linarith)
  rw [sub_eq_add_neg]
  refine p3.mono ?_
  have q1 : uu * (K + V ^ 2 * ‖A‖ + eps * K + 76 / 10 * (eps * (V ^ 2 * ‖A‖))) ≤ 1 / 9 / 10 ^ 15 * (101 / 100 * (K + V ^ 2 * ‖A‖)) :=
    mul_le_mul u1 (by linarith) (by positivity) (by norm_num)
  linarith

end Falcon
