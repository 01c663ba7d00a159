import Verif.Lemmas.BabaiNear
import Verif.Props.FftFloat
/-!
# Babai reduction in IEEE arithmetic (C67)
-/

namespace Falcon
open Spec Polynomial ComplexConjugate F64

/-- The squared length `|f(w)|^2 + |g(w)|^2` at a root of unity. -/
noncomputable def gramAt (f g : List Int) (w : ℂ) : ℝ := Complex.normSq (evalR (realI f) w) + Complex.normSq (evalR (realI g) w)

theorem adjust_ieee_variant (va : Variant) (s : Nat) (a : List Int) (h : ∀ v ∈ a, v.natAbs < 2 ^ (53 + s)) :
    (adjust va.ops (53 + s) a).length = a.length ∧ (∀ x ∈ adjust va.ops (53 + s) a, x.isFinite = true) ∧
    (adjust va.ops (53 + s) a).map R = realI (a.map fun v : Int => v >>> s) ∧ ∀ x ∈ realI (a.map fun v : Int => v >>> s), |x| ≤ 2 ^ 53 := by
  have key : ∀ v ∈ a, bigInt64 (v >>> (53 + s - 53)) = v >>> s ∧ -(2 ^ 53) ≤ v >>> s ∧ v >>> s ≤ 2 ^ 53 := by
    intro v hv
    rw [Nat.add_sub_cancel_left]
    have h1 := h v hv
    rw [pow_add] at h1
    have h2 : 0 < 2 ^ s := Nat.two_pow_pos s
    have hd : v >>> s = v / ((2 ^ s : Nat) : Int) := by rw [Int.shiftRight_eq_div_pow]
    rw [hd]
    generalize (2 : Nat) ^ s = T at h1 h2
    have h5 : v / (T : Int) < 2 ^ 53 := Int.ediv_lt_of_lt_mul (by exact_mod_cast h2) (by omega)
    have h6 : -(2 ^ 53) ≤ v / (T : Int) := by
      rw [Int.le_ediv_iff_mul_le (by exact_mod_cast h2)]
      omega
    generalize v / (T : Int) = u at h5 h6
    refine ⟨?_, h6, h5.le⟩
    unfold bigInt64 i64
    simp only [Int.bmod_def]
    split <;> split <;> omega
  refine ⟨by simp [adjust], ?_, ?_, ?_⟩
  · intro x hx
    obtain ⟨v, hv, rfl⟩ := List.mem_map.1 hx
    obtain ⟨e, l, u⟩ := key v hv
    rw [e]
    exact (ofInt_near _ l u).1
  · unfold adjust realI
    rw [List.map_map, List.map_map]
    apply List.map_congr_left
    intro v hv
    obtain ⟨e, l, u⟩ := key v hv
    show R (va.ops.ofInt (bigInt64 (v >>> (53 + s - 53)))) = _
    rw [e]
    exact (ofInt_near _ l u).2
  · intro x hx
    obtain ⟨y, hy, rfl⟩ := List.mem_map.1 hx
    obtain ⟨v, hv, rfl⟩ := List.mem_map.1 hy
    obtain ⟨_, l, u⟩ := key v hv
    rw [abs_le]
    exact ⟨by exact_mod_cast l, by exact_mod_cast u⟩

theorem adjust_ieee (s : Nat) (a : List Int) (h : ∀ v ∈ a, v.natAbs < 2 ^ (53 + s)) :
    (adjust ieeeOps (53 + s) a).length = a.length ∧ (∀ x ∈ adjust ieeeOps (53 + s) a, x.isFinite = true) ∧
    (adjust ieeeOps (53 + s) a).map R = realI (a.map fun v : Int => v >>> s) ∧ ∀ x ∈ realI (a.map fun v : Int => v >>> s), |x| ≤ 2 ^ 53 :=
  adjust_ieee_variant amd64V s a h

theorem short_l1 (k : Nat) (h2 : k ≤ 10) (f g : List Int) (hf : f.length = 2 ^ k) (hg : g.length = 2 ^ k)
    (hn : sqNorm (realI f) + sqNorm (realI g) ≤ 1.17 ^ 2 * 12289) :
    l1 (realI f) ≤ 4151 ∧ l1 (realI g) ≤ 4151 ∧ l1 (realI f) + l1 (realI g) ≤ 5870 ∧
      (l1 (realI f) + 1) ^ 2 + (l1 (realI g) + 1) ^ 2 ≤ 174 * 10 ^ 5 := by
  have c1 := l1_sq_le (realI f)
  have c2 := l1_sq_le (realI g)
  have e : ∀ l : List Int, (realI l).length = l.length := fun l => by simp [realI]
  rw [e, hf] at c1
  rw [e, hg] at c2
  push_cast at c1 c2
  have hk : (2 : ℝ) ^ k ≤ 2 ^ 10 := pow_le_pow_right₀ (by norm_num) h2
  have s1 := sqNorm_nonneg (realI f)
  have s2 := sqNorm_nonneg (realI g)
  have d1 : (2 : ℝ) ^ k * sqNorm (realI f) ≤ 2 ^ 10 * sqNorm (realI f) := mul_le_mul_of_nonneg_right hk s1
  have d2 : (2 : ℝ) ^ k * sqNorm (realI g) ≤ 2 ^ 10 * sqNorm (realI g) := mul_le_mul_of_nonneg_right hk s2
  have a0 := l1_nonneg (realI f)
  have b0 := l1_nonneg (realI g)
  generalize l1 (realI f) = a at *
  generalize l1 (realI g) = b at *
  have tot : a ^ 2 + b ^ 2 ≤ 17226151 := by norm_num at hn d1 d2; linarith
  have h3 : a + b ≤ 5870 := by nlinarith [sq_nonneg (a - b)]
  refine ⟨by nlinarith, by nlinarith, h3, by nlinarith⟩

theorem gram_inv_bound (k : Nat) (f g Ft Gt : List ℝ) (hf : f.length = 2 ^ k) (hg : g.length = 2 ^ k) (hFt : Ft.length = 2 ^ k) (hGt : Gt.length = 2 ^ k)
    (B : ℝ) (hB : 0 < B) (hd : ∀ w ∈ rootsC k, 1 / B ^ 2 ≤ Complex.normSq (evalR f w) + Complex.normSq (evalR g w))
    (d2 : (X ^ 2 ^ k + 1 : ℝ[X]) ∣ poly Ft * gramPoly f g - poly (adjList f))
    (d3 : (X ^ 2 ^ k + 1 : ℝ[X]) ∣ poly Gt * gramPoly f g - poly (adjList g)) :
    (∀ x ∈ Ft, |x| ≤ B) ∧ (∀ x ∈ Gt, |x| ≤ B) := by
  have key : ∀ (u : List ℝ) (v : List ℝ), u.length = 2 ^ k → v.length = 2 ^ k →
      (X ^ 2 ^ k + 1 : ℝ[X]) ∣ poly u * gramPoly f g - poly (adjList v) →
      (∀ w ∈ rootsC k, Complex.normSq (evalR v w) ≤ Complex.normSq (evalR f w) + Complex.normSq (evalR g w)) → ∀ x ∈ u, |x| ≤ B := by
    intro u v hu hv hdv hle
    refine coef_le k u hu _ hB.le fun w hw => ?_
    have h3 := evalR_dvd k _ hdv w hw
    rw [eval₂_sub, eval₂_mul, gram_eval k f g hf hg w hw, ← evalR_eq, ← evalR_eq, evalR_adj k v hv w hw, sub_eq_zero, Complex.mul_conj,
      Complex.mul_conj, ← Complex.ofReal_add] at h3
    have h4 := congrArg Complex.normSq h3
    rw [Complex.normSq_mul, Complex.normSq_conj, Complex.normSq_ofReal] at h4
    have h5 := hle w hw
    have h6 := hd w hw
    generalize Complex.normSq (evalR f w) + Complex.normSq (evalR g w) = d at *
    have h7 : Complex.normSq (evalR u w) * d ≤ 1 := by
      have : (Complex.normSq (evalR u w) * d) * d ≤ 1 * d := by nlinarith
      exact le_of_mul_le_mul_right this (lt_of_lt_of_le (by positivity) h6)
    have h8 := Complex.normSq_nonneg (evalR u w)
    rw [Complex.normSq_eq_norm_sq] at h7 h8
    have h9 : ‖evalR u w‖ ^ 2 ≤ B ^ 2 := by
      have hB2 : 0 < B ^ 2 := by positivity
      rw [div_le_iff₀ hB2] at h6
      nlinarith
    exact (abs_le_of_sq_le_sq' h9 hB.le).2
  have nn := fun (l : List ℝ) (w : ℂ) => Complex.normSq_nonneg (evalR l w)
  exact ⟨key Ft f hFt hf d2 fun w _ => by linarith [nn g w], key Gt g hGt hg d3 fun w _ => by linarith [nn f w]⟩

theorem gram_sq_bound (k : Nat) (f g Ft Gt : List ℝ) (hf : f.length = 2 ^ k) (hg : g.length = 2 ^ k) (hFt : Ft.length = 2 ^ k) (hGt : Gt.length = 2 ^ k)
    (hd : ∀ w ∈ rootsC k, 784 / 100 ≤ Complex.normSq (evalR f w) + Complex.normSq (evalR g w))
    (d2 : (X ^ 2 ^ k + 1 : ℝ[X]) ∣ poly Ft * gramPoly f g - poly (adjList f))
    (d3 : (X ^ 2 ^ k + 1 : ℝ[X]) ∣ poly Gt * gramPoly f g - poly (adjList g)) :
    (∀ x ∈ Ft, |x| ≤ 10 / 28) ∧ (∀ x ∈ Gt, |x| ≤ 10 / 28) :=
  gram_inv_bound k f g Ft Gt hf hg hFt hGt (10 / 28) (by norm_num) (fun w hw => le_trans (by norm_num) (hd w hw)) d2 d3

/-- `C67_reduced` for every variant of the arithmetic. -/
theorem variant_C67_reduced (va : Variant) (k : Nat) (h1 : 1 ≤ k) (h2 : k ≤ 10) (f g F G : List Int) (hf : f.length = 2 ^ k) (hg : g.length = 2 ^ k)
    (hF : F.length = 2 ^ k) (hG : G.length = 2 ^ k) (hn : sqNorm (realI f) + sqNorm (realI g) ≤ 1.17 ^ 2 * 12289)
    (hd : ∀ w ∈ rootsC k, 784 / 100 ≤ gramAt f g w) (fuel : Nat) (F' G' : List Int) (h : reduce va.ops fuel f g F G = .ok (F', G')) :
    ∃ (s : Nat) (κ : List ℝ), (s = 0 ∨ ∃ v ∈ F' ++ G', 2 ^ (s + 45) ≤ v.natAbs) ∧ κ.length = 2 ^ k ∧
      (∀ x ∈ κ, |x| ≤ 1 / 2 + 57 / 10 ^ 9 * (l1 (realI (F'.map fun v : Int => v >>> s)) + l1 (realI (G'.map fun v : Int => v >>> s)) + 2)) ∧
      (X ^ 2 ^ k + 1 : ℝ[X]) ∣ poly κ * gramPoly (realI f) (realI g) -
        (poly (realI (F'.map fun v : Int => v >>> s)) * poly (adjList (realI f)) + poly (realI (G'.map fun v : Int => v >>> s)) * poly (adjList (realI g))) := by
  obtain ⟨-, hok⟩ := reduce_ok (O := va.ops) k h2 f g hf hg fuel F G hF hG
  obtain ⟨lF', lG', -⟩ := hok F' G' h
  have hlen : ∀ l : List Int, (realI l).length = l.length := fun l => by simp [realI]
  have hs : ∀ v ∈ f ++ g, v.natAbs < 2 ^ 48 := by
    intro v hv
    have q1 := sqNorm_nonneg (realI f)
    have q2 := sqNorm_nonneg (realI g)
    have hv2 : (v : ℝ) ^ 2 ≤ 1.17 ^ 2 * 12289 := by
      rcases List.mem_append.1 hv with hv | hv
      · exact (sq_le_sqNorm (realI f) v (List.mem_map_of_mem hv)).trans (by linarith)
      · exact (sq_le_sqNorm (realI g) v (List.mem_map_of_mem hv)).trans (by linarith)
    have hv3 : v ^ 2 < 2 ^ 15 := by
      have : (v : ℝ) ^ 2 < 2 ^ 15 := lt_of_le_of_lt hv2 (by norm_num)
      exact_mod_cast this
    have h4 : v < 2 ^ 48 := by nlinarith
    have h5 : -(2 ^ 48) < v := by nlinarith
    omega
  unfold reduce at h
  obtain ⟨size, esz, h⟩ := Go.bind_eq_ok.1 h
  have hsize : size = 53 := by
    obtain ⟨a, _, c⟩ := sizeOf2_spec f g size esz
    rcases c with c | ⟨c, v, hv, hv2⟩
    · exact c
    · have := hs v hv
      have : 2 ^ 48 ≤ 2 ^ (size - 8) := Nat.pow_le_pow_right (by decide) (by omega)
      omega
  subst hsize
  have hsz := sizeOf2_spec f g 53 esz
  obtain ⟨af1, af2, af3, -⟩ := (adjust_ieee_variant va) 0 f (fun v hv => hsz.2.1 v (List.mem_append_left _ hv))
  obtain ⟨ag1, ag2, ag3, -⟩ := (adjust_ieee_variant va) 0 g (fun v hv => hsz.2.1 v (List.mem_append_right _ hv))
  have e0 : ∀ l : List Int, (l.map fun v : Int => v >>> 0) = l := by
    intro l
    conv_rhs => rw [← List.map_id l]
    apply List.map_congr_left
    intro v _
    simp
  rw [e0] at af3 ag3
  obtain ⟨sf, sg, -, hS⟩ := short_l1 k h2 f g hf hg hn
  obtain ⟨fa, ef, nf⟩ := (FFT_near'_variant va) k h1 h2 _ (af1.trans hf) af2 (l1 (realI f) + 1) (by rw [af3]) (by linarith)
  obtain ⟨ga, eg, ng⟩ := (FFT_near'_variant va) k h1 h2 _ (ag1.trans hg) ag2 (l1 (realI g) + 1) (by rw [ag3]) (by linarith)
  rw [af3] at nf
  rw [ag3] at ng
  rw [show (53 : Nat) = 53 + 0 from rfl, ef, Go.ok_bind, eg, Go.ok_bind] at h
  obtain ⟨S, hSz, h⟩ := reduceLoop_exit va.ops _ _ _ _ _ _ _ _ _ _ h
  obtain ⟨h53, hup, hlow⟩ := sizeOf2_spec F' G' S hSz
  rcases h with h | ⟨q, hq, hz⟩
  · omega
  obtain ⟨s, rfl⟩ : ∃ s, S = 53 + s := ⟨S - 53, by omega⟩
  obtain ⟨aF1, aF2, aF3, aF4⟩ := (adjust_ieee_variant va) s F' (fun v hv => hup v (List.mem_append_left _ hv))
  obtain ⟨aG1, aG2, aG3, aG4⟩ := (adjust_ieee_variant va) s G' (fun v hv => hup v (List.mem_append_right _ hv))
  have hk : (2 : ℝ) ^ k ≤ 2 ^ 10 := pow_le_pow_right₀ (by norm_num) h2
  have bl : ∀ l : List Int, l.length = 2 ^ k → (∀ x ∈ realI (l.map fun v : Int => v >>> s), |x| ≤ 2 ^ 53) →
      l1 (realI (l.map fun v : Int => v >>> s)) + 1 ≤ 10 ^ 23 := by
    intro l hl hb
    have := l1_le_length _ _ hb
    rw [hlen, List.length_map, hl] at this
    push_cast at this
    have h3 : (2 : ℝ) ^ k * 2 ^ 53 ≤ 2 ^ 10 * 2 ^ 53 := by gcongr
    have h4 : (2 : ℝ) ^ 10 * 2 ^ 53 + 1 ≤ 10 ^ 23 := by norm_num
    linarith
  obtain ⟨κ, lκ, dκ, r, er, nr⟩ := (babai_near_variant va) k h1 h2 (realI f) (realI g) (by rw [hlen, hf]) (by rw [hlen, hg]) fa ga _ _ (aF1.trans lF') (aG1.trans lG')
    aF2 aG2 (l1 (realI f) + 1) (l1 (realI g) + 1) (l1 (realI (F'.map fun v : Int => v >>> s)) + 1) (l1 (realI (G'.map fun v : Int => v >>> s)) + 1)
    le_rfl le_rfl (by rw [aF3]) (by rw [aG3]) hS (bl F' lF' aF4) (bl G' lG' aG4) nf ng hd
  rw [aF3, aG3] at dκ
  rw [er, Go.ok.injEq] at hq
  refine ⟨s, κ, ?_, lκ, ?_, dκ⟩
  · rcases hlow with c | ⟨c, v, hv, hv2⟩
    · left; omega
    · right
      refine ⟨v, hv, ?_⟩
      rwa [show 53 + s - 8 = s + 45 by omega] at hv2
  · rw [C55_allZeroes] at hz
    have hr : ∀ x ∈ r, va.ops.toInt (va.ops.round x) = 0 := by
      intro x hx
      apply hz
      rw [← hq]
      exact List.mem_map_of_mem hx
    intro x hx
    obtain ⟨i, hi, rfl⟩ := List.getElem_of_mem hx
    have hi' : i < r.length := by rw [nr.length_eq]; exact hi
    have hg := nr.get hi' hi
    simp only [List.get_eq_getElem] at hg
    have z := (round_zero_ieee_variant va) r[i] hg.1 (hr _ (List.getElem_mem hi'))
    have t := abs_sub_abs_le_abs_sub κ[i] (R r[i])
    rw [abs_sub_comm] at t
    have := hg.2
    linarith

/-- C67: in IEEE arithmetic, when `reduce` returns `(F, G)` for a pair `(f, g)` within the norm bound of Falcon and not too small at any root
of unity, the pair is size-reduced up to rounding errors: every coefficient of the quotient of `(F >> s) f* + (G >> s) g*` by `f f* + g g*`
is at most `1/2 + 5.7e-8 (||F >> s||_1 + ||G >> s||_1 + 2)`. -/
theorem C67_reduced (k : Nat) (h1 : 1 ≤ k) (h2 : k ≤ 10) (f g F G : List Int) (hf : f.length = 2 ^ k) (hg : g.length = 2 ^ k)
    (hF : F.length = 2 ^ k) (hG : G.length = 2 ^ k) (hn : sqNorm (realI f) + sqNorm (realI g) ≤ 1.17 ^ 2 * 12289)
    (hd : ∀ w ∈ rootsC k, 784 / 100 ≤ gramAt f g w) (fuel : Nat) (F' G' : List Int) (h : reduce ieeeOps fuel f g F G = .ok (F', G')) :
    ∃ (s : Nat) (κ : List ℝ), (s = 0 ∨ ∃ v ∈ F' ++ G', 2 ^ (s + 45) ≤ v.natAbs) ∧ κ.length = 2 ^ k ∧
      (∀ x ∈ κ, |x| ≤ 1 / 2 + 57 / 10 ^ 9 * (l1 (realI (F'.map fun v : Int => v >>> s)) + l1 (realI (G'.map fun v : Int => v >>> s)) + 2)) ∧
      (X ^ 2 ^ k + 1 : ℝ[X]) ∣ poly κ * gramPoly (realI f) (realI g) -
        (poly (realI (F'.map fun v : Int => v >>> s)) * poly (adjList (realI f)) + poly (realI (G'.map fun v : Int => v >>> s)) * poly (adjList (realI g))) :=
  variant_C67_reduced amd64V k h1 h2 f g F G hf hg hF hG hn hd fuel F' G' h

/-- `C67_short` for every variant of the arithmetic. -/
theorem variant_C67_short (va : Variant) (k : Nat) (h1 : 1 ≤ k) (h2 : k ≤ 10) (f g F G : List Int) (hf : f.length = 2 ^ k) (hg : g.length = 2 ^ k)
    (hF : F.length = 2 ^ k) (hG : G.length = 2 ^ k) (hn : sqNorm (realI f) + sqNorm (realI g) ≤ 1.17 ^ 2 * 12289)
    (hd : ∀ w ∈ rootsC k, 784 / 100 ≤ gramAt f g w) (fuel : Nat) (F' G' : List Int)
    (h : reduce va.ops fuel f g F G = .ok (F', G')) (hdet : CongrZ (2 ^ k) (ntruDet f g F' G') (C 12289)) :
    ∀ v ∈ F' ++ G', |(v : ℝ)| ≤ 11000 := by
  have hlen : ∀ l : List Int, (realI l).length = l.length := fun l => by simp [realI]
  obtain ⟨-, hok⟩ := reduce_ok (O := va.ops) k h2 f g hf hg fuel F G hF hG
  obtain ⟨lF', lG', -⟩ := hok F' G' h
  obtain ⟨s, κ, hs, lκ, bκ, dκ⟩ := (variant_C67_reduced va) k h1 h2 f g F G hf hg hF hG hn hd fuel F' G' h
  have hne : ∀ w ∈ rootsC k, evalR (realI f) w ≠ 0 ∨ evalR (realI g) w ≠ 0 := by
    intro w hw
    by_contra hc
    push Not at hc
    have := hd w hw
    rw [gramAt, hc.1, hc.2, map_zero, add_zero] at this
    norm_num at this
  have hc := gram_coprime k (realI f) (realI g) (by rw [hlen, hf]) (by rw [hlen, hg]) hne
  obtain ⟨Ft, hFt, d2⟩ := exists_div k (poly (adjList (realI f))) _ hc
  obtain ⟨Gt, hGt, d3⟩ := exists_div k (poly (adjList (realI g))) _ hc
  obtain ⟨bF, bG⟩ := gram_sq_bound k _ _ Ft Gt (by rw [hlen, hf]) (by rw [hlen, hg]) hFt hGt hd d2 d3
  have hdetR : (X ^ 2 ^ k + 1 : ℝ[X]) ∣ poly (realI f) * poly (realI G') - poly (realI g) * poly (realI F') - C 12289 := by
    obtain ⟨c, hcc⟩ := hdet
    refine ⟨c.map (Int.castRingHom ℝ), ?_⟩
    have := congrArg (Polynomial.map (Int.castRingHom ℝ)) hcc
    unfold ntruDet polyZ at this
    simp only [Polynomial.map_sub, Polynomial.map_mul, Polynomial.map_add, Polynomial.map_pow, Polynomial.map_X, Polynomial.map_one,
      Polynomial.map_C] at this
    rw [poly_realI, poly_realI, poly_realI, poly_realI]
    convert this using 2
    simp
  obtain ⟨sf, sg, sfg, -⟩ := short_l1 k h2 f g hf hg hn
  have f0 := l1_nonneg (realI f)
  have g0 := l1_nonneg (realI g)
  have hk : (2 : ℝ) ^ k ≤ 2 ^ 10 := pow_le_pow_right₀ (by norm_num) h2
  -- the coefficients, given the determinant
  have core : ∀ (a b D : List ℝ) (L : ℝ), a.length = 2 ^ k → b.length = 2 ^ k → l1 D ≤ L →
      (∀ x ∈ κ, |x| ≤ 1 / 2 + 57 / 10 ^ 9 * (l1 a + l1 b + 2)) →
      (X ^ 2 ^ k + 1 : ℝ[X]) ∣ poly κ * gramPoly (realI f) (realI g) - (poly a * poly (adjList (realI f)) + poly b * poly (adjList (realI g))) →
      (X ^ 2 ^ k + 1 : ℝ[X]) ∣ poly (realI f) * poly b - poly (realI g) * poly a - poly D →
      ∃ K : ℝ, K ≤ 77 / 100 + 65 / 10 ^ 6 * L ∧ (∀ x ∈ a, |x| ≤ K * 4151 + 10 / 28 * L) ∧ (∀ x ∈ b, |x| ≤ K * 4151 + 10 / 28 * L) := by
    intro a b D L la lb hL hK e1 e2
    have D0 := l1_nonneg D
    have a0 := l1_nonneg a
    have b0 := l1_nonneg b
    set K := 1 / 2 + 57 / 10 ^ 9 * (l1 a + l1 b + 2) with hKd
    have K0 : 0 ≤ K := by rw [hKd]; positivity
    obtain ⟨r1, r2⟩ := core_bound k (realI f) (realI g) a b κ Ft Gt D (by rw [hlen, hf]) (by rw [hlen, hg]) la lb lκ hFt hGt hc K hK
      (10 / 28) bF bG e1 d2 d3 e2
    have t1 := l1_le_length a _ r1
    have t2 := l1_le_length b _ r2
    rw [la] at t1
    rw [lb] at t2
    push_cast at t1 t2
    have m1 : 0 ≤ K * l1 (realI f) + 10 / 28 * l1 D := by positivity
    have m2 : 0 ≤ K * l1 (realI g) + 10 / 28 * l1 D := by positivity
    have u1 : (2 : ℝ) ^ k * (K * l1 (realI f) + 10 / 28 * l1 D) ≤ 2 ^ 10 * (K * l1 (realI f) + 10 / 28 * l1 D) := mul_le_mul_of_nonneg_right hk m1
    have u2 : (2 : ℝ) ^ k * (K * l1 (realI g) + 10 / 28 * l1 D) ≤ 2 ^ 10 * (K * l1 (realI g) + 10 / 28 * l1 D) := mul_le_mul_of_nonneg_right hk m2
    have u3 : K * (l1 (realI f) + l1 (realI g)) ≤ K * 5870 := mul_le_mul_of_nonneg_left sfg K0
    have u4 : K * l1 (realI f) ≤ K * 4151 := mul_le_mul_of_nonneg_left sf K0
    have u5 : K * l1 (realI g) ≤ K * 4151 := mul_le_mul_of_nonneg_left sg K0
    refine ⟨K, ?_, fun x hx => (r1 x hx).trans (by linarith), fun x hx => (r2 x hx).trans (by linarith)⟩
    have tot : l1 a + l1 b ≤ 1024 * (K * 5870) + 1024 * (20 / 28 * L) := by norm_num at u1 u2; linarith
    rw [hKd] at tot ⊢
    linarith
  have hs0 : s = 0 := by
    rcases hs with hs | ⟨v, hv, hv2⟩
    · exact hs
    exfalso
    obtain ⟨D, -, hDb, d4⟩ := shift_det k h2 f g F' G' lF' lG' hn hdetR s
    obtain ⟨K, hK, r1, r2⟩ := core _ _ D _ (by rw [hlen, List.length_map, lF']) (by rw [hlen, List.length_map, lG']) hDb bκ dκ d4
    apply shift_contra v s hv2
    have fin : |((v >>> s : Int) : ℝ)| ≤ K * 4151 + 10 / 28 * (2 ^ 10 * 29113) := by
      rcases List.mem_append.1 hv with hv | hv
      · exact r1 ((v >>> s : Int) : ℝ) (List.mem_map_of_mem (List.mem_map_of_mem hv))
      · exact r2 ((v >>> s : Int) : ℝ) (List.mem_map_of_mem (List.mem_map_of_mem hv))
    refine lt_of_le_of_lt fin ?_
    norm_num at hK ⊢
    linarith
  subst hs0
  have e0 : ∀ l : List Int, (l.map fun v : Int => v >>> 0) = l := by
    intro l
    conv_rhs => rw [← List.map_id l]
    apply List.map_congr_left
    intro v _
    simp
  rw [e0, e0] at dκ bκ
  have hL : l1 [(12289 : ℝ)] ≤ 12289 := by simp [l1]
  obtain ⟨K, hK, r1, r2⟩ := core (realI F') (realI G') [12289] 12289 (by rw [hlen, lF']) (by rw [hlen, lG']) hL bκ dκ (by simpa using hdetR)
  have fin : K * 4151 + 10 / 28 * 12289 ≤ 11000 := by
    norm_num at hK ⊢
    linarith
  intro v hv
  rcases List.mem_append.1 hv with hv | hv
  · exact (r1 v (List.mem_map_of_mem hv)).trans fin
  · exact (r2 v (List.mem_map_of_mem hv)).trans fin

/-- C67: in IEEE arithmetic, reducing a solution of the NTRU equation by a pair `(f, g)` within the norm bound, with
`|f(w)|^2 + |g(w)|^2 >= 7.84` at every root of unity, yields coefficients of at most 11000 in absolute value. -/
theorem C67_short (k : Nat) (h1 : 1 ≤ k) (h2 : k ≤ 10) (f g F G : List Int) (hf : f.length = 2 ^ k) (hg : g.length = 2 ^ k)
    (hF : F.length = 2 ^ k) (hG : G.length = 2 ^ k) (hn : sqNorm (realI f) + sqNorm (realI g) ≤ 1.17 ^ 2 * 12289)
    (hd : ∀ w ∈ rootsC k, 784 / 100 ≤ gramAt f g w) (fuel : Nat) (F' G' : List Int)
    (h : reduce ieeeOps fuel f g F G = .ok (F', G')) (hdet : CongrZ (2 ^ k) (ntruDet f g F' G') (C 12289)) :
    ∀ v ∈ F' ++ G', |(v : ℝ)| ≤ 11000 :=
  variant_C67_short amd64V k h1 h2 f g F G hf hg hF hG hn hd fuel F' G' h hdet

end Falcon
