import Verif.Props.GsNorm
import Verif.Props.Util
/-!
# Babai reduction in exact arithmetic: lemmas
-/

namespace Falcon
open Spec Polynomial ComplexConjugate

/-- The sum of the absolute values. -/
noncomputable def l1 (f : List ℝ) : ℝ := (f.map fun x => |x|).sum

theorem l1_nonneg (f : List ℝ) : 0 ≤ l1 f := by
  apply List.sum_nonneg
  intro x hx
  obtain ⟨y, _, rfl⟩ := List.mem_map.1 hx
  exact abs_nonneg y

theorem poly_smul (c : ℝ) (f : List ℝ) : poly (f.map fun x : ℝ => c * x) = C c * poly f := by
  induction f with
  | nil => simp
  | cons a f ih => simp [ih]; ring

theorem abs_zipWith_add (f g : List ℝ) (A B : ℝ) (hf : ∀ x ∈ f, |x| ≤ A) (hg : ∀ x ∈ g, |x| ≤ B) :
    ∀ x ∈ List.zipWith (fun x y : ℝ => x + y) f g, |x| ≤ A + B := by
  induction f generalizing g with
  | nil => simp
  | cons a f ih =>
    cases g with
    | nil => simp
    | cons b g =>
      intro x hx
      rw [List.zipWith_cons_cons, List.mem_cons] at hx
      rcases hx with rfl | hx
      · exact (abs_add_le a b).trans (add_le_add (hf a List.mem_cons_self) (hg b List.mem_cons_self))
      · exact ih g (fun x hx => hf x (List.mem_cons_of_mem _ hx)) (fun x hx => hg x (List.mem_cons_of_mem _ hx)) x hx

/-- The coefficients of a product modulo `x^n+1`. -/
theorem prod_bound (n : Nat) (hn : 0 < n) (a : List ℝ) (M : ℝ) (ha : a.length = n) (hM : ∀ x ∈ a, |x| ≤ M) (b : List ℝ) :
    ∃ r : List ℝ, r.length = n ∧ (X ^ n + 1 : ℝ[X]) ∣ poly a * poly b - poly r ∧ ∀ x ∈ r, |x| ≤ M * l1 b := by
  induction b generalizing a with
  | nil =>
    have hz : poly (List.replicate n (0 : ℝ)) = 0 := by
      clear ha hM hn
      induction n with
      | zero => rfl
      | succ n ih => rw [List.replicate_succ, poly_cons, ih]; simp
    refine ⟨List.replicate n 0, by simp, by simp [hz], ?_⟩
    intro x hx
    rw [List.eq_of_mem_replicate hx]
    simp [l1]
  | cons b0 b ih =>
    rcases List.eq_nil_or_concat a with rfl | ⟨i, z, rfl⟩
    · simp at ha; omega
    rw [List.concat_eq_append] at ha hM ⊢
    have li : i.length + 1 = n := by simpa using ha
    obtain ⟨r, lr, ⟨c, hc⟩, br⟩ := ih (-z :: i) (by simpa using li) (by
      intro x hx
      rcases List.mem_cons.1 hx with rfl | hx
      · rw [abs_neg]; exact hM z (by simp)
      · exact hM x (by simp [hx]))
    refine ⟨List.zipWith (fun x y : ℝ => x + y) ((i ++ [z]).map fun x : ℝ => b0 * x) r, by simp [lr, li], ?_, ?_⟩
    · rw [poly_zipWith_add _ _ (by simp [lr, li]), poly_smul]
      refine ⟨c + C z * poly b, ?_⟩
      rw [poly_append, poly_cons, poly_cons, poly_nil]
      rw [poly_cons, C_neg] at hc
      have e : (X : ℝ[X]) ^ n = X * X ^ i.length := by rw [← li, pow_succ]; ring
      rw [e] at hc ⊢
      linear_combination hc
    · have e : M * l1 (b0 :: b) = |b0| * M + M * l1 b := by
        simp only [l1, List.map_cons, List.sum_cons]; ring
      rw [e]
      apply abs_zipWith_add _ _ _ _ _ br
      intro x hx
      obtain ⟨y, hy, rfl⟩ := List.mem_map.1 hx
      rw [abs_mul]
      exact mul_le_mul_of_nonneg_left (hM y hy) (abs_nonneg b0)

/-- The polynomial `f f* + g g*`. -/
noncomputable def gramPoly (f g : List ℝ) : ℝ[X] := poly f * poly (adjList f) + poly g * poly (adjList g)

theorem gram_eval (k : Nat) (f g : List ℝ) (hf : f.length = 2 ^ k) (hg : g.length = 2 ^ k) (w : ℂ) (hw : w ∈ rootsC k) :
    (gramPoly f g).eval₂ Complex.ofRealHom w = evalR f w * conj (evalR f w) + evalR g w * conj (evalR g w) := by
  unfold gramPoly
  rw [eval₂_add, eval₂_mul, eval₂_mul, ← evalR_eq, ← evalR_eq, ← evalR_eq, ← evalR_eq, evalR_adj k f hf w hw, evalR_adj k g hg w hw]

theorem gram_ne_zero (f g : List ℝ) (w : ℂ) (hz : evalR f w ≠ 0 ∨ evalR g w ≠ 0) :
    evalR f w * conj (evalR f w) + evalR g w * conj (evalR g w) ≠ 0 := by
  intro h
  rw [Complex.mul_conj, Complex.mul_conj, ← Complex.ofReal_add, Complex.ofReal_eq_zero] at h
  have n1 := Complex.normSq_nonneg (evalR f w)
  have n2 := Complex.normSq_nonneg (evalR g w)
  rcases hz with hz | hz
  · exact hz (Complex.normSq_eq_zero.1 (by linarith : Complex.normSq (evalR f w) = 0))
  · exact hz (Complex.normSq_eq_zero.1 (by linarith : Complex.normSq (evalR g w) = 0))

theorem gram_coprime (k : Nat) (f g : List ℝ) (hf : f.length = 2 ^ k) (hg : g.length = 2 ^ k)
    (hz : ∀ w ∈ rootsC k, evalR f w ≠ 0 ∨ evalR g w ≠ 0) : IsCoprime (X ^ 2 ^ k + 1 : ℝ[X]) (gramPoly f g) := by
  refine (isCoprime_iff_aeval_ne_zero_of_isAlgClosed ℝ ℂ _ _).2 ?_
  intro w
  by_cases hw : w ^ 2 ^ k + 1 = 0
  · right
    have hm : w ∈ rootsC k := (mem_rootsC k w).2 (by linear_combination hw)
    have := gram_ne_zero f g w (hz w hm)
    rw [← gram_eval k f g hf hg w hm] at this
    exact this
  · left
    simpa using hw

theorem exists_div (k : Nat) (p e : ℝ[X]) (hc : IsCoprime (X ^ 2 ^ k + 1 : ℝ[X]) e) :
    ∃ h : List ℝ, h.length = 2 ^ k ∧ (X ^ 2 ^ k + 1 : ℝ[X]) ∣ poly h * e - p := by
  obtain ⟨a, b, hab⟩ := hc
  obtain ⟨h, hl, c, hcc⟩ := exists_mod k (b * p)
  exact ⟨h, hl, -(a * p) - c * e, by linear_combination p * hab - e * hcc⟩

/-- One computation of the Babai coefficients in exact arithmetic: they are the rounded coefficients of the quotient
`(F f* + G g*)/(f f* + g g*)` of R[x]/(x^n+1). -/
theorem babai_exact (k : Nat) (h1 : 1 ≤ k) (h2 : k ≤ 10) (f g F G : List ℝ) (hf : f.length = 2 ^ k) (hg : g.length = 2 ^ k)
    (hF : F.length = 2 ^ k) (hG : G.length = 2 ^ k) (hz : ∀ w ∈ rootsC k, evalR f w ≠ 0 ∨ evalR g w ≠ 0) :
    ∃ κ : List ℝ, κ.length = 2 ^ k ∧
      (X ^ 2 ^ k + 1 : ℝ[X]) ∣ poly κ * gramPoly f g - (poly F * poly (adjList f) + poly G * poly (adjList g)) ∧
      babai exactOps ((rootsC k).map (evalR f)) ((rootsC k).map (evalR g)) F G = .ok (RoundAll exactOps κ) := by
  obtain ⟨κ, hl, hd⟩ := exists_div k (poly F * poly (adjList f) + poly G * poly (adjList g)) _ (gram_coprime k f g hf hg hz)
  refine ⟨κ, hl, hd, ?_⟩
  unfold babai
  rw [FFT_exact k h1 h2 F hF, FFT_exact k h1 h2 G hG]
  simp only [Go.ok_bind, AdjFFT, MulFFT, AddFFT, DivFFT, List.length_map, List.length_zipWith, List.zipWith_map, List.zipWith_self,
    min_self, ne_eq, not_true_eq_false, if_false, lt_self_iff_false, List.map_map, Function.comp_def]
  have e : (List.map (fun w => exactOps.cdiv
        (exactOps.cadd (exactOps.cmul (evalR F w) (exactOps.conj (evalR f w))) (exactOps.cmul (evalR G w) (exactOps.conj (evalR g w))))
        (exactOps.cadd (exactOps.cmul (evalR f w) (exactOps.conj (evalR f w))) (exactOps.cmul (evalR g w) (exactOps.conj (evalR g w)))))
      (rootsC k)) = (rootsC k).map (evalR κ) := by
    apply List.map_congr_left
    intro w hw
    have h3 := evalR_dvd k _ hd w hw
    rw [eval₂_sub, eval₂_mul, eval₂_add, eval₂_mul, eval₂_mul, gram_eval k f g hf hg w hw, ← evalR_eq, ← evalR_eq, ← evalR_eq,
      ← evalR_eq, ← evalR_eq, evalR_adj k f hf w hw, evalR_adj k g hg w hw, sub_eq_zero] at h3
    have hne := gram_ne_zero f g w (hz w hw)
    show (evalR F w * conj (evalR f w) + evalR G w * conj (evalR g w)) /
      (evalR f w * conj (evalR f w) + evalR g w * conj (evalR g w)) = evalR κ w
    rw [← h3, mul_div_assoc, div_self hne, mul_one]
  rw [e, IFFT_exact k h1 h2 κ hl]
  rfl

/-- Coefficients that round to zero are below one half. -/
theorem round_zero (x : ℝ) (h : exactOps.toInt (exactOps.round x) = 0) : |x| < 1 / 2 := by
  have ht : ∀ m : ℤ, truncR (m : ℝ) = m := by
    intro m
    unfold truncR
    split <;> simp
  by_cases hx : 0 ≤ x
  · have e : exactOps.toInt (exactOps.round x) = ⌊x + 1 / 2⌋ := by
      show truncR (if 0 ≤ x then (⌊x + 1 / 2⌋ : ℝ) else (⌈x - 1 / 2⌉ : ℝ)) = _
      rw [if_pos hx, ht]
    rw [e, Int.floor_eq_iff] at h
    rw [abs_of_nonneg hx]
    have := h.2
    push_cast at this
    linarith
  · have e : exactOps.toInt (exactOps.round x) = ⌈x - 1 / 2⌉ := by
      show truncR (if 0 ≤ x then (⌊x + 1 / 2⌋ : ℝ) else (⌈x - 1 / 2⌉ : ℝ)) = _
      rw [if_neg hx, ht]
    rw [e, Int.ceil_eq_iff] at h
    rw [abs_of_neg (lt_of_not_ge hx)]
    have := h.1
    push_cast at this
    linarith

/-- The loop of `reduce` ends with coefficients that round to zero. -/
theorem reduceLoop_exit (O : FloatOps) (f g : List Int) (size : Nat) (fa ga : List O.C) (fuel : Nat) (F G F' G' : List Int)
    (h : reduceLoop O f g size fa ga fuel F G = .ok (F', G')) : ∃ S, sizeOf2 F' G' = .ok S ∧
      (S < size ∨ ∃ q, babai O fa ga (adjust O S F') (adjust O S G') = .ok q ∧ allZeroes q = true) := by
  induction fuel generalizing F G with
  | zero => simp [reduceLoop] at h
  | succ fuel ih =>
    rw [reduceLoop] at h
    obtain ⟨S, hS, h⟩ := Go.bind_eq_ok.1 h
    split at h
    · rename_i hlt
      simp only [Go.pure_eq, Go.ok.injEq, Prod.mk.injEq] at h
      obtain ⟨rfl, rfl⟩ := h
      exact ⟨S, hS, Or.inl hlt⟩
    · obtain ⟨q, hq, h⟩ := Go.bind_eq_ok.1 h
      split at h
      · rename_i hz
        simp only [Go.pure_eq, Go.ok.injEq, Prod.mk.injEq] at h
        obtain ⟨rfl, rfl⟩ := h
        exact ⟨S, hS, Or.inr ⟨q, hq, hz⟩⟩
      · obtain ⟨fk, _, h⟩ := Go.bind_eq_ok.1 h
        obtain ⟨gk, _, h⟩ := Go.bind_eq_ok.1 h
        obtain ⟨F1, _, h⟩ := Go.bind_eq_ok.1 h
        obtain ⟨G1, _, h⟩ := Go.bind_eq_ok.1 h
        exact ih F1 G1 h

/-- What the size computed by `reduce` says about the coefficients. -/
theorem sizeOf2_spec (a b : List Int) (S : Nat) (h : sizeOf2 a b = .ok S) :
    53 ≤ S ∧ (∀ v ∈ a ++ b, v.natAbs < 2 ^ S) ∧ (S = 53 ∨ (56 ≤ S ∧ ∃ v ∈ a ++ b, 2 ^ (S - 8) ≤ v.natAbs)) := by
  unfold sizeOf2 at h
  obtain ⟨m1, e1, h⟩ := Go.bind_eq_ok.1 h
  obtain ⟨m2, e2, h⟩ := Go.bind_eq_ok.1 h
  obtain ⟨m3, e3, h⟩ := Go.bind_eq_ok.1 h
  obtain ⟨m4, e4, h⟩ := Go.bind_eq_ok.1 h
  obtain ⟨r, er, h⟩ := Go.bind_eq_ok.1 h
  have ha : a ≠ [] := by rintro rfl; simp [minFromBigInt, idx] at e1
  have hb : b ≠ [] := by rintro rfl; simp [minFromBigInt, idx] at e3
  obtain ⟨x1, y1, i1, l1⟩ := (C55_minFromBigInt a).2 ha
  obtain ⟨x2, y2, i2, l2⟩ := (C55_maxFromBigInt a).2 ha
  obtain ⟨x3, y3, i3, l3⟩ := (C55_minFromBigInt b).2 hb
  obtain ⟨x4, y4, i4, l4⟩ := (C55_maxFromBigInt b).2 hb
  obtain ⟨x5, y5, i5, l5⟩ := (C55_max [53, (bitsize m1 : Int), bitsize m2, bitsize m3, bitsize m4]).2 (by simp)
  rw [e1, Go.ok.injEq] at y1
  rw [e2, Go.ok.injEq] at y2
  rw [e3, Go.ok.injEq] at y3
  rw [e4, Go.ok.injEq] at y4
  rw [er, Go.ok.injEq] at y5
  subst y1 y2 y3 y4 y5
  simp only [Go.pure_eq, Go.ok.injEq] at h
  have b0 := l5 53 (by simp)
  have b1 := l5 (bitsize m1) (by simp)
  have b2 := l5 (bitsize m2) (by simp)
  have b3 := l5 (bitsize m3) (by simp)
  have b4 := l5 (bitsize m4) (by simp)
  have hup : ∀ m : Int, (bitsize m : Int) ≤ r → m.natAbs < 2 ^ S := by
    intro m hm
    exact lt_of_lt_of_le (bitsizeLoop_spec m.natAbs).2.1 (Nat.pow_le_pow_right (by decide) (by unfold bitsize at hm; omega))
  refine ⟨by omega, ?_, ?_⟩
  · intro v hv
    have u1 := hup m1 b1
    have u2 := hup m2 b2
    have u3 := hup m3 b3
    have u4 := hup m4 b4
    rcases List.mem_append.1 hv with hv | hv
    · have := l1 v hv
      have := l2 v hv
      omega
    · have := l3 v hv
      have := l4 v hv
      omega
  · have hlow : ∀ m ∈ a ++ b, r = (bitsize m : Int) → 53 < r → 56 ≤ S ∧ ∃ v ∈ a ++ b, 2 ^ (S - 8) ≤ v.natAbs := by
      intro m hm he hr
      obtain ⟨d1, d2, d3⟩ := bitsizeLoop_spec m.natAbs
      have hS : S = bitsizeLoop m.natAbs := by unfold bitsize at he; omega
      refine ⟨by omega, m, hm, ?_⟩
      by_contra hc
      have := d3 (S - 8) (by omega) (by omega)
      omega
    by_cases h53 : r = 53
    · left; omega
    · right
      simp only [List.mem_cons, List.not_mem_nil, or_false] at i5
      rcases i5 with i5 | i5 | i5 | i5 | i5
      · omega
      · exact hlow m1 (List.mem_append_left _ i1) i5 (by omega)
      · exact hlow m2 (List.mem_append_left _ i2) i5 (by omega)
      · exact hlow m3 (List.mem_append_right _ i3) i5 (by omega)
      · exact hlow m4 (List.mem_append_right _ i4) i5 (by omega)

end Falcon
