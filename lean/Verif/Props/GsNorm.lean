import Verif.Props.FftExact
import Verif.Lemmas.HomRat
import Mathlib.RingTheory.Polynomial.Cyclotomic.Roots
import Mathlib.FieldTheory.Minpoly.Field
/-!
# The Gram-Schmidt norm in exact arithmetic (C56)
-/

namespace Falcon
open Spec Polynomial ComplexConjugate

/-- The squared Euclidean norm of a vector. -/
def sqNorm (l : List ℝ) : ℝ := (l.map fun x => x ^ 2).sum

theorem Sqnorm_exact (a b : List ℝ) : Sqnorm exactOps [a, b] = sqNorm a + sqNorm b := by
  have h : ∀ (l : List ℝ) (r : ℝ), l.foldl (fun res coef => exactOps.add res (exactOps.pow2 coef)) r = r + sqNorm l := by
    intro l
    induction l with
    | nil => intro r; simp [sqNorm]
    | cons x l ih =>
      intro r
      rw [List.foldl_cons, ih]
      simp only [sqNorm, List.map_cons, List.sum_cons]
      ring
  unfold Sqnorm
  rw [List.foldl_cons, List.foldl_cons, List.foldl_nil, h, h]
  simp

theorem Biggest_exact (x y : ℝ) : BiggestFloat64 exactOps [x, y] = .ok (max x y) := by
  unfold BiggestFloat64
  simp only [idx, List.getElem?_cons_zero, Go.ok_bind, List.foldl_cons, List.foldl_nil, lt_self_iff_false, decide_false,
    Bool.false_eq_true, if_false, decide_eq_true_eq, Go.pure_eq, Go.ok.injEq]
  split
  · rename_i h; exact (max_eq_right h.le).symm
  · rename_i h; exact (max_eq_left (not_lt.1 h)).symm

theorem evalR_adj (k : Nat) (f : List ℝ) (hf : f.length = 2 ^ k) (w : ℂ) (hw : w ∈ rootsC k) : evalR (adjList f) w = conj (evalR f w) := by
  rw [evalR_adjList k f hf w (rootsC_root k w hw)]
  have hw1 : w⁻¹ = conj w := by
    simp only [rootsC, List.mem_map, List.mem_range] at hw
    obtain ⟨i, _, rfl⟩ := hw
    exact (eq_inv_of_mul_eq_one_right (rootC_conj k i)).symm
  rw [hw1, evalR_eq, evalR_eq]
  clear hf
  induction f with
  | nil => simp
  | cons a f ih => simp [eval₂_add, eval₂_mul, ih]

theorem adjList_length (f : List ℝ) : (adjList f).length = f.length := by
  cases f <;> simp [adjList]

/-- C56: in exact arithmetic `GsNorm(f, g, q)` is the larger of the squared norms of `(f, g)` and of `q (f*, g*)/(f f* + g g*)`, the
quotient being the one of R[x]/(x^n+1). -/
theorem C56_gsnorm (k : Nat) (h1 : 1 ≤ k) (h2 : k ≤ 10) (f g : List ℝ) (hf : f.length = 2 ^ k) (hg : g.length = 2 ^ k) (q : ℝ)
    (hz : ∀ w : ℂ, w ^ 2 ^ k + 1 = 0 → (poly (f.map fun x : ℝ => (x : ℂ))).eval w ≠ 0 ∨ (poly (g.map fun x : ℝ => (x : ℂ))).eval w ≠ 0) :
    ∃ Ft Gt : List ℝ, Ft.length = 2 ^ k ∧ Gt.length = 2 ^ k ∧
      (X ^ 2 ^ k + 1 : ℝ[X]) ∣ poly Ft * (poly f * poly (adjList f) + poly g * poly (adjList g)) - poly (adjList f) ∧
      (X ^ 2 ^ k + 1 : ℝ[X]) ∣ poly Gt * (poly f * poly (adjList f) + poly g * poly (adjList g)) - poly (adjList g) ∧
      GsNorm exactOps f g q = .ok (max (sqNorm f + sqNorm g) (q ^ 2 * (sqNorm Ft + sqNorm Gt))) := by
  have laf : (adjList f).length = 2 ^ k := (adjList_length f).trans hf
  have lag : (adjList g).length = 2 ^ k := (adjList_length g).trans hg
  obtain ⟨ff, eff, lff, dff⟩ := C50_mul k h1 h2 f (adjList f) hf laf
  obtain ⟨gg, egg, lgg, dgg⟩ := C50_mul k h1 h2 g (adjList g) hg lag
  obtain ⟨⟨s, -, es, -, ls, -, ps, -⟩⟩ := And.intro ((C50_add_sub_neg ff gg).1 (lff.trans lgg.symm)) trivial
  rw [lff] at ls
  have hsz : ∀ w : ℂ, w ^ 2 ^ k + 1 = 0 → (poly (s.map fun x : ℝ => (x : ℂ))).eval w ≠ 0 := by
    intro w hw h0
    have hm : w ∈ rootsC k := (mem_rootsC k w).2 (by linear_combination hw)
    have v0 : evalR s w = 0 := h0
    have v1 := evalR_dvd k _ dff w hm
    have v2 := evalR_dvd k _ dgg w hm
    rw [eval₂_sub, eval₂_mul, ← evalR_eq, ← evalR_eq, ← evalR_eq, sub_eq_zero, evalR_adj k f hf w hm] at v1
    rw [eval₂_sub, eval₂_mul, ← evalR_eq, ← evalR_eq, ← evalR_eq, sub_eq_zero, evalR_adj k g hg w hm] at v2
    rw [evalR_eq, ps, eval₂_add, ← evalR_eq, ← evalR_eq, ← v1, ← v2, Complex.mul_conj, Complex.mul_conj, ← Complex.ofReal_add,
      Complex.ofReal_eq_zero] at v0
    have n1 := Complex.normSq_nonneg (evalR f w)
    have n2 := Complex.normSq_nonneg (evalR g w)
    rcases hz w hw with h | h
    · exact h (Complex.normSq_eq_zero.1 (by linarith : Complex.normSq (evalR f w) = 0))
    · exact h (Complex.normSq_eq_zero.1 (by linarith : Complex.normSq (evalR g w) = 0))
  obtain ⟨Ft, eFt, lFt, ⟨c1, dFt⟩, -⟩ := C50_div k h1 h2 (adjList f) s laf ls hsz
  obtain ⟨Gt, eGt, lGt, ⟨c2, dGt⟩, -⟩ := C50_div k h1 h2 (adjList g) s lag ls hsz
  obtain ⟨c3, dff⟩ := dff
  obtain ⟨c4, dgg⟩ := dgg
  refine ⟨Ft, Gt, lFt, lGt, ⟨c1 + poly Ft * (c3 + c4), ?_⟩, ⟨c2 + poly Gt * (c3 + c4), ?_⟩, ?_⟩
  · rw [ps] at dFt
    linear_combination dFt + poly Ft * (dff + dgg)
  · rw [ps] at dGt
    linear_combination dGt + poly Gt * (dff + dgg)
  · unfold GsNorm
    rw [(C50_adj k h1 h2 f hf).1, Go.ok_bind, eff, Go.ok_bind, (C50_adj k h1 h2 g hg).1, Go.ok_bind, egg, Go.ok_bind, es, Go.ok_bind, eFt,
      Go.ok_bind, eGt, Go.ok_bind, Sqnorm_exact, Sqnorm_exact]
    exact Biggest_exact _ _

/-- A non-zero integer polynomial of degree below `n` has no root in common with `x^n+1`, which is irreducible over the rationals. -/
theorem int_eval_ne_zero (k : Nat) (f : List Int) (hf : f.length = 2 ^ k) (h0 : ∃ x ∈ f, x ≠ 0) (w : ℂ) (hw : w ^ 2 ^ k + 1 = 0) :
    (poly (f.map fun x : Int => (x : ℂ))).eval w ≠ 0 := by
  intro hz
  have hcyc : cyclotomic (2 ^ (k + 1)) ℚ = X ^ 2 ^ k + 1 := by
    rw [cyclotomic_prime_pow_eq_geom_sum Nat.prime_two]
    simp [Finset.sum_range_succ, add_comm]
  have hirr : Irreducible (X ^ 2 ^ k + 1 : ℚ[X]) := by
    rw [← hcyc]
    exact cyclotomic.irreducible_rat (by positivity)
  have hm : (X ^ 2 ^ k + 1 : ℚ[X]).Monic := by
    simpa using monic_X_pow_add_C (1 : ℚ) (by positivity : 2 ^ k ≠ 0)
  have hmin := minpoly.eq_of_irreducible_of_monic hirr (x := w) (by simpa using hw) hm
  have hev : aeval w (poly (f.map fun x : Int => (x : ℚ))) = 0 := by
    rw [← hz]
    clear hz hf h0
    induction f with
    | nil => simp
    | cons a f ih => simp [ih]
  have hd := minpoly.dvd ℚ w hev
  rw [← hmin] at hd
  have hdeg : (poly (f.map fun x : Int => (x : ℚ))).degree < (X ^ 2 ^ k + 1 : ℚ[X]).degree := by
    have e : (X ^ 2 ^ k + 1 : ℚ[X]).degree = (2 ^ k : Nat) := by
      have := degree_X_pow_add_C (by positivity : 0 < 2 ^ k) (1 : ℚ)
      simpa using this
    rw [e]
    have := poly_degree_lt (f.map fun x : Int => (x : ℚ))
    rwa [List.length_map, hf] at this
  have hzero := eq_zero_of_dvd_of_degree_lt hd hdeg
  have hall : ∀ x ∈ f, x = 0 := by
    clear hd hdeg hev hz hf h0
    induction f with
    | nil => simp
    | cons a f ih =>
      simp only [List.map_cons, poly_cons] at hzero
      have ha : (a : ℚ) = 0 := by
        have := congrArg (fun p => p.coeff 0) hzero
        simpa using this
      have hr : poly (f.map fun x : Int => (x : ℚ)) = 0 := by
        rw [ha] at hzero
        simpa using hzero
      intro x hx
      rcases List.mem_cons.1 hx with rfl | hx
      · exact_mod_cast ha
      · exact ih hr x hx
  obtain ⟨x, hx, hne⟩ := h0
  exact hne (hall x hx)

/-- An `int16` polynomial with real coefficients. -/
def realOf (f : List Int16) : List ℝ := f.map fun x => (x.toInt : ℝ)

/-- C56: in exact arithmetic every generated key satisfies the quality bound of the Falcon specification: the squared norms of `(f, g)` and
of the second Gram-Schmidt vector `q (f*, g*)/(f f* + g g*)` are at most `1.17^2 q`. -/
theorem C56_generated (rand : Rand) (fuel : Nat) (n : UInt16) (pos : Nat) (key : PrivateKey) (pos' : Nat)
    (h : GeneratePrivateKey exactOps rand fuel n pos = .ok (.ok (key, pos'))) :
    sqNorm (realOf key.f) + sqNorm (realOf key.g) ≤ 1.17 ^ 2 * 12289 ∧
    ∃ Ft Gt : List ℝ, Ft.length = n.toNat ∧ Gt.length = n.toNat ∧
      (X ^ n.toNat + 1 : ℝ[X]) ∣ poly Ft * (poly (realOf key.f) * poly (adjList (realOf key.f)) +
        poly (realOf key.g) * poly (adjList (realOf key.g))) - poly (adjList (realOf key.f)) ∧
      (X ^ n.toNat + 1 : ℝ[X]) ∣ poly Gt * (poly (realOf key.f) * poly (adjList (realOf key.f)) +
        poly (realOf key.g) * poly (adjList (realOf key.g))) - poly (adjList (realOf key.g)) ∧
      12289 ^ 2 * (sqNorm Ft + sqNorm Gt) ≤ 1.17 ^ 2 * 12289 := by
  obtain ⟨⟨k, h1, h2, hn⟩, hkn, hq⟩ := GeneratePrivateKey_ok exactOps rand fuel n pos key pos' h
  obtain ⟨fuel', F, G, norm, r, lf, lg, en, hlt, -⟩ := NtruGen_ok exactOps rand fuel n pos _ pos' hq
  obtain ⟨⟨u, hu⟩, -⟩ := C43_public_key exactOps rand fuel n pos key pos' h
  simp only at lf lg en
  have hf0 : ∃ x ∈ key.f.map Int16.toInt, x ≠ 0 := by
    by_contra hc
    push Not at hc
    have hz : polyQ key.f = 0 := by
      unfold polyQ
      generalize key.f = l at hc
      induction l with
      | nil => rfl
      | cons a f ih =>
        rw [List.map_cons, poly_cons, ih fun x hx => hc x (List.mem_cons_of_mem _ hx)]
        have := hc a.toInt (List.mem_cons_self)
        simp [zq, this]
    rw [hz, zero_mul, zero_sub, dvd_neg] at hu
    have hd := degree_le_of_dvd hu one_ne_zero
    rw [degree_one] at hd
    have := degree_X_pow_add_C (by rw [hn]; positivity : 0 < n.toNat) (1 : Zq)
    rw [map_one] at this
    rw [this, hn] at hd
    have h3 : (2 ^ k : Nat) ≤ 0 := by exact_mod_cast hd
    have := Nat.two_pow_pos k
    omega
  have hlenf : (realOf key.f).length = 2 ^ k := by rw [realOf, List.length_map, lf, hn]
  have hleng : (realOf key.g).length = 2 ^ k := by rw [realOf, List.length_map, lg, hn]
  have hnz : ∀ w : ℂ, w ^ 2 ^ k + 1 = 0 → (poly ((realOf key.f).map fun x : ℝ => (x : ℂ))).eval w ≠ 0 := by
    intro w hw
    have := int_eval_ne_zero k (key.f.map Int16.toInt) (by rw [List.length_map, lf, hn]) hf0 w hw
    rw [List.map_map] at this
    rw [realOf, List.map_map]
    convert this using 4
    funext x
    simp
  obtain ⟨Ft, Gt, l1, l2, d1, d2, e⟩ := C56_gsnorm k h1 h2 _ _ hlenf hleng 12289 (fun w hw => Or.inl (hnz w hw))
  have en' : GsNorm exactOps (realOf key.f) (realOf key.g) 12289 = .ok norm := by
    have hq0 : ((Q : Int) : ℝ) = 12289 := by
      unfold Q
      norm_num
    have en2 : GsNorm exactOps (realOf key.f) (realOf key.g) ((Q : Int) : ℝ) = .ok norm := en
    rw [hq0] at en2
    exact en2
  rw [e, Go.ok.injEq] at en'
  have hq1 : ¬ ((((1.17 : ℚ) : ℝ)) ^ 2 * ((Q : Int) : ℝ) < norm) := by
    simpa using hlt
  rw [← en', not_lt] at hq1
  have hq2 : (((1.17 : ℚ) : ℝ)) ^ 2 * ((Q : Int) : ℝ) = 1.17 ^ 2 * 12289 := by
    unfold Q
    norm_num
  rw [hq2] at hq1
  rw [hn]
  exact ⟨(le_max_left _ _).trans hq1, Ft, Gt, l1, l2, d1, d2, (le_max_right _ _).trans hq1⟩

/-- The hypothesis of `C56_gsnorm` holds for integer vectors, and a complete exact run of key generation at degree 2 exists: its key obeys
both bounds. -/
example (w : ℂ) (hw : w ^ 2 ^ 1 + 1 = 0) : (poly (([72, 5] : List Int).map fun x : Int => (x : ℂ))).eval w ≠ 0 :=
  int_eval_ne_zero 1 [72, 5] rfl ⟨72, by simp, by decide⟩ w hw
example : sqNorm (realOf [72, 5]) + sqNorm (realOf [60, 31]) ≤ 1.17 ^ 2 * 12289 :=
  (C56_generated runRand 20 2 0 _ _ exact_run_key).1
/-- The squared norm of that key is 9770, above the square of 1.17 √12289 only if the constant were below 0.89. -/
example : sqNorm (realOf [72, 5]) + sqNorm (realOf [60, 31]) = 9770 := by
  have h1 : realOf [72, 5] = [72, 5] := by simp [realOf]
  have h2 : realOf [60, 31] = [60, 31] := by simp [realOf]
  rw [h1, h2]
  simp [sqNorm]
  norm_num

end Falcon
