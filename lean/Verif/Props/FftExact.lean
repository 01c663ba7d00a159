import Verif.Lemmas.FftExact
import Verif.Lemmas.KeyLen
/-!
# Properties of the FFT in exact arithmetic (C49-C51)
-/

namespace Falcon
open Spec Polynomial ComplexConjugate

/-! ### C49: FFT and IFFT -/

/-- C49: `FFT(f)` is the evaluation of `f` at the `n` roots of `x^n+1`, in the order of the root table; the roots are distinct and they are
all the roots. -/
theorem C49_evaluation (k : Nat) (h1 : 1 ≤ k) (h2 : k ≤ 10) (f : List ℝ) (hf : f.length = 2 ^ k) :
    FFT exactOps f = .ok ((List.range (2 ^ k)).map fun i => (poly (f.map fun x : ℝ => (x : ℂ))).eval (exactOps.root (2 ^ k) i)) ∧
    ((List.range (2 ^ k)).map fun i => exactOps.root (2 ^ k) i).Nodup ∧
    ∀ w : ℂ, (w ∈ (List.range (2 ^ k)).map fun i => exactOps.root (2 ^ k) i) ↔ w ^ 2 ^ k + 1 = 0 := by
  have e : ∀ i, (exactOps.root (2 ^ k) i : ℂ) = rootC k i := by
    intro i
    show rootC (Nat.log2 (2 ^ k)) i = _
    rw [Nat.log2_two_pow]
  have e' : ((List.range (2 ^ k)).map fun i => (exactOps.root (2 ^ k) i : ℂ)) = rootsC k := by
    unfold rootsC
    apply List.map_congr_left
    intro i _
    exact e i
  refine ⟨?_, ?_, ?_⟩
  · rw [FFT_exact k h1 h2 f hf, rootsC, List.map_map]
    congr 1
    apply List.map_congr_left
    intro i _
    show evalR f (rootC k i) = _
    rw [← e i]
    rfl
  · rw [e']; exact rootsC_nodup k
  · intro w
    rw [e', mem_rootsC]
    constructor
    · intro h; rw [h]; ring
    · intro h; linear_combination h

/-- C49: `IFFT(FFT(f)) = f`. -/
theorem C49_ifft_fft (k : Nat) (h1 : 1 ≤ k) (h2 : k ≤ 10) (f : List ℝ) (hf : f.length = 2 ^ k) :
    (do IFFT exactOps (← FFT exactOps f)) = .ok f := by
  rw [FFT_exact k h1 h2 f hf, Go.ok_bind, IFFT_exact k h1 h2 f hf]

/-- Every vector is the list of values of a function at the roots. -/
theorem exists_values (k : Nat) (v : List ℂ) (hv : v.length = 2 ^ k) : ∃ A : ℂ → ℂ, v = (List.range' 0 (2 ^ k)).map fun j => A (rootC k j) := by
  classical
  refine ⟨fun w => if h : ∃ j, j < 2 ^ k ∧ rootC k j = w then v.getD h.choose 0 else 0, ?_⟩
  apply List.ext_getElem
  · simp [hv]
  · intro j h1 h2
    have hj : j < 2 ^ k := by rw [← hv]; exact h1
    have hex : ∃ i, i < 2 ^ k ∧ rootC k i = rootC k j := ⟨j, hj, rfl⟩
    have : hex.choose = j := rootC_inj k _ _ hex.choose_spec.1 hj hex.choose_spec.2
    simp only [List.getElem_map, List.getElem_range', Nat.zero_add, Nat.one_mul]
    rw [dif_pos hex, this]
    simp [h1]

/-- C49: `SplitFFT` inverts `MergeFFT` on all pairs of complex vectors. -/
theorem C49_split_merge (k : Nat) (h2 : k + 1 ≤ 10) (a b : List ℂ) (ha : a.length = 2 ^ k) (hb : b.length = 2 ^ k) :
    (do SplitFFT exactOps (← MergeFFT exactOps (a, b))) = .ok (a, b) := by
  obtain ⟨A, rfl⟩ := exists_values k a ha
  obtain ⟨B, rfl⟩ := exists_values k b hb
  unfold MergeFFT
  simp only [List.length_map, List.length_range']
  rw [show 2 * 2 ^ k = 2 ^ (k + 1) by ring, merge_exact k h2 A B (2 ^ k) 0 (by omega), Go.ok_bind]
  unfold SplitFFT
  rw [List.length_map, List.length_range', show 2 * 2 ^ k = 2 ^ (k + 1) by ring, show 2 ^ (k + 1) = 2 * 2 ^ k by ring]
  have := split_exact k h2 A B (2 ^ k) 0 (by omega)
  rw [show 2 ^ (k + 1) = 2 * 2 ^ k by ring] at this
  exact this

/-- C49: `MergeFFT` inverts `SplitFFT` on all complex vectors. -/
theorem C49_merge_split (k : Nat) (h2 : k + 1 ≤ 10) (v : List ℂ) (hv : v.length = 2 ^ (k + 1)) :
    (do MergeFFT exactOps (← SplitFFT exactOps v)) = .ok v := by
  obtain ⟨V, rfl⟩ := exists_values (k + 1) v hv
  obtain ⟨r, er, l1, l2⟩ := SplitFFT_ok (O := exactOps) k h2 _ hv
  rw [er, Go.ok_bind]
  obtain ⟨s, es, ls⟩ := MergeFFT_ok (O := exactOps) k h2 r.1 r.2 l1 l2
  have hs := C49_split_merge k h2 r.1 r.2 l1 l2
  rw [es] at hs ⊢
  rw [Go.ok_bind] at hs
  congr 1
  -- both vectors have the same split, and the split is injective
  have inj : ∀ (u v : List ℂ) (i : Nat) (p : List ℂ × List ℂ), u.length = v.length → 2 ∣ u.length → 2 * i + u.length ≤ 2 ^ (k + 1) →
      splitFFTLoop exactOps (2 ^ (k + 1)) i u = .ok p → splitFFTLoop exactOps (2 ^ (k + 1)) i v = .ok p → u = v := by
    intro u
    induction u using List.twoStepInduction with
    | nil => intro v i p h _ _ _ _; exact (List.length_eq_zero_iff.1 h.symm).symm
    | singleton a => intro v i p _ h; simp at h
    | cons_cons a b u ih _ =>
      intro v i p hl hd hb hu hv
      match v, hl with
      | c :: d :: v, hl =>
        simp only [List.length_cons] at hl hd hb
        rw [splitFFTLoop, exact_rootAt (k + 1) (by omega) h2 _ (by omega), Go.ok_bind] at hu hv
        obtain ⟨r1, e1, hu⟩ := Go.bind_eq_ok.1 hu
        obtain ⟨r2, e2, hv⟩ := Go.bind_eq_ok.1 hv
        simp only [Go.pure_eq, Go.ok.injEq] at hu hv
        rw [← hu, Prod.mk.injEq, List.cons.injEq, List.cons.injEq] at hv
        obtain ⟨⟨v1, v2⟩, v3, v4⟩ := hv
        have hr : r1 = r2 := Prod.ext v2.symm v4.symm
        subst hr
        have ht := ih v (i + 1) r1 (by omega) (by omega) (by omega) e1 e2
        have hh : (exactOps.half : ℂ) = 1 / 2 := exact_half
        rw [hh] at v1 v3
        have hw : conj (rootC (k + 1) (2 * i)) ≠ 0 := by
          intro h0
          have := rootC_conj (k + 1) (2 * i)
          rw [h0] at this
          simp at this
        have w1 : (c + d) * (1 / 2) = (a + b) * (1 / 2) := v1
        have w3 : (c - d) * (1 / 2) * conj (rootC (k + 1) (2 * i)) = (a - b) * (1 / 2) * conj (rootC (k + 1) (2 * i)) := v3
        have w4 := mul_right_cancel₀ hw w3
        have ha : a = c := by linear_combination -w1 - w4
        have hb : b = d := by linear_combination -w1 + w4
        rw [ha, hb, ht]
  unfold SplitFFT at hs er
  rw [ls] at hs
  rw [hv] at er
  exact inj _ _ 0 _ (ls.trans hv.symm) (by rw [ls, pow_succ]; omega) (by omega) hs er

/-- A concrete case: 1 + 2x, at i and -i. -/
example : FFT exactOps [1, 2] = .ok [1 + 2 * Complex.I, 1 - 2 * Complex.I] := by
  rw [FFT_exact 1 (by omega) (by omega) [1, 2] rfl]
  have h1 : rootC 1 1 = -Complex.I := by
    have := rootC_odd 0 0
    simpa [rootC_one_zero] using this
  simp [rootsC, List.range_succ, evalR, rootC_one_zero, h1, sub_eq_add_neg]

/-! ### C50: ring operations -/

theorem evalR_eq (f : List ℝ) (w : ℂ) : evalR f w = (poly f).eval₂ Complex.ofRealHom w := by
  unfold evalR
  induction f with
  | nil => simp
  | cons a f ih => simp [eval₂_add, eval₂_mul, ih]

theorem evalR_dvd (k : Nat) (p : ℝ[X]) (h : (X ^ 2 ^ k + 1 : ℝ[X]) ∣ p) (w : ℂ) (hw : w ∈ rootsC k) :
    p.eval₂ Complex.ofRealHom w = 0 := by
  obtain ⟨c, rfl⟩ := h
  rw [eval₂_mul]
  simp [eval₂_add, eval₂_pow, rootsC_root k w hw]

/-- Reduction modulo `x^n+1`. -/
theorem exists_mod (k : Nat) (p : ℝ[X]) : ∃ h : List ℝ, h.length = 2 ^ k ∧ (X ^ 2 ^ k + 1 : ℝ[X]) ∣ p - poly h := by
  have hm : (X ^ 2 ^ k + 1 : ℝ[X]).Monic := by
    simpa using monic_X_pow_add_C (1 : ℝ) (by positivity : 2 ^ k ≠ 0)
  have hdeg : (p %ₘ (X ^ 2 ^ k + 1)).degree < (2 ^ k : Nat) := by
    have := degree_modByMonic_lt p hm
    have e : (X ^ 2 ^ k + 1 : ℝ[X]).degree = (2 ^ k : Nat) := by
      have := degree_X_pow_add_C (by positivity : 0 < 2 ^ k) (1 : ℝ)
      simpa using this
    rwa [e] at this
  obtain ⟨h, hl, hp⟩ := exists_list (2 ^ k) _ hdeg
  refine ⟨h, hl, ?_⟩
  rw [hp]
  exact ⟨p /ₘ (X ^ 2 ^ k + 1), by
    have := modByMonic_add_div p (X ^ 2 ^ k + 1)
    linear_combination -this⟩

/-- C50: `Mul` returns the `n` coefficients of the product modulo `x^n+1`. -/
theorem C50_mul (k : Nat) (h1 : 1 ≤ k) (h2 : k ≤ 10) (f g : List ℝ) (hf : f.length = 2 ^ k) (hg : g.length = 2 ^ k) :
    ∃ h : List ℝ, Mul exactOps f g = .ok h ∧ h.length = 2 ^ k ∧ (X ^ 2 ^ k + 1 : ℝ[X]) ∣ poly f * poly g - poly h := by
  obtain ⟨h, hl, hd⟩ := exists_mod k (poly f * poly g)
  refine ⟨h, ?_, hl, hd⟩
  unfold Mul
  rw [FFT_exact k h1 h2 f hf, Go.ok_bind, FFT_exact k h1 h2 g hg, Go.ok_bind]
  unfold MulFFT
  rw [if_neg (by simp), Go.ok_bind]
  have e : List.zipWith exactOps.cmul ((rootsC k).map (evalR f)) ((rootsC k).map (evalR g)) = (rootsC k).map (evalR h) := by
    rw [List.zipWith_map, List.zipWith_self]
    apply List.map_congr_left
    intro w hw
    have := evalR_dvd k _ hd w hw
    rw [eval₂_sub, eval₂_mul, ← evalR_eq, ← evalR_eq, ← evalR_eq, sub_eq_zero] at this
    exact this
  rw [e, IFFT_exact k h1 h2 h hl]

/-- The coefficients are determined by the class: at most one list of length `n` is congruent to a given polynomial. -/
theorem C50_unique (k : Nat) (r s : List ℝ) (hr : r.length = 2 ^ k) (hs : s.length = 2 ^ k)
    (h : (X ^ 2 ^ k + 1 : ℝ[X]) ∣ poly r - poly s) : r = s := by
  apply poly_injective (hr.trans hs.symm)
  have hm : (X ^ 2 ^ k + 1 : ℝ[X]).Monic := by
    simpa using monic_X_pow_add_C (1 : ℝ) (by positivity : 2 ^ k ≠ 0)
  have hd : (poly r - poly s : ℝ[X]).degree < (X ^ 2 ^ k + 1 : ℝ[X]).degree := by
    have e : (X ^ 2 ^ k + 1 : ℝ[X]).degree = (2 ^ k : Nat) := by
      have := degree_X_pow_add_C (by positivity : 0 < 2 ^ k) (1 : ℝ)
      simpa using this
    rw [e]
    refine lt_of_le_of_lt (degree_sub_le _ _) (max_lt ?_ ?_)
    · have := poly_degree_lt r
      rwa [hr] at this
    · have := poly_degree_lt s
      rwa [hs] at this
  exact sub_eq_zero.1 (eq_zero_of_dvd_of_degree_lt h hd)

/-- C50: `Div` inverts `Mul`: if the divisor has no root in common with `x^n+1`, the result is the only `h` with `h*g = f`. -/
theorem C50_div (k : Nat) (h1 : 1 ≤ k) (h2 : k ≤ 10) (f g : List ℝ) (hf : f.length = 2 ^ k) (hg : g.length = 2 ^ k)
    (hz : ∀ w : ℂ, w ^ 2 ^ k + 1 = 0 → (poly (g.map fun x : ℝ => (x : ℂ))).eval w ≠ 0) :
    ∃ h : List ℝ, Div exactOps f g = .ok h ∧ h.length = 2 ^ k ∧ (X ^ 2 ^ k + 1 : ℝ[X]) ∣ poly h * poly g - poly f ∧
      ∀ h' : List ℝ, h'.length = 2 ^ k → (X ^ 2 ^ k + 1 : ℝ[X]) ∣ poly h' * poly g - poly f → h' = h := by
  have hc : IsCoprime (X ^ 2 ^ k + 1 : ℝ[X]) (poly g) := by
    refine (isCoprime_iff_aeval_ne_zero_of_isAlgClosed ℝ ℂ _ _).2 ?_
    intro w
    by_cases hw : w ^ 2 ^ k + 1 = 0
    · right
      have := hz w hw
      have e := evalR_eq g w
      unfold evalR at e
      rw [e] at this
      exact this
    · left
      simpa using hw
  obtain ⟨a, b, hab⟩ := hc
  obtain ⟨h, hl, c, hcc⟩ := exists_mod k (b * poly f)
  have hd : (X ^ 2 ^ k + 1 : ℝ[X]) ∣ poly h * poly g - poly f :=
    ⟨-(a * poly f) - c * poly g, by linear_combination (poly f) * hab - (poly g) * hcc⟩
  refine ⟨h, ?_, hl, hd, ?_⟩
  · unfold Div
    rw [FFT_exact k h1 h2 f hf, Go.ok_bind, FFT_exact k h1 h2 g hg, Go.ok_bind]
    unfold DivFFT
    rw [if_neg (by simp), Go.ok_bind]
    have e : List.zipWith exactOps.cdiv ((rootsC k).map (evalR f)) ((rootsC k).map (evalR g)) = (rootsC k).map (evalR h) := by
      rw [List.zipWith_map, List.zipWith_self]
      apply List.map_congr_left
      intro w hw
      have := evalR_dvd k _ hd w hw
      rw [eval₂_sub, eval₂_mul, ← evalR_eq, ← evalR_eq, ← evalR_eq, sub_eq_zero] at this
      have hne : evalR g w ≠ 0 := hz w (by rw [rootsC_root k w hw]; ring)
      show evalR f w / evalR g w = evalR h w
      rw [← this, mul_div_assoc, div_self hne, mul_one]
    rw [e, IFFT_exact k h1 h2 h hl]
  · intro h' hl' ⟨d, hd'⟩
    obtain ⟨e, he⟩ := hd
    apply C50_unique k h' h hl' hl
    exact ⟨a * (poly h' - poly h) + b * (d - e), by linear_combination (poly h - poly h') * hab + b * hd' - b * he⟩

/-- `f(1/x)` as a list: `f0, -f_{n-1}, ..., -f_1`. -/
def adjList : List ℝ → List ℝ
  | [] => []
  | a :: t => a :: (t.reverse.map fun x => -x)

theorem eval_reverse (t : List ℂ) (w v : ℂ) (h : w * v = 1) : (poly t.reverse).eval w * v ^ t.length = v * (poly t).eval v := by
  induction t with
  | nil => simp
  | cons a t ih =>
    have hp : w ^ t.length * v ^ t.length = 1 := by rw [← mul_pow, h, one_pow]
    rw [List.reverse_cons, poly_append, List.length_reverse, List.length_cons, pow_succ]
    simp only [poly_cons, poly_nil, eval_add, eval_mul, eval_pow, eval_X, eval_C, mul_zero, add_zero]
    linear_combination v * ih + a * v * hp

theorem evalR_adjList (k : Nat) (f : List ℝ) (hf : f.length = 2 ^ k) (w : ℂ) (hw : w ^ 2 ^ k = -1) : evalR (adjList f) w = evalR f w⁻¹ := by
  cases f with
  | nil => exact absurd hf (by have := Nat.two_pow_pos k; simp only [List.length_nil]; omega)
  | cons a t =>
    have h0 : w ≠ 0 := by
      intro h0
      rw [h0, zero_pow (by positivity)] at hw
      norm_num at hw
    have hv : w * w⁻¹ = 1 := mul_inv_cancel₀ h0
    have hvn : w⁻¹ ^ 2 ^ k = -1 := by rw [inv_pow, hw]; norm_num
    have e := eval_reverse (t.map fun x : ℝ => (x : ℂ)) w w⁻¹ hv
    rw [List.length_map] at e
    simp only [List.length_cons] at hf
    rw [← hf, pow_succ] at hvn
    unfold evalR adjList
    have hneg : ∀ l : List ℂ, (poly (l.map fun x => -x)).eval w = -(poly l).eval w := by
      intro l
      induction l with
      | nil => simp
      | cons b l ih => simp [ih]; ring
    have hm : ((t.reverse.map fun x => -x).map fun x : ℝ => (x : ℂ)) = (t.map fun x : ℝ => (x : ℂ)).reverse.map fun x => -x := by
      rw [← List.map_reverse, List.map_map, List.map_map]
      apply List.map_congr_left
      intro x _
      simp
    simp only [List.map_cons, poly_cons, hm, eval_add, eval_mul, eval_C, eval_X, hneg]
    set R := (poly (t.map fun x : ℝ => (x : ℂ)).reverse).eval w
    set P := (poly (t.map fun x : ℝ => (x : ℂ))).eval w⁻¹
    linear_combination e - R * w * hvn + R * w⁻¹ ^ t.length * hv

/-- C50: `Adj(f)` is `f(1/x)`: the coefficients are `f0, -f_{n-1}, ..., -f_1`, and the value at every root `w` is `f(1/w)`. -/
theorem C50_adj (k : Nat) (h1 : 1 ≤ k) (h2 : k ≤ 10) (f : List ℝ) (hf : f.length = 2 ^ k) :
    Adj exactOps f = .ok (adjList f) ∧ ∀ w : ℂ, w ^ 2 ^ k + 1 = 0 →
      (poly ((adjList f).map fun x : ℝ => (x : ℂ))).eval w = (poly (f.map fun x : ℝ => (x : ℂ))).eval w⁻¹ := by
  constructor
  · unfold Adj
    rw [FFT_exact k h1 h2 f hf, Go.ok_bind]
    have e : AdjFFT exactOps ((rootsC k).map (evalR f)) = (rootsC k).map (evalR (adjList f)) := by
      unfold AdjFFT
      rw [List.map_map]
      apply List.map_congr_left
      intro w hw
      rw [evalR_adjList k f hf w (rootsC_root k w hw)]
      show conj (evalR f w) = _
      have hw1 : w⁻¹ = conj w := by
        simp only [rootsC, List.mem_map, List.mem_range] at hw
        obtain ⟨i, _, rfl⟩ := hw
        exact (eq_inv_of_mul_eq_one_right (rootC_conj k i)).symm
      rw [hw1, evalR_eq, evalR_eq]
      clear hf
      induction f with
      | nil => simp
      | cons a f ih => simp [eval₂_add, eval₂_mul, ih]
    rw [e]
    apply IFFT_exact k h1 h2
    cases f with
    | nil => exact absurd hf (by have := Nat.two_pow_pos k; simp only [List.length_nil]; omega)
    | cons a t => simpa [adjList] using hf
  · intro w hw
    exact evalR_adjList k f hf w (by linear_combination hw)

/-- C50: `Add`, `Sub` and `Neg` are the operations on coefficients, on equal lengths; on different lengths `Add` and `Sub` panic. -/
theorem C50_add_sub_neg (f g : List ℝ) :
    (f.length = g.length → ∃ a s : List ℝ, Add exactOps f g = .ok a ∧ Sub exactOps f g = .ok s ∧ a.length = f.length ∧
      s.length = f.length ∧ poly a = poly f + poly g ∧ poly s = poly f - poly g) ∧
    (f.length ≠ g.length → Add exactOps f g = .panic ∧ Sub exactOps f g = .panic) ∧
    (Neg exactOps f).length = f.length ∧ poly (R := ℝ) (Neg exactOps f) = -poly f := by
  have hneg : ∀ f : List ℝ, poly (R := ℝ) (Neg exactOps f) = -poly f := by
    intro f
    induction f with
    | nil => simp [Neg]
    | cons a f ih =>
      have e : Neg exactOps (a :: f) = -a :: Neg exactOps f := rfl
      rw [e, poly_cons, poly_cons, ih]
      simp
      ring
  have hlen : ∀ f : List ℝ, (Neg exactOps f).length = f.length := by intro f; simp [Neg]
  have hadd : ∀ f g : List ℝ, f.length = g.length → poly (R := ℝ) (List.zipWith exactOps.add f g) = poly f + poly g := by
    intro f
    induction f with
    | nil => intro g h; rw [List.length_eq_zero_iff.1 h.symm]; simp
    | cons a f ih =>
      intro g h
      match g, h with
      | b :: g, h =>
        rw [List.zipWith_cons_cons, poly_cons, poly_cons, poly_cons, ih g (by simpa using h)]
        simp
        ring
  refine ⟨?_, ?_, hlen f, hneg f⟩
  · intro h
    refine ⟨List.zipWith exactOps.add f g, List.zipWith exactOps.add f (Neg exactOps g), ?_, ?_, ?_, ?_, ?_, ?_⟩
    · unfold Add; rw [if_neg (by simp [h])]
    · unfold Sub Add; rw [if_neg (by rw [hlen]; simp [h])]
    · simp [h]
    · rw [List.length_zipWith, hlen]; simp [h]
    · exact hadd f g h
    · rw [hadd _ _ (by rw [hlen]; exact h), hneg]; ring
  · intro h
    constructor
    · unfold Add; rw [if_pos h]
    · unfold Sub Add; rw [if_pos (by rw [hlen]; exact h)]

/-- A concrete product: `(1 + 2x)(3 + x) = 3 + 7x + 2x^2 = 1 + 7x` modulo `x^2+1`. -/
example : Mul exactOps [1, 2] [3, 1] = .ok [1, 7] := by
  obtain ⟨h, e, hl, hd⟩ := C50_mul 1 (by omega) (by omega) [1, 2] [3, 1] rfl rfl
  rw [e, C50_unique 1 h [1, 7] hl rfl]
  obtain ⟨c, hc⟩ := hd
  refine ⟨2 - c, ?_⟩
  have : (poly [1, 2] * poly [3, 1] - poly [1, 7] : ℝ[X]) = (X ^ 2 ^ 1 + 1) * 2 := by
    simp only [poly_cons, poly_nil, map_ofNat, map_one]
    ring
  linear_combination this - hc

/-- A concrete quotient: `(1 + 7x)/(3 + x) = 1 + 2x`, since `3 + x` has no root `i` or `-i`. -/
example : Div exactOps [1, 7] [3, 1] = .ok [1, 2] := by
  obtain ⟨h, e, hl, hd, hu⟩ := C50_div 1 (by omega) (by omega) [1, 7] [3, 1] rfl rfl (by
    intro w hw h0
    simp only [List.map_cons, List.map_nil, poly_cons, poly_nil, eval_add, eval_mul, eval_C, eval_X, mul_zero, add_zero] at h0
    push_cast at h0
    have hw3 : w = -3 := by linear_combination h0
    rw [hw3] at hw
    norm_num at hw)
  rw [e, ← hu [1, 2] rfl]
  refine ⟨2, ?_⟩
  simp only [poly_cons, poly_nil, map_ofNat, map_one]
  ring

/-- A concrete adjoint: `1 + 2x + 3x^2 + 4x^3` becomes `1 - 4x - 3x^2 - 2x^3`. -/
example : Adj exactOps [1, 2, 3, 4] = .ok [1, -4, -3, -2] := by
  rw [(C50_adj 2 (by omega) (by omega) [1, 2, 3, 4] rfl).1]
  rfl

end Falcon
