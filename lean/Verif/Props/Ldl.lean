import Verif.Props.FftExact
import Mathlib.LinearAlgebra.Matrix.Hermitian
import Mathlib.LinearAlgebra.Matrix.Determinant.Basic
import Mathlib.LinearAlgebra.Matrix.Notation
/-!
# Properties of `Gram` and `LdlFFT` in exact arithmetic (C51)
-/

namespace Falcon
open Spec Polynomial ComplexConjugate Matrix

/-- Slot `j` of a matrix of vectors: the complex 2x2 matrix of the `j`-th entries. -/
def slot (M : List (List (List ℂ))) (j : Nat) : Matrix (Fin 2) (Fin 2) ℂ := fun a b => (((M.getD a []).getD b []).getD j 0)

theorem slot_mk (a b c d : List ℂ) (j : Nat) : slot [[a, b], [c, d]] j = !![a.getD j 0, b.getD j 0; c.getD j 0, d.getD j 0] := by
  ext x y
  fin_cases x <;> fin_cases y <;> rfl

theorem getD_zipWith {op : ℂ → ℂ → ℂ} (a b : List ℂ) (j : Nat) (h : j < a.length) (h' : j < b.length) :
    (List.zipWith op a b).getD j 0 = op (a.getD j 0) (b.getD j 0) := by
  simp [h, h']

theorem getD_replicate (n j : Nat) (h : j < n) (x : ℂ) : (List.replicate n x).getD j 0 = x := by
  simp [h]

theorem exact_cone : exactOps.cplx (exactOps.lit 1) (exactOps.lit 0) = (1 : ℂ) := by
  apply Complex.ext
  · show ((1 : ℚ) : ℝ) = 1
    simp
  · show ((0 : ℚ) : ℝ) = 0
    simp

theorem exact_czero : exactOps.cplx (exactOps.lit 0) (exactOps.lit 0) = (0 : ℂ) := by
  apply Complex.ext
  · show ((0 : ℚ) : ℝ) = 0
    simp
  · show ((0 : ℚ) : ℝ) = 0
    simp

/-- C51: `LdlFFT` factors every Hermitian matrix with non-zero upper left entry: `G = L D L^*` in every slot, with `L` unit lower
triangular and `D` diagonal. -/
theorem C51_ldl (n : Nat) (G : List (List (List ℂ))) (hG : Mat n G) (hh : ∀ j < n, (slot G j).IsHermitian)
    (hz : ∀ j < n, slot G j 0 0 ≠ 0) :
    ∃ L D, LdlFFT exactOps G = .ok (L, D) ∧ Mat n L ∧ Mat n D ∧ ∀ j < n,
      slot L j * slot D j * (slot L j)ᴴ = slot G j ∧
      slot L j 0 0 = 1 ∧ slot L j 0 1 = 0 ∧ slot L j 1 1 = 1 ∧ slot D j 0 1 = 0 ∧ slot D j 1 0 = 0 ∧
      (slot D j).det = (slot G j).det := by
  have hM := hG
  obtain ⟨g00, g01, g10, g11, l10, d11, p, p', rfl, l1, l2, l3, e1, e2, e3, e4, e⟩ := LdlFFT_ok (O := exactOps) n G hG
  obtain ⟨a, b, c, d, hE, la, lb, lc, ld⟩ := hM
  simp only [List.cons.injEq, and_true] at hE
  obtain ⟨⟨rfl, rfl⟩, rfl, rfl⟩ := hE
  refine ⟨_, _, e, ⟨_, _, _, _, rfl, by simp, by simp, l2, by simp⟩, ⟨_, _, _, _, rfl, l1, by simp, by simp, l3⟩, ?_⟩
  intro j hj
  unfold DivFFT at e1
  rw [if_neg (by omega), Go.ok.injEq] at e1
  unfold MulFFT at e2 e3
  rw [if_neg (by rw [AdjFFT_length]; simp), Go.ok.injEq] at e2
  have lp : p.length = n := by rw [← e2]; simp [AdjFFT, l2]
  rw [if_neg (by omega), Go.ok.injEq] at e3
  have lp' : p'.length = n := by rw [← e3]; simp [lp, l1]
  have v1 : l10.getD j 0 = g10.getD j 0 / g00.getD j 0 := by
    rw [← e1]; exact getD_zipWith _ _ _ (by omega) (by omega)
  have v2 : p.getD j 0 = l10.getD j 0 * conj (l10.getD j 0) := by
    rw [← e2]
    refine (getD_zipWith _ _ _ (by omega) (by rw [AdjFFT_length]; omega)).trans ?_
    congr 1
    simp [AdjFFT, l2, hj]
  have v3 : p'.getD j 0 = p.getD j 0 * g00.getD j 0 := by
    rw [← e3]; exact getD_zipWith _ _ _ (by omega) (by omega)
  have v4 : d11.getD j 0 = g11.getD j 0 - p'.getD j 0 := by
    unfold SubFFT AddFFT at e4
    rw [if_neg (by simp [NegFFT]; omega), Go.ok.injEq] at e4
    rw [← e4]
    refine (getD_zipWith _ _ _ (by omega) (by simp [NegFFT]; omega)).trans ?_
    have : (NegFFT exactOps p').getD j 0 = -p'.getD j 0 := by simp [NegFFT, lp', hj]
    rw [this, sub_eq_add_neg]
  have h1 := hh j hj
  have h0 := hz j hj
  rw [slot_mk] at h1 h0 ⊢
  rw [slot_mk, slot_mk, exact_cone, exact_czero, getD_replicate _ _ hj, getD_replicate _ _ hj]
  have c00 : conj (g00.getD j 0) = g00.getD j 0 := h1.apply 0 0
  have c01 : conj (g10.getD j 0) = g01.getD j 0 := h1.apply 0 1
  have h0' : g00.getD j 0 ≠ 0 := h0
  have hL : l10.getD j 0 * g00.getD j 0 = g10.getD j 0 := by rw [v1]; field_simp
  have hL' : conj (l10.getD j 0) * g00.getD j 0 = g01.getD j 0 := by rw [← c00, ← map_mul, hL, c01]
  rw [v4, v3, v2]
  set x := l10.getD j 0
  set g := g00.getD j 0
  generalize g01.getD j 0 = y01 at *
  generalize g10.getD j 0 = y10 at *
  generalize g11.getD j 0 = y11 at *
  clear_value x g
  refine ⟨?_, rfl, rfl, rfl, rfl, rfl, ?_⟩
  · ext u v
    fin_cases u <;> fin_cases v <;> simp [Matrix.mul_apply, Fin.sum_univ_two] 
    · linear_combination hL'
    · exact hL
    · ring
  · simp only [Matrix.det_fin_two_of]
    linear_combination -(conj x * g) * hL - y10 * hL'

/-- C51: a matrix that does not have two rows, or whose first row does not have two entries, makes `LdlFFT` panic. -/
theorem C51_dimensions (O : FloatOps) (G : List (List (List O.C))) (h : ¬ ∃ a b r, G = [[a, b], r]) : LdlFFT O G = .panic := by
  unfold LdlFFT idx2
  match G, h with
  | [], _ => simp [idx]
  | [] :: _, _ => simp [idx]
  | (x :: r) :: t, h =>
    simp only [idx, List.getElem?_cons_zero, Go.ok_bind, List.length_cons]
    rw [if_pos]
    by_contra hc
    simp only [not_or, not_not] at hc
    obtain ⟨h1, h2⟩ := hc
    match t, h1 with
    | [s], _ =>
      simp only [List.length_cons, List.length_nil] at h2
      match r, h2 with
      | [y], _ => exact h ⟨x, y, s, rfl⟩

/-- The values of a matrix of real vectors at `w`. -/
noncomputable def matAt (B : List (List (List ℝ))) (w : ℂ) : Matrix (Fin 2) (Fin 2) ℂ :=
  fun a b => (poly (((B.getD a []).getD b []).map fun x : ℝ => (x : ℂ))).eval w

theorem matAt_mk (a b c d : List ℝ) (w : ℂ) : matAt [[a, b], [c, d]] w = !![evalR a w, evalR b w; evalR c w, evalR d w] := by
  ext x y
  fin_cases x <;> fin_cases y <;> rfl

theorem evalR_add_list (f g : List ℝ) (h : f.length = g.length) (w : ℂ) :
    evalR (List.zipWith exactOps.add f g) w = evalR f w + evalR g w := by
  induction f generalizing g with
  | nil => rw [List.length_eq_zero_iff.1 h.symm]; simp [evalR]
  | cons a f ih =>
    match g, h with
    | b :: g, h =>
      have := ih g (by simpa using h)
      unfold evalR at this ⊢
      simp only [List.zipWith_cons_cons, List.map_cons, poly_cons, eval_add, eval_mul, eval_C, eval_X, this, exactOps]
      push_cast
      ring

theorem evalR_conj (f : List ℝ) (w : ℂ) : evalR f (conj w) = conj (evalR f w) := by
  rw [evalR_eq, evalR_eq]
  induction f with
  | nil => simp
  | cons a f ih => simp [eval₂_add, eval₂_mul, ih]

theorem gram_term (k : Nat) (h1 : 1 ≤ k) (h2 : k ≤ 10) (a b acc : List ℝ) (la : a.length = 2 ^ k) (lb : b.length = 2 ^ k)
    (lacc : acc.length = 2 ^ k) : ∃ r : List ℝ, (do
      let adj ← Adj exactOps b
      let p ← Mul exactOps a adj
      Add exactOps acc p) = .ok r ∧ r.length = 2 ^ k ∧ ∀ w ∈ rootsC k, evalR r w = evalR acc w + evalR a w * conj (evalR b w) := by
  have hadj := C50_adj k h1 h2 b lb
  have ladj : (adjList b).length = 2 ^ k := by
    obtain ⟨c, hc, lc⟩ := Adj_ok (O := exactOps) k h1 h2 b lb
    rw [hadj.1, Go.ok.injEq] at hc
    rw [hc]; exact lc
  obtain ⟨h, hm, hl, hd⟩ := C50_mul k h1 h2 a (adjList b) la ladj
  refine ⟨List.zipWith exactOps.add acc h, ?_, by simp [lacc, hl], ?_⟩
  · rw [hadj.1, Go.ok_bind, hm, Go.ok_bind, Add, if_neg (by omega)]
  · intro w hw
    rw [evalR_add_list _ _ (by omega)]
    have hz := evalR_dvd k _ hd w hw
    rw [eval₂_sub, eval₂_mul, ← evalR_eq, ← evalR_eq, ← evalR_eq, sub_eq_zero, evalR_adjList k b lb w (rootsC_root k w hw)] at hz
    have hw1 : w⁻¹ = conj w := by
      simp only [rootsC, List.mem_map, List.mem_range] at hw
      obtain ⟨i, _, rfl⟩ := hw
      exact (eq_inv_of_mul_eq_one_right (rootC_conj k i)).symm
    rw [← hz, hw1, evalR_conj]

/-- C51: `Gram(B)` is `B B^*` at every root of `x^n+1`. -/
theorem C51_gram (k : Nat) (h1 : 1 ≤ k) (h2 : k ≤ 10) (B : List (List (List ℝ))) (hB : Mat (2 ^ k) B) :
    ∃ G, Gram exactOps B = .ok G ∧ Mat (2 ^ k) G ∧ ∀ w : ℂ, w ^ 2 ^ k + 1 = 0 → matAt G w = matAt B w * (matAt B w)ᴴ := by
  obtain ⟨a, b, c, d, rfl, la, lb, lc, ld⟩ := hB
  have key : ∀ (i j : Nat) (x0 x1 y0 y1 : List ℝ), x0.length = 2 ^ k → x1.length = 2 ^ k → y0.length = 2 ^ k → y1.length = 2 ^ k →
      idx2 [[a, b], [c, d]] i 0 = .ok x0 → idx2 [[a, b], [c, d]] i 1 = .ok x1 →
      idx2 [[a, b], [c, d]] j 0 = .ok y0 → idx2 [[a, b], [c, d]] j 1 = .ok y1 →
      ∃ r : List ℝ, gramCell exactOps [[a, b], [c, d]] i j 2 0 (List.replicate (2 ^ k) (exactOps.lit 0)) = .ok r ∧ r.length = 2 ^ k ∧
        ∀ w ∈ rootsC k, evalR r w = evalR x0 w * conj (evalR y0 w) + evalR x1 w * conj (evalR y1 w) := by
    intro i j x0 x1 y0 y1 lx0 lx1 ly0 ly1 ex0 ex1 ey0 ey1
    obtain ⟨r, er, lr, vr⟩ := gram_term k h1 h2 x0 y0 (List.replicate (2 ^ k) (exactOps.lit 0)) lx0 ly0 (by simp)
    obtain ⟨s, es, ls, vs⟩ := gram_term k h1 h2 x1 y1 r lx1 ly1 lr
    refine ⟨s, ?_, ls, ?_⟩
    · rw [gramCell, ex0, Go.ok_bind, ey0, Go.ok_bind]
      obtain ⟨u1, eu1, er⟩ := Go.bind_eq_ok.1 er
      obtain ⟨u2, eu2, er⟩ := Go.bind_eq_ok.1 er
      rw [eu1, Go.ok_bind, eu2, Go.ok_bind, er, Go.ok_bind, gramCell, ex1, Go.ok_bind, ey1, Go.ok_bind]
      obtain ⟨v1, ev1, es⟩ := Go.bind_eq_ok.1 es
      obtain ⟨v2, ev2, es⟩ := Go.bind_eq_ok.1 es
      rw [ev1, Go.ok_bind, ev2, Go.ok_bind, es, Go.ok_bind, gramCell]
    · intro w hw
      have hz : ∀ m, evalR (List.replicate m (exactOps.lit 0)) w = 0 := by
        intro m
        have e0 : (exactOps.lit 0 : ℝ) = 0 := by show ((0 : ℚ) : ℝ) = 0; simp
        rw [e0]
        unfold evalR
        induction m with
        | zero => simp
        | succ m ih => simp [List.replicate_succ] at ih ⊢; right; exact ih
      rw [vs w hw, vr w hw, hz, zero_add]
  obtain ⟨w, ew, lw, vw⟩ := key 0 0 a b a b la lb la lb rfl rfl rfl rfl
  obtain ⟨x, ex, lx, vx⟩ := key 0 1 a b c d la lb lc ld rfl rfl rfl rfl
  obtain ⟨y, ey, ly, vy⟩ := key 1 0 c d a b lc ld la lb rfl rfl rfl rfl
  obtain ⟨z, ez, lz, vz⟩ := key 1 1 c d c d lc ld lc ld rfl rfl rfl rfl
  refine ⟨[[w, x], [y, z]], ?_, ⟨w, x, y, z, rfl, lw, lx, ly, lz⟩, ?_⟩
  · unfold Gram
    simp only [idx, List.getElem?_cons_zero, Go.ok_bind, List.length_cons, List.length_nil, la, gramRows, gramRow, Nat.zero_add, ew, ex,
      ey, ez, Go.pure_eq, Nat.reduceAdd]
  · intro t ht
    have hm : t ∈ rootsC k := (mem_rootsC k t).2 (by linear_combination ht)
    rw [matAt_mk, matAt_mk, vw t hm, vx t hm, vy t hm, vz t hm]
    ext u v
    fin_cases u <;> fin_cases v <;> simp [Matrix.mul_apply, Fin.sum_univ_two]

theorem slot_fft (k : Nat) (h1 : 1 ≤ k) (h2 : k ≤ 10) (G : List (List (List ℝ))) (hG : Mat (2 ^ k) G) :
    ∃ M, fft3D exactOps G = .ok M ∧ Mat (2 ^ k) M ∧ ∀ j < 2 ^ k, slot M j = matAt G (rootC k j) := by
  obtain ⟨a, b, c, d, rfl, la, lb, lc, ld⟩ := hG
  refine ⟨[[(rootsC k).map (evalR a), (rootsC k).map (evalR b)], [(rootsC k).map (evalR c), (rootsC k).map (evalR d)]], ?_,
    ⟨_, _, _, _, rfl, by simp [rootsC_length], by simp [rootsC_length], by simp [rootsC_length], by simp [rootsC_length]⟩, ?_⟩
  · simp only [fft3D, List.mapM_cons, List.mapM_nil, FFT_exact k h1 h2 a la, FFT_exact k h1 h2 b lb, FFT_exact k h1 h2 c lc,
      FFT_exact k h1 h2 d ld, Go.ok_bind, Go.pure_eq]
  · intro j hj
    rw [slot_mk, matAt_mk]
    simp [rootsC, hj]

/-- C51: the factorisation that key generation computes: for a basis matrix `B` whose first row does not vanish at any root of `x^n+1`,
`LdlFFT` of the transform of `Gram(B)` gives `L D L^* = B B^*` in every slot, and the product of the diagonal of `D` is the squared
absolute value of the determinant of `B`. -/
theorem C51_basis (k : Nat) (h1 : 1 ≤ k) (h2 : k ≤ 10) (B : List (List (List ℝ))) (hB : Mat (2 ^ k) B)
    (hz : ∀ w : ℂ, w ^ 2 ^ k + 1 = 0 → matAt B w 0 0 ≠ 0 ∨ matAt B w 0 1 ≠ 0) :
    ∃ L D, (do LdlFFT exactOps (← fft3D exactOps (← Gram exactOps B))) = .ok (L, D) ∧ ∀ j < 2 ^ k,
      slot L j * slot D j * (slot L j)ᴴ = matAt B (exactOps.root (2 ^ k) j) * (matAt B (exactOps.root (2 ^ k) j))ᴴ ∧
      slot L j 0 0 = 1 ∧ slot L j 0 1 = 0 ∧ slot L j 1 1 = 1 ∧ slot D j 0 1 = 0 ∧ slot D j 1 0 = 0 ∧
      slot D j 0 0 * slot D j 1 1 = Complex.normSq (matAt B (exactOps.root (2 ^ k) j)).det := by
  have er : ∀ i, (exactOps.root (2 ^ k) i : ℂ) = rootC k i := by
    intro i
    show rootC (Nat.log2 (2 ^ k)) i = _
    rw [Nat.log2_two_pow]
  obtain ⟨G, eG, mG, vG⟩ := C51_gram k h1 h2 B hB
  obtain ⟨M, eM, mM, vM⟩ := slot_fft k h1 h2 G mG
  have hroot : ∀ j, j < 2 ^ k → rootC k j ^ 2 ^ k + 1 = 0 := by
    intro j hj
    rw [rootC_pow]; ring
  have hv : ∀ j < 2 ^ k, slot M j = matAt B (rootC k j) * (matAt B (rootC k j))ᴴ := fun j hj => by rw [vM j hj, vG _ (hroot j hj)]
  obtain ⟨L, D, e, mL, mD, h⟩ := C51_ldl (2 ^ k) M mM
    (fun j hj => by rw [hv j hj]; exact Matrix.isHermitian_mul_conjTranspose_self _)
    (fun j hj => by
      rw [hv j hj]
      simp only [Matrix.mul_apply, Fin.sum_univ_two, Matrix.conjTranspose_apply]
      intro h0
      have e1 : ∀ z : ℂ, z * star z = ((Complex.normSq z : ℝ) : ℂ) := fun z => Complex.mul_conj z
      rw [e1, e1, ← Complex.ofReal_add, Complex.ofReal_eq_zero] at h0
      have n1 := Complex.normSq_nonneg (matAt B (rootC k j) 0 0)
      have n2 := Complex.normSq_nonneg (matAt B (rootC k j) 0 1)
      rcases hz _ (hroot j hj) with h' | h'
      · exact h' (Complex.normSq_eq_zero.1 (by linarith))
      · exact h' (Complex.normSq_eq_zero.1 (by linarith)))
  refine ⟨L, D, by rw [eG, Go.ok_bind, eM, Go.ok_bind, e], ?_⟩
  intro j hj
  obtain ⟨a1, a2, a3, a4, a5, a6, a7⟩ := h j hj
  rw [er j]
  refine ⟨by rw [a1, hv j hj], a2, a3, a4, a5, a6, ?_⟩
  rw [Matrix.det_fin_two, a5, a6, hv j hj, Matrix.det_mul, Matrix.det_conjTranspose] at a7
  rw [← Complex.mul_conj]
  simpa using a7

/-- A concrete Hermitian matrix: `G00 = 2`, `G10 = i`, `G11 = 1` in both slots. -/
example : LdlFFT exactOps [[[2, 2], [-Complex.I, -Complex.I]], [[Complex.I, Complex.I], [1, 1]]] =
    .ok ([[[1, 1], [0, 0]], [[Complex.I / 2, Complex.I / 2], [1, 1]]], [[[2, 2], [0, 0]], [[0, 0], [1 / 2, 1 / 2]]]) := by
  have e : (1 : ℂ) + -(Complex.I / 2 * conj (Complex.I / 2) * 2) = 1 / 2 := by
    have := Complex.I_mul_I
    rw [map_div₀, Complex.conj_I, Complex.conj_ofNat]
    linear_combination (1 / 2) * this
  have e1 := exact_cone
  have e0 := exact_czero
  show Go.ok ([[[exactOps.cplx (exactOps.lit 1) (exactOps.lit 0), exactOps.cplx (exactOps.lit 1) (exactOps.lit 0)],
    [exactOps.cplx (exactOps.lit 0) (exactOps.lit 0), exactOps.cplx (exactOps.lit 0) (exactOps.lit 0)]],
    [[Complex.I / 2, Complex.I / 2], [exactOps.cplx (exactOps.lit 1) (exactOps.lit 0), exactOps.cplx (exactOps.lit 1) (exactOps.lit 0)]]],
    [[[(2 : ℂ), 2], [exactOps.cplx (exactOps.lit 0) (exactOps.lit 0), exactOps.cplx (exactOps.lit 0) (exactOps.lit 0)]],
    [[exactOps.cplx (exactOps.lit 0) (exactOps.lit 0), exactOps.cplx (exactOps.lit 0) (exactOps.lit 0)],
    [(1 : ℂ) + -(Complex.I / 2 * conj (Complex.I / 2) * 2), (1 : ℂ) + -(Complex.I / 2 * conj (Complex.I / 2) * 2)]]]) = _
  rw [e, e1, e0]

/-- The hypothesis of `C51_basis` for the basis `[[2, 0], [1 + x, 3]]` at degree 2. -/
example : Mat (2 ^ 1) [[[(2 : ℝ), 0], [0, 0]], [[1, 1], [3, 0]]] ∧
    ∀ w : ℂ, w ^ 2 ^ 1 + 1 = 0 → matAt [[[(2 : ℝ), 0], [0, 0]], [[1, 1], [3, 0]]] w 0 0 ≠ 0 ∨
      matAt [[[(2 : ℝ), 0], [0, 0]], [[1, 1], [3, 0]]] w 0 1 ≠ 0 := by
  refine ⟨⟨_, _, _, _, rfl, rfl, rfl, rfl, rfl⟩, fun w _ => Or.inl ?_⟩
  rw [matAt_mk]
  simp [evalR]

end Falcon
