import Verif.Props.Ldl
/-!
# The basis and the tree computed from a private key (C63)
-/

namespace Falcon
open Spec Polynomial ComplexConjugate Matrix

variable {O : FloatOps}

/-- The tree written by `FfldlFFT` does not depend on the tree it is called on. -/
theorem FfldlFFT_indep (k : Nat) (h1 : 1 ≤ k) (h2 : k ≤ 10) (fuel : Nat) (hfu : k ≤ fuel) (T U : FFTtree O)
    (G : List (List (List O.C))) (hG : Mat (2 ^ k) G) : FfldlFFT O fuel T G = FfldlFFT O fuel U G := by
  induction k, h1 using Nat.le_induction generalizing T U G fuel with
  | base =>
    obtain ⟨m, rfl⟩ : ∃ m, fuel = m + 1 := ⟨fuel - 1, by omega⟩
    obtain ⟨g00, g01, g10, g11, l10, d11, p, p', rfl, a1, a2, a3, -, -, -, -, e⟩ := LdlFFT_ok (O := O) _ G hG
    rw [FfldlFFT, FfldlFFT]
    simp only [idx2, idx, List.getElem?_cons_zero, Go.ok_bind, e, List.getElem?_cons_succ, a1]
    rfl
  | succ k h1 ih =>
    obtain ⟨m, rfl⟩ : ∃ m, fuel = m + 1 := ⟨fuel - 1, by omega⟩
    obtain ⟨g00, g01, g10, g11, l10, d11, p, p', rfl, a1, a2, a3, -, -, -, -, e⟩ := LdlFFT_ok (O := O) _ G hG
    obtain ⟨s0, e0, u1, u2⟩ := SplitFFT_ok (O := O) k h2 g00 a1
    obtain ⟨s1, e1, u3, u4⟩ := SplitFFT_ok (O := O) k h2 d11 a3
    have hn : ¬ (2 ^ (k + 1) = 2) := by
      have : 2 ^ 1 ≤ 2 ^ k := Nat.pow_le_pow_right (by omega) h1
      rw [pow_succ]; omega
    rw [FfldlFFT, FfldlFFT]
    simp only [idx2, idx, List.getElem?_cons_zero, Go.ok_bind, e, List.getElem?_cons_succ, a1, if_neg hn, e0, e1]
    rw [ih (by omega) m (by omega) { T with Value := l10 } { U with Value := l10 } [[s0.1, s0.2], [AdjFFT O s0.2, s0.1]]
      ⟨_, _, _, _, rfl, u1, u2, by rw [AdjFFT_length, u2], u1⟩]

/-- C63 is violated for every degree above 2: the tree built from a matrix `G` is the tree built from the two halves of the last diagonal
entry of its LDL decomposition. The root value and everything computed from the first diagonal entry are lost. -/
theorem C63_violated_collapse (k : Nat) (h1 : 1 ≤ k) (h2 : k + 1 ≤ 10) (fuel : Nat) (hfu : k ≤ fuel) (T U : FFTtree O)
    (G : List (List (List O.C))) (hG : Mat (2 ^ (k + 1)) G) :
    ∃ L D s, LdlFFT O G = .ok (L, D) ∧ SplitFFT O ((D.getD 1 []).getD 1 []) = .ok s ∧
      FfldlFFT O (fuel + 1) T G = FfldlFFT O fuel U [[s.1, s.2], [AdjFFT O s.2, s.1]] := by
  obtain ⟨g00, g01, g10, g11, l10, d11, p, p', rfl, a1, a2, a3, -, -, -, -, e⟩ := LdlFFT_ok (O := O) _ G hG
  obtain ⟨s0, e0, u1, u2⟩ := SplitFFT_ok (O := O) k h2 g00 a1
  obtain ⟨s1, e1, u3, u4⟩ := SplitFFT_ok (O := O) k h2 d11 a3
  have hn : ¬ (2 ^ (k + 1) = 2) := by
    have : 2 ^ 1 ≤ 2 ^ k := Nat.pow_le_pow_right (by omega) h1
    rw [pow_succ]; omega
  refine ⟨_, _, s1, e, e1, ?_⟩
  obtain ⟨T1, f1, -⟩ := FfldlFFT_ok k h1 (by omega) fuel hfu { T with Value := l10 } [[s0.1, s0.2], [AdjFFT O s0.2, s0.1]]
    ⟨_, _, _, _, rfl, u1, u2, by rw [AdjFFT_length, u2], u1⟩
  rw [FfldlFFT]
  simp only [idx2, idx, List.getElem?_cons_zero, Go.ok_bind, e, List.getElem?_cons_succ, a1, if_neg hn, e0, e1, f1]
  exact FfldlFFT_indep k h1 (by omega) fuel hfu _ _ _ ⟨_, _, _, _, rfl, u3, u4, by rw [AdjFFT_length, u4], u3⟩

/-- The basis matrix of a private key. -/
def basisOf (f g F G : List Int16) : List (List (List ℝ)) :=
  [[g.map fun x => (x.toInt : ℝ), f.map fun x => -(x.toInt : ℝ)], [G.map fun x => (x.toInt : ℝ), F.map fun x => -(x.toInt : ℝ)]]

/-- C63, exact arithmetic: the first result of `basisAndMatrix` holds the values of the basis `[[g, -f], [G, -F]]` at the roots of
`x^n+1`; the second is the tree of the Gram matrix of that basis. -/
theorem C63_basis (k : Nat) (h1 : 1 ≤ k) (h2 : k ≤ 10) (fuel : Nat) (hfu : k ≤ fuel) (f g F G : List Int16)
    (hf : f.length = 2 ^ k) (hg : g.length = 2 ^ k) (hF : F.length = 2 ^ k) (hG : G.length = 2 ^ k) :
    ∃ B T M, basisAndMatrix exactOps fuel f g F G = .ok (B, T) ∧ Mat (2 ^ k) B ∧
      (∀ j < 2 ^ k, slot B j = matAt (basisOf f g F G) (rootC k j)) ∧ Mat (2 ^ k) M ∧
      (∀ j < 2 ^ k, slot M j = matAt (basisOf f g F G) (rootC k j) * (matAt (basisOf f g F G) (rootC k j))ᴴ) ∧
      FfldlFFT exactOps fuel ⟨[], [], []⟩ M = .ok T := by
  have hB : Mat (2 ^ k) (basisOf f g F G) := ⟨_, _, _, _, rfl, by simp [hg], by simp [hf], by simp [hG], by simp [hF]⟩
  have eB : ([[Int16ToFloat64 exactOps g, Neg exactOps (Int16ToFloat64 exactOps f)],
      [Int16ToFloat64 exactOps G, Neg exactOps (Int16ToFloat64 exactOps F)]] : List (List (List ℝ))) = basisOf f g F G := by
    simp only [basisOf, Int16ToFloat64, Neg, List.map_map]
    rfl
  obtain ⟨G0, e0, m0, v0⟩ := C51_gram k h1 h2 _ hB
  obtain ⟨B, e1, m1, v1⟩ := slot_fft k h1 h2 _ hB
  obtain ⟨M, e2, m2, v2⟩ := slot_fft k h1 h2 _ m0
  obtain ⟨T, e3, -⟩ := FfldlFFT_ok k h1 h2 fuel hfu ⟨[], [], []⟩ M m2
  refine ⟨B, T, M, ?_, m1, v1, m2, fun j hj => ?_, e3⟩
  · unfold basisAndMatrix
    simp only [eB, e0, e1, e2, Go.ok_bind, e3, Go.pure_eq]
  · rw [v2 j hj, v0 _ (by rw [rootC_pow]; ring)]

/-- C63, the part that holds, exact arithmetic: for degree 2, `FfldlFFT` of a Hermitian matrix with non-zero upper left entries stores its LDL
decomposition: with `l`, `a`, `b` the root value and the children, `G = [[1,0],[l,1]] diag(a,b) [[1,0],[l,1]]^*` in both slots. -/
theorem C63_degree2_partial (fuel : Nat) (T0 : FFTtree exactOps) (G : List (List (List ℂ))) (hG : Mat 2 G)
    (hh : ∀ j < 2, (slot G j).IsHermitian) (hz : ∀ j < 2, slot G j 0 0 ≠ 0) :
    ∃ T, FfldlFFT exactOps (fuel + 1) T0 G = .ok T ∧ ∀ j < 2,
      let L : Matrix (Fin 2) (Fin 2) ℂ := !![1, 0; T.Value.getD j 0, 1]
      L * !![T.Leftchild.getD j 0, 0; 0, T.Rightchild.getD j 0] * Lᴴ = slot G j := by
  obtain ⟨L, D, e, mL, mD, h⟩ := C51_ldl 2 G hG hh hz
  obtain ⟨g00, g01, g10, g11, l10, d11, p, p', rfl, a1, a2, a3, -, -, -, -, e'⟩ := LdlFFT_ok (O := exactOps) 2 G hG
  rw [e] at e'
  simp only [Go.ok.injEq, Prod.mk.injEq] at e'
  obtain ⟨rfl, rfl⟩ := e'
  refine ⟨⟨l10, g00, d11⟩, ?_, fun j hj => ?_⟩
  · rw [FfldlFFT]
    simp only [idx2, idx, List.getElem?_cons_zero, Go.ok_bind, e, List.getElem?_cons_succ, a1]
    rfl
  · obtain ⟨v, c1, c2, c3, c4, c5, -⟩ := h j hj
    rw [slot_mk, slot_mk] at v
    rw [slot_mk] at c1 c2 c3
    rw [slot_mk] at c4 c5
    simp only [Matrix.of_apply, Matrix.cons_val', Matrix.cons_val_zero, Matrix.cons_val_one, Matrix.cons_val_fin_one] at c1 c2 c3 c4 c5
    rw [c1, c2] at v
    exact v

/-- C63 is violated: `normalizeTree` applied to the children of a tree rewrites the first two entries of the left child only; the right
child keeps its squared norms. -/
theorem C63_violated_normalize (T : FFTtree O) (sigma : O.F) (t : List (List O.C)) (h : normalizeTree O (T.AllChild O) sigma = .ok t) :
    t.getD 1 [] = T.Rightchild := by
  unfold normalizeTree at h
  rw [if_neg (by simp [FFTtree.AllChild])] at h
  simp only [FFTtree.AllChild, idx, List.getElem?_cons_zero, Go.ok_bind, Go.bind_eq_ok, Go.pure_eq, Go.ok.injEq] at h
  obtain ⟨a, -, rfl⟩ := h
  rfl

/-- C63: what `normalizeTree` does to the left child of a degree-2 tree, exact arithmetic: its first entry `x` becomes `sigma/sqrt(x)`, its
second 0; it panics exactly when the left child has fewer than two entries. -/
theorem C63_normalize (T : FFTtree exactOps) (sigma : ℝ) :
    (T.Leftchild.length < 2 → normalizeTree exactOps (T.AllChild exactOps) sigma = .panic) ∧
    (∀ x y : ℂ, T.Leftchild = [x, y] → normalizeTree exactOps (T.AllChild exactOps) sigma =
      .ok [[((sigma / Real.sqrt x.re : ℝ) : ℂ), 0], T.Rightchild]) := by
  constructor
  · intro h
    unfold normalizeTree normalizeLeaf
    rw [if_neg (by simp [FFTtree.AllChild])]
    match hT : T.Leftchild, h with
    | [], _ => simp [FFTtree.AllChild, hT, idx]
    | [a], _ => simp [FFTtree.AllChild, hT, idx]
  · intro x y h
    unfold normalizeTree normalizeLeaf
    rw [if_neg (by simp [FFTtree.AllChild]), exact_czero]
    simp only [FFTtree.AllChild, h, idx, List.getElem?_cons_zero, List.getElem?_cons_succ, Go.ok_bind, Go.pure_eq, List.set_cons_zero,
      List.set_cons_succ]
    congr 3
    apply Complex.ext
    · rfl
    · show ((0 : ℚ) : ℝ) = 0
      simp

/-- The hypotheses of the degree-2 theorem are met by the Gram matrix `[[2, i], [-i, 3]]` in both slots. -/
example : Mat 2 [[[(2 : ℂ), 2], [Complex.I, Complex.I]], [[-Complex.I, -Complex.I], [3, 3]]] ∧
    ∀ j < 2, (slot [[[(2 : ℂ), 2], [Complex.I, Complex.I]], [[-Complex.I, -Complex.I], [3, 3]]] j).IsHermitian := by
  refine ⟨⟨_, _, _, _, rfl, rfl, rfl, rfl, rfl⟩, fun j hj => ?_⟩
  rw [slot_mk]
  ext a b
  interval_cases j <;> fin_cases a <;> fin_cases b <;> simp [Matrix.conjTranspose_apply]

/-- The normalisation example: the left leaf 4 becomes sigma/2. -/
example : ∃ T : FFTtree exactOps, T.Leftchild = [(4 : ℂ), 1] := ⟨⟨[], [(4 : ℂ), 1], []⟩, rfl⟩

end Falcon
