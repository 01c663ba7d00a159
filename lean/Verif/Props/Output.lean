import Verif.Model.Output
import Verif.Props.TreePlatform
/-!
# What key generation prints (C98)

The claim that the output of `NewKeyPair` and `NewKeyPairFromPrivateKey` does not depend on the private key is false: `FfldlFFT` prints the
node of the tree at every step. The first printed node shows the squared norm of `(f, g)`.
-/

namespace Falcon
open F64
open scoped ComplexConjugate

section Model

variable {O : FloatOps}

theorem FfldlLines_model (fuel : Nat) (T : FFTtree O) (G : List (List (List O.C))) :
    Go.map' Prod.fst (FfldlLines O fuel T G) = FfldlFFT O fuel T G := by
  induction fuel generalizing T G with
  | zero => rfl
  | succ fuel ih =>
    simp only [FfldlLines, FfldlFFT, map'_of_bind]
    refine congrArg _ (funext fun g00 => congrArg _ (funext fun r => congrArg _ (funext fun l10 => congrArg _ (funext fun d0 => congrArg _ (funext fun d1 => ?_)))))
    split
    · rfl
    · simp only [map'_of_bind]
      refine congrArg _ (funext fun s0 => congrArg _ (funext fun s1 => ?_))
      rw [← ih, map'_bind]
      refine congrArg _ (funext fun r0 => ?_)
      rw [← ih]
      simp only [Go.pure_eq, map'_ok]
      cases FfldlLines O fuel r0.1 [[s1.1, s1.2], [AdjFFT O s1.2, s1.1]] <;> rfl

theorem basisLines_model (fuel : Nat) (f g F G : List Int16) :
    Go.map' Prod.fst (basisLines O fuel f g F G) = basisAndMatrix O fuel f g F G := by
  simp only [basisLines, basisAndMatrix, map'_of_bind, ← FfldlLines_model, map'_bind, Go.pure_eq, map'_ok]

theorem normalizeLines_model (tree : List (List O.C)) (sigma : O.F) :
    Go.map' Prod.fst (normalizeLines O tree sigma) = normalizeTree O tree sigma := by
  unfold normalizeLines normalizeTree
  split <;> simp only [map'_of_bind, Go.pure_eq, map'_ok]

/-- C98: without the output the functions are those of the model. -/
theorem C98_model (rand : Rand) (fuel : Nat) (n : UInt16) (pos : Nat) (f g F G : List Int16) :
    Go.map' Prod.fst (NewKeyPairLines O rand fuel n pos) = NewKeyPair O rand fuel n pos ∧
    Go.map' Prod.fst (FromPrivateKeyLines O fuel n f g F G) = NewKeyPairFromPrivateKey O fuel n f g F G := by
  constructor
  · unfold NewKeyPairLines NewKeyPair
    rw [map'_of_bind]
    refine congrArg _ (funext fun r => ?_)
    rcases r with e | ⟨k, p⟩
    · rfl
    · simp only [map'_of_bind, ← basisLines_model, ← normalizeLines_model, map'_bind, Go.pure_eq, map'_ok]
  · unfold FromPrivateKeyLines NewKeyPairFromPrivateKey
    split
    · rfl
    · rw [map'_of_bind]
      refine congrArg _ (funext fun b => ?_)
      split
      · rfl
      · simp only [map'_of_bind, ← basisLines_model, ← normalizeLines_model, map'_bind, Go.pure_eq, map'_ok]

/-- The step of `FfldlLines` on a matrix of degree 2. -/
theorem FfldlLines_two (m : Nat) (T : FFTtree O) (G : List (List (List O.C))) (hG : Mat 2 G) :
    ∃ g00 g01 r l10 d11, G = [[g00, g01], r] ∧ g00.length = 2 ∧ l10.length = 2 ∧ d11.length = 2 ∧
      FfldlLines O (m + 1) T G = .ok (⟨l10, g00, d11⟩, [.tree ⟨l10, g00, d11⟩]) := by
  obtain ⟨g00, g01, g10, g11, l10, d11, p, p', rfl, a1, a2, a3, -, -, -, -, e⟩ := LdlFFT_ok (O := O) _ G hG
  refine ⟨g00, g01, _, l10, d11, rfl, a1, a2, a3, ?_⟩
  rw [FfldlLines]
  simp only [idx2, idx, List.getElem?_cons_zero, Go.ok_bind, e, List.getElem?_cons_succ, a1]
  rfl

/-- The step of `FfldlLines` on a matrix of a higher degree. -/
theorem FfldlLines_step (k : Nat) (h1 : 1 ≤ k) (h2 : k + 1 ≤ 10) (m : Nat) (T : FFTtree O) (G : List (List (List O.C))) (hG : Mat (2 ^ (k + 1)) G) :
    ∃ g00 g01 r, ∃ s0 s1 : List O.C × List O.C, ∃ l10, G = [[g00, g01], r] ∧ g00.length = 2 ^ (k + 1) ∧ SplitFFT O g00 = .ok s0 ∧
      Mat (2 ^ k) [[s0.1, s0.2], [AdjFFT O s0.2, s0.1]] ∧ Mat (2 ^ k) [[s1.1, s1.2], [AdjFFT O s1.2, s1.1]] ∧
      FfldlLines O (m + 1) T G = (do
        let (T, out0) ← FfldlLines O m { T with Value := l10 } [[s0.1, s0.2], [AdjFFT O s0.2, s0.1]]
        let (T, out1) ← FfldlLines O m T [[s1.1, s1.2], [AdjFFT O s1.2, s1.1]]
        pure (T, out0 ++ out1 ++ [.tree T])) := by
  obtain ⟨g00, g01, g10, g11, l10, d11, p, p', rfl, a1, a2, a3, -, -, -, -, e⟩ := LdlFFT_ok (O := O) _ G hG
  obtain ⟨s0, e0, u1, u2⟩ := SplitFFT_ok (O := O) k h2 g00 a1
  obtain ⟨s1, e1, u3, u4⟩ := SplitFFT_ok (O := O) k h2 d11 a3
  have hn : ¬ (2 ^ (k + 1) = 2) := by
    have : 2 ^ 1 ≤ 2 ^ k := Nat.pow_le_pow_right (by omega) h1
    rw [pow_succ]; omega
  refine ⟨g00, g01, _, s0, s1, l10, rfl, a1, e0, ⟨_, _, _, _, rfl, u1, u2, by rw [AdjFFT_length, u2], u1⟩,
    ⟨_, _, _, _, rfl, u3, u4, by rw [AdjFFT_length, u4], u3⟩, ?_⟩
  rw [FfldlLines]
  simp only [idx2, idx, List.getElem?_cons_zero, Go.ok_bind, e, List.getElem?_cons_succ, a1, if_neg hn, e0, e1]

/-- C98: `FfldlFFT` on matrices of degree `n` prints `n - 1` trees, the last of which is its result. -/
theorem FfldlLines_count (k : Nat) (h1 : 1 ≤ k) (h2 : k ≤ 10) (fuel : Nat) (hfu : k ≤ fuel) (T : FFTtree O) (G : List (List (List O.C)))
    (hG : Mat (2 ^ k) G) : ∃ (T' : FFTtree O) (ts : List (FFTtree O)), FfldlLines O fuel T G = .ok (T', ts.map Line.tree) ∧
      ts.length + 1 = 2 ^ k ∧ ts.getLast? = some T' ∧ ∀ t ∈ ts, t.Value.length = 2 ∧ t.Leftchild.length = 2 ∧ t.Rightchild.length = 2 := by
  induction k, h1 using Nat.le_induction generalizing T G fuel with
  | base =>
    obtain ⟨m, rfl⟩ : ∃ m, fuel = m + 1 := ⟨fuel - 1, by omega⟩
    obtain ⟨g00, g01, r, l10, d11, rfl, a1, a2, a3, e⟩ := FfldlLines_two m T G hG
    exact ⟨_, [⟨l10, g00, d11⟩], e, rfl, rfl, by simpa using ⟨a2, a1, a3⟩⟩
  | succ k h1 ih =>
    obtain ⟨m, rfl⟩ : ∃ m, fuel = m + 1 := ⟨fuel - 1, by omega⟩
    obtain ⟨g00, g01, r, s0, s1, l10, rfl, -, -, m0, m1, e⟩ := FfldlLines_step k h1 h2 m T G hG
    obtain ⟨T1, ts1, e1, c1, -, q1⟩ := ih (by omega) m (by omega) { T with Value := l10 } _ m0
    obtain ⟨T2, ts2, e2, c2, l2, q2⟩ := ih (by omega) m (by omega) T1 _ m1
    refine ⟨T2, ts1 ++ ts2 ++ [T2], ?_, ?_, by simp, ?_⟩
    · rw [e, e1, Go.ok_bind]
      simp only [e2, Go.ok_bind, Go.pure_eq, List.map_append, List.map_cons, List.map_nil]
    · rw [pow_succ]
      simp only [List.length_append, List.length_cons, List.length_nil]
      omega
    · intro t ht
      rw [List.mem_append, List.mem_append, List.mem_singleton] at ht
      rcases ht with (ht | ht) | rfl
      · exact q1 t ht
      · exact q2 t ht
      · exact q2 t (List.mem_of_getLast? l2)

end Model

/-! ### The first printed node -/

/-- The sum of `|p(w)|^2` over some polynomials. -/
noncomputable def gramL (ps : List (List ℝ)) (w : ℂ) : ℝ := (ps.map fun p => Complex.normSq (evalR p w)).sum

/-- The sum of the squares of all coefficients. -/
def normL (ps : List (List ℝ)) : ℝ := (ps.map sqNorm).sum

/-- The halves of all polynomials. -/
def halves (ps : List (List ℝ)) : List (List ℝ) := ps.flatMap fun p => [(splitPolys p).1, (splitPolys p).2]

theorem halves_norm (ps : List (List ℝ)) (h : ∀ p ∈ ps, 2 ∣ p.length) : normL (halves ps) = normL ps := by
  induction ps with
  | nil => rfl
  | cons p ps ih =>
    have := ih fun q hq => h q (by simp [hq])
    have e := sqNorm_split p (h p (by simp))
    simp only [normL, halves, List.flatMap_cons, List.map_append, List.sum_append, List.map_cons, List.map_nil, List.sum_cons, List.sum_nil] at this ⊢
    rw [this, e]
    ring

/-- Odd part of the sum of squares, as in the definition of `SplitFFT`. -/
noncomputable def oddPart (ps : List (List ℝ)) (u : ℂ) : ℂ :=
  (ps.map fun p => conj (evalR (splitPolys p).1 u) * evalR (splitPolys p).2 u + u⁻¹ * (evalR (splitPolys p).1 u * conj (evalR (splitPolys p).2 u))).sum

theorem gramL_split (ps : List (List ℝ)) (h : ∀ p ∈ ps, 2 ∣ p.length) (w : ℂ) (hw : w * conj w = 1) :
    (gramL ps w : ℂ) = (gramL (halves ps) (w ^ 2) : ℂ) + w * oddPart ps (w ^ 2) := by
  have w0 : w ≠ 0 := by rintro rfl; simp at hw
  have wi : conj w = w⁻¹ := eq_inv_of_mul_eq_one_right hw
  induction ps with
  | nil => simp [gramL, halves, oddPart]
  | cons p ps ih =>
    have ih := ih fun q hq => h q (by simp [hq])
    have e := evalR_split p (h p (by simp)) w
    simp only [gramL, halves, oddPart, List.flatMap_cons, List.map_append, List.sum_append, List.map_cons, List.map_nil, List.sum_cons, List.sum_nil] at ih ⊢
    push_cast at ih ⊢
    rw [ih, e, ← Complex.mul_conj, ← Complex.mul_conj, ← Complex.mul_conj, map_add, map_mul, wi]
    generalize evalR (splitPolys p).1 (w ^ 2) = a
    generalize evalR (splitPolys p).2 (w ^ 2) = b
    field_simp
    ring

/-- At degree 2 the sum of squares is the same at both roots. -/
theorem gramL_two (ps : List (List ℝ)) (h : ∀ p ∈ ps, p.length = 2) (w : ℂ) (hw : w ^ 2 = -1) : gramL ps w = normL ps := by
  have hi : w = Complex.I ∨ w = -Complex.I := by
    have : (w - Complex.I) * (w + Complex.I) = 0 := by
      linear_combination hw - Complex.I_sq
    rcases mul_eq_zero.1 this with h | h
    · exact .inl (sub_eq_zero.1 h)
    · exact .inr (eq_neg_of_add_eq_zero_left h)
  unfold gramL normL
  congr 1
  refine List.map_congr_left fun p hp => ?_
  match p, h p hp with
  | [a, b], _ =>
    rcases hi with rfl | rfl <;> simp [evalR, Spec.poly, sqNorm, Complex.normSq_apply] <;> ring

end Falcon
