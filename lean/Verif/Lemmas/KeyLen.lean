import Verif.Model.Falcon
import Verif.Lemmas.FftLen
import Verif.Lemmas.Ntrugen2
/-! The floating-point functions used for keys neither panic nor change lengths on vectors of a supported length. -/

namespace Falcon

variable {O : FloatOps}

theorem Adj_ok (k : Nat) (h1 : 1 ≤ k) (h2 : k ≤ 10) (f : List O.F) (hf : f.length = 2 ^ k) :
    ∃ r, Adj O f = .ok r ∧ r.length = 2 ^ k := by
  obtain ⟨a, ha, la⟩ := FFT_ok k h1 h2 f hf
  obtain ⟨b, hb, lb⟩ := IFFT_ok (O := O) k h1 h2 (AdjFFT O a) (by rw [AdjFFT_length, la])
  exact ⟨b, by unfold Adj; rw [ha, Go.ok_bind, hb], lb⟩

theorem Mul_ok (k : Nat) (h1 : 1 ≤ k) (h2 : k ≤ 10) (f g : List O.F) (hf : f.length = 2 ^ k) (hg : g.length = 2 ^ k) :
    ∃ r, Mul O f g = .ok r ∧ r.length = 2 ^ k := by
  obtain ⟨a, ha, la⟩ := FFT_ok k h1 h2 f hf
  obtain ⟨b, hb, lb⟩ := FFT_ok k h1 h2 g hg
  obtain ⟨c, hc, lc⟩ := MulFFT_ok (O := O) a b (by omega)
  obtain ⟨d, hd, ld⟩ := IFFT_ok (O := O) k h1 h2 c (by omega)
  exact ⟨d, by unfold Mul; rw [ha, Go.ok_bind, hb, Go.ok_bind, hc, Go.ok_bind, hd], ld⟩

theorem Div_ok (k : Nat) (h1 : 1 ≤ k) (h2 : k ≤ 10) (f g : List O.F) (hf : f.length = 2 ^ k) (hg : g.length = 2 ^ k) :
    ∃ r, Div O f g = .ok r ∧ r.length = 2 ^ k := by
  obtain ⟨a, ha, la⟩ := FFT_ok k h1 h2 f hf
  obtain ⟨b, hb, lb⟩ := FFT_ok k h1 h2 g hg
  obtain ⟨c, hc, lc⟩ := DivFFT_ok (O := O) a b (by omega)
  obtain ⟨d, hd, ld⟩ := IFFT_ok (O := O) k h1 h2 c (by omega)
  exact ⟨d, by unfold Div; rw [ha, Go.ok_bind, hb, Go.ok_bind, hc, Go.ok_bind, hd], ld⟩

theorem Add_ok (f g : List O.F) (h : f.length = g.length) : ∃ r, Add O f g = .ok r ∧ r.length = f.length := by
  refine ⟨List.zipWith O.add f g, by unfold Add; rw [if_neg (by simp [h])], by simp [h]⟩

theorem SubFFT_ok (f g : List O.C) (h : f.length = g.length) : ∃ r, SubFFT O f g = .ok r ∧ r.length = f.length := by
  unfold SubFFT
  exact AddFFT_ok f _ (by simp [NegFFT, h])

theorem gramCell_ok (k : Nat) (h1 : 1 ≤ k) (h2 : k ≤ 10) (B : List (List (List O.F))) (hB : B.length = 2)
    (hr : ∀ r ∈ B, r.length = 2) (hc : ∀ r ∈ B, ∀ c ∈ r, c.length = 2 ^ k) (i j : Nat) (hi : i < 2) (hj : j < 2) (m s : Nat)
    (hs : s + m ≤ 2) (acc : List O.F) (ha : acc.length = 2 ^ k) :
    ∃ r, gramCell O B i j m s acc = .ok r ∧ r.length = 2 ^ k := by
  have hcell : ∀ i s, i < 2 → s < 2 → ∃ c, idx2 B i s = .ok c ∧ c.length = 2 ^ k := by
    intro i s hi hs
    have hi' : i < B.length := by omega
    have hm := List.getElem_mem hi'
    have hs' : s < B[i].length := by rw [hr _ hm]; exact hs
    refine ⟨B[i][s], ?_, hc _ hm _ (List.getElem_mem hs')⟩
    unfold idx2
    rw [idx_ok hi', Go.ok_bind, idx_ok hs']
  induction m generalizing s acc with
  | zero => exact ⟨acc, rfl, ha⟩
  | succ m ih =>
    obtain ⟨a, ea, la⟩ := hcell i s hi (by omega)
    obtain ⟨b, eb, lb⟩ := hcell j s hj (by omega)
    obtain ⟨c, ec, lc⟩ := Adj_ok k h1 h2 b lb
    obtain ⟨d, ed, ld⟩ := Mul_ok k h1 h2 a c la lc
    obtain ⟨e, ee, le⟩ := Add_ok (O := O) acc d (by omega)
    obtain ⟨r, er, lr⟩ := ih (s + 1) (by omega) e (by omega)
    refine ⟨r, ?_, lr⟩
    rw [gramCell, ea, Go.ok_bind, eb, Go.ok_bind, ec, Go.ok_bind, ed, Go.ok_bind, ee, Go.ok_bind, er]

/-- A 2x2 matrix of vectors of length `n`. -/
def Mat {α : Type} (n : Nat) (M : List (List (List α))) : Prop :=
  ∃ a b c d, M = [[a, b], [c, d]] ∧ a.length = n ∧ b.length = n ∧ c.length = n ∧ d.length = n

theorem Gram_ok (k : Nat) (h1 : 1 ≤ k) (h2 : k ≤ 10) (B : List (List (List O.F))) (hB : Mat (2 ^ k) B) :
    ∃ G, Gram O B = .ok G ∧ Mat (2 ^ k) G := by
  obtain ⟨a, b, c, d, rfl, la, lb, lc, ld⟩ := hB
  have key : ∀ i j, i < 2 → j < 2 → ∃ r, gramCell O [[a, b], [c, d]] i j 2 0 (List.replicate (2 ^ k) (O.lit 0)) = .ok r ∧
      r.length = 2 ^ k := by
    intro i j hi hj
    refine gramCell_ok k h1 h2 _ rfl ?_ ?_ i j hi hj 2 0 (by omega) _ (by simp)
    · simp
    · simp [la, lb, lc, ld]
  obtain ⟨w, ew, lw⟩ := key 0 0 (by omega) (by omega)
  obtain ⟨x, ex, lx⟩ := key 0 1 (by omega) (by omega)
  obtain ⟨y, ey, ly⟩ := key 1 0 (by omega) (by omega)
  obtain ⟨z, ez, lz⟩ := key 1 1 (by omega) (by omega)
  refine ⟨[[w, x], [y, z]], ?_, w, x, y, z, rfl, lw, lx, ly, lz⟩
  unfold Gram
  simp only [idx, List.getElem?_cons_zero, Go.ok_bind, List.length_cons, List.length_nil, la, gramRows, gramRow, Nat.zero_add, ew, ex,
    ey, ez, Go.pure_eq, Nat.reduceAdd]

theorem fft3D_ok (k : Nat) (h1 : 1 ≤ k) (h2 : k ≤ 10) (B : List (List (List O.F))) (hB : Mat (2 ^ k) B) :
    ∃ G, fft3D O B = .ok G ∧ Mat (2 ^ k) G := by
  obtain ⟨a, b, c, d, rfl, la, lb, lc, ld⟩ := hB
  obtain ⟨w, ew, lw⟩ := FFT_ok k h1 h2 a la
  obtain ⟨x, ex, lx⟩ := FFT_ok k h1 h2 b lb
  obtain ⟨y, ey, ly⟩ := FFT_ok k h1 h2 c lc
  obtain ⟨z, ez, lz⟩ := FFT_ok k h1 h2 d ld
  refine ⟨[[w, x], [y, z]], ?_, w, x, y, z, rfl, lw, lx, ly, lz⟩
  simp [fft3D, ew, ex, ey, ez]

theorem LdlFFT_ok (n : Nat) (G : List (List (List O.C))) (hG : Mat n G) :
    ∃ g00 g01 g10 g11 l10 d11 p p', G = [[g00, g01], [g10, g11]] ∧ g00.length = n ∧ l10.length = n ∧ d11.length = n ∧
      DivFFT O g10 g00 = .ok l10 ∧ MulFFT O l10 (AdjFFT O l10) = .ok p ∧ MulFFT O p g00 = .ok p' ∧ SubFFT O g11 p' = .ok d11 ∧
      LdlFFT O G = .ok ([[List.replicate n (O.cplx (O.lit 1) (O.lit 0)), List.replicate n (O.cplx (O.lit 0) (O.lit 0))],
        [l10, List.replicate n (O.cplx (O.lit 1) (O.lit 0))]],
        [[g00, List.replicate n (O.cplx (O.lit 0) (O.lit 0))], [List.replicate n (O.cplx (O.lit 0) (O.lit 0)), d11]]) := by
  obtain ⟨a, b, c, d, rfl, la, lb, lc, ld⟩ := hG
  obtain ⟨l, el, ll⟩ := DivFFT_ok (O := O) c a (by omega)
  obtain ⟨p, ep, lp⟩ := MulFFT_ok (O := O) l (AdjFFT O l) (by rw [AdjFFT_length])
  obtain ⟨p', ep', lp'⟩ := MulFFT_ok (O := O) p a (by omega)
  obtain ⟨e, ee, le⟩ := SubFFT_ok (O := O) d p' (by omega)
  refine ⟨a, b, c, d, l, e, p, p', rfl, la, by omega, by omega, el, ep, ep', ee, ?_⟩
  unfold LdlFFT
  simp [idx2, idx, el, ep, ep', ee, la]

/-- `FfldlFFT` on a 2x2 matrix of length-`2^k` vectors succeeds and leaves the node of a degree-2 matrix, whatever the degree. -/
theorem FfldlFFT_ok (k : Nat) (h1 : 1 ≤ k) (h2 : k ≤ 10) (fuel : Nat) (hfu : k ≤ fuel) (T : FFTtree O) (G : List (List (List O.C)))
    (hG : Mat (2 ^ k) G) :
    ∃ T', FfldlFFT O fuel T G = .ok T' ∧ T'.Value.length = 2 ∧ T'.Leftchild.length = 2 ∧ T'.Rightchild.length = 2 := by
  induction k, h1 using Nat.le_induction generalizing T G fuel with
  | base =>
    obtain ⟨m, rfl⟩ : ∃ m, fuel = m + 1 := ⟨fuel - 1, by omega⟩
    obtain ⟨g00, g01, g10, g11, l10, d11, p, p', rfl, a1, a2, a3, -, -, -, -, e⟩ := LdlFFT_ok (O := O) _ G hG
    refine ⟨⟨l10, g00, d11⟩, ?_, by simpa using a2, by simpa using a1, by simpa using a3⟩
    rw [FfldlFFT]
    simp only [idx2, idx, List.getElem?_cons_zero, Go.ok_bind, e, List.getElem?_cons_succ, a1]
    rfl
  | succ k h1 ih =>
    obtain ⟨m, rfl⟩ : ∃ m, fuel = m + 1 := ⟨fuel - 1, by omega⟩
    obtain ⟨g00, g01, g10, g11, l10, d11, p, p', rfl, a1, a2, a3, -, -, -, -, e⟩ := LdlFFT_ok (O := O) _ G hG
    obtain ⟨s0, e0, u1, u2⟩ := SplitFFT_ok (O := O) k h2 g00 a1
    obtain ⟨s1, e1, u3, u4⟩ := SplitFFT_ok (O := O) k h2 d11 a3
    have hn : ¬ (2 ^ (k + 1) = 2) := by
      have : 2 ^ 1 ≤ 2 ^ k := Nat.pow_le_pow_right (by omega) h1
      rw [pow_succ]; omega
    obtain ⟨T1, f1, -⟩ := ih (by omega) m (by omega) { T with Value := l10 } [[s0.1, s0.2], [AdjFFT O s0.2, s0.1]]
      ⟨_, _, _, _, rfl, u1, u2, by rw [AdjFFT_length, u2], u1⟩
    obtain ⟨T2, f2, r⟩ := ih (by omega) m (by omega) T1 [[s1.1, s1.2], [AdjFFT O s1.2, s1.1]]
      ⟨_, _, _, _, rfl, u3, u4, by rw [AdjFFT_length, u4], u3⟩
    refine ⟨T2, ?_, r⟩
    rw [FfldlFFT]
    simp only [idx2, idx, List.getElem?_cons_zero, Go.ok_bind, e, List.getElem?_cons_succ, a1, if_neg hn, e0, e1, f1, f2]

theorem basisAndMatrix_ok (k : Nat) (h1 : 1 ≤ k) (h2 : k ≤ 10) (fuel : Nat) (hfu : k ≤ fuel) (f g F G : List Int16)
    (hf : f.length = 2 ^ k) (hg : g.length = 2 ^ k) (hF : F.length = 2 ^ k) (hG : G.length = 2 ^ k) :
    ∃ B T, basisAndMatrix O fuel f g F G = .ok (B, T) ∧ T.Value.length = 2 ∧ T.Leftchild.length = 2 ∧ T.Rightchild.length = 2 := by
  have hB : Mat (2 ^ k) [[Int16ToFloat64 O g, Neg O (Int16ToFloat64 O f)], [Int16ToFloat64 O G, Neg O (Int16ToFloat64 O F)]] :=
    ⟨_, _, _, _, rfl, by simp [Int16ToFloat64, hg], by simp [Int16ToFloat64, Neg, hf], by simp [Int16ToFloat64, hG],
      by simp [Int16ToFloat64, Neg, hF]⟩
  obtain ⟨G0, e0, m0⟩ := Gram_ok k h1 h2 _ hB
  obtain ⟨b, e1, _⟩ := fft3D_ok k h1 h2 _ hB
  obtain ⟨c, e2, m2⟩ := fft3D_ok k h1 h2 _ m0
  obtain ⟨T, e3, r⟩ := FfldlFFT_ok k h1 h2 fuel hfu ⟨[], [], []⟩ c m2
  refine ⟨b, T, ?_, r⟩
  unfold basisAndMatrix
  simp only [e0, e1, e2, Go.ok_bind, e3, Go.pure_eq]

theorem normalizeTree_ok (t : List (List O.C)) (sigma : O.F) (h0 : ∃ a b r s, t = [a :: b :: r, s]) :
    ∃ t', normalizeTree O t sigma = .ok t' := by
  obtain ⟨a, b, r, s, rfl⟩ := h0
  exact ⟨_, rfl⟩

/-! ### Degrees -/

theorem isValidDegree_iff (n : UInt16) : isValidDegree n = true ↔ ∃ k, 1 ≤ k ∧ k ≤ 10 ∧ n.toNat = 2 ^ k := by
  constructor
  · unfold isValidDegree ParamSets
    intro h
    split_ifs at h <;> first
      | (subst n; first | exact ⟨1, by decide⟩ | exact ⟨2, by decide⟩ | exact ⟨3, by decide⟩ | exact ⟨4, by decide⟩ |
          exact ⟨5, by decide⟩ | exact ⟨6, by decide⟩ | exact ⟨7, by decide⟩ | exact ⟨8, by decide⟩ | exact ⟨9, by decide⟩ |
          exact ⟨10, by decide⟩)
      | simp at h
  · rintro ⟨k, h1, h2, h⟩
    have e : n = UInt16.ofNat (2 ^ k) := by
      apply UInt16.toNat_inj.1
      rw [h, UInt16.toNat_ofNat']
      interval_cases k <;> rfl
    subst e
    interval_cases k <;> decide

end Falcon
