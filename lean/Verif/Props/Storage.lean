import Verif.Lemmas.Storage3
import Verif.Spec.RatOps
/-!
# C87, C88: slices of floating-point numbers that share storage

`Model/Storage.lean` models `[]float64` and `[]complex128` as references to arrays. C87: the functions of fft.go, `Gram`, `FfSamplingFFT` and
`basisAndMatrix` never change an array that existed before the call, whatever parts of arrays their arguments share, their results are new arrays, and
they compute what the models on lists compute. This holds for every arithmetic. C88: a tree made by `FfldlFFT` is independent of the Gram
matrix for every degree but 2, where its left child is the caller's `G[0][0]`, which `normalizeTree` then overwrites.

`Gives m x y` says: the code on slices, started in the memory `m` with the outcome `x`, panics or diverges if and only if the code on lists,
with the outcome `y`, does; otherwise no array of `m` is changed and the result is nil or the whole of an array made since, with the elements `y`.
-/

namespace Falcon
open St

variable {O : FloatOps}

/-- The operations on coefficients, on any two slices, which may overlap or be the same. -/
theorem C87_ops (m : St.Mem O) (f g : St.Slice O.F) (hf : St.Valid m f) (hg : St.Valid m g) :
    Gives m (St.Add f g m) (Add O (St.read m f) (St.read m g)) ∧ Gives m (St.Sub f g m) (Sub O (St.read m f) (St.read m g)) ∧
    Gives m (St.Mul f g m) (Mul O (St.read m f) (St.read m g)) ∧ Gives m (St.Div f g m) (Div O (St.read m f) (St.read m g)) ∧
    Gives m (St.Neg f m) (.ok (Neg O (St.read m f))) ∧ Gives m (St.Adj f m) (Adj O (St.read m f)) ∧
    Gives m (St.FFT f m) (FFT O (St.read m f)) ∧ Gives2 m (St.SplitPolysFloat64 f m) (.ok (splitPolys (St.read m f))) ∧
    Gives m (St.MergePolysfloat64 f g m) (mergePolys (St.read m f) (St.read m g)) :=
  ⟨add_gives m f g hf hg, sub_gives m f g hf hg, mul_gives m f g hf hg, div_gives m f g hf hg, neg_gives m f hf, adj_gives m f hf,
    fft_gives m f hf, splitPolys_gives m f hf, mergePolys_gives m f g hf hg⟩

/-- The operations on transforms. -/
theorem C87_ops_fft (m : St.Mem O) (f g : St.Slice O.C) (hf : St.Valid m f) (hg : St.Valid m g) :
    Gives m (St.AddFFT f g m) (AddFFT O (St.read m f) (St.read m g)) ∧ Gives m (St.SubFFT f g m) (SubFFT O (St.read m f) (St.read m g)) ∧
    Gives m (St.MulFFT f g m) (MulFFT O (St.read m f) (St.read m g)) ∧ Gives m (St.DivFFT f g m) (DivFFT O (St.read m f) (St.read m g)) ∧
    Gives m (St.NegFFT f m) (.ok (NegFFT O (St.read m f))) ∧ Gives m (St.AdjFFT f m) (.ok (AdjFFT O (St.read m f))) ∧
    Gives m (St.IFFT f m) (IFFT O (St.read m f)) ∧ Gives2 m (St.SplitFFT f m) (SplitFFT O (St.read m f)) ∧
    Gives m (St.MergeFFT (f, g) m) (MergeFFT O (St.read m f, St.read m g)) :=
  ⟨addFFT_gives m f g hf hg, subFFT_gives m f g hf hg, mulFFT_gives m f g hf hg, divFFT_gives m f g hf hg, negFFT_gives m f hf, adjFFT_gives m f hf,
    ifft_gives m f hf, splitFFT_gives m f hf, mergeFFT_gives m f g hf hg⟩

/-- What `Gives` means, for an outcome that is a slice. -/
theorem C87_meaning {E : Type} [Elem O E] [LawfulElem O E] (m : St.Mem O) (x : Go (St.Slice E × St.Mem O)) (y : Go (List E)) (h : Gives m x y) :
    (∀ l, y = .ok l → ∃ s m', x = .ok (s, m') ∧ St.read m' s = l ∧ (∀ a < m.next, m'.cs a = m.cs a ∧ m'.fs a = m.fs a) ∧
      (s = St.nil ∨ m.next ≤ s.id)) ∧ (y = .panic ↔ x = .panic) ∧ (y = .diverge ↔ x = .diverge) := by
  obtain ⟨h1, h2, h3⟩ := Ref.iff h
  refine ⟨fun l hl => ?_, h2, h3⟩
  obtain ⟨s, m', e, x, n, r⟩ := h1 l hl
  exact ⟨s, m', e, r, fun a ha => ⟨x.cs a ha, x.fs a ha⟩, n.imp id And.left⟩

/-- `Gram` does not change the matrix and all cells of the result are new. -/
theorem C87_gram (m : St.Mem O) (B : List (List (St.Slice O.F))) (hB : ValidM m B) :
    (∀ l, Gram O (readM m B) = .ok l → ∃ G m', St.Gram B m = .ok (G, m') ∧ readM m' G = l ∧ NewM m m' G ∧
      ∀ a < m.next, m'.cs a = m.cs a ∧ m'.fs a = m.fs a) ∧
    (Gram O (readM m B) = .panic ↔ St.Gram B m = .panic) ∧ (Gram O (readM m B) = .diverge ↔ St.Gram B m = .diverge) := by
  obtain ⟨h1, h2, h3⟩ := (gram_gives B m hB).iff
  refine ⟨fun l hl => ?_, h2, h3⟩
  obtain ⟨G, m', e, x, n, r⟩ := h1 l hl
  exact ⟨G, m', e, r, n, fun a ha => ⟨x.cs a ha, x.fs a ha⟩⟩

/-- `FfSamplingFFT` does not change the tree or the target; both results are new. -/
theorem C87_sampling (rand : Rand) (T : St.FFTtree O) (sigmin : O.F) (fuel : Nat) (t : St.Slice O.C × St.Slice O.C) (pos : Nat) (m : St.Mem O)
    (hT : St.Valid m T.Value) (h1 : St.Valid m t.1) (h2 : St.Valid m t.2) :
    let spec := FfSamplingFFT O rand (T.value m) sigmin fuel (St.read m t.1, St.read m t.2) pos
    (∀ z p, spec = .ok (z, p) → ∃ s s' m', St.FfSamplingFFT rand T sigmin fuel t pos m = .ok (((s, s'), p), m') ∧
      St.read m' s = z.1 ∧ St.read m' s' = z.2 ∧ St.New m m' s ∧ St.New m m' s' ∧ ∀ a < m.next, m'.cs a = m.cs a ∧ m'.fs a = m.fs a) ∧
    (spec = .panic ↔ St.FfSamplingFFT rand T sigmin fuel t pos m = .panic) ∧
    (spec = .diverge ↔ St.FfSamplingFFT rand T sigmin fuel t pos m = .diverge) := by
  intro spec
  obtain ⟨k1, k2, k3⟩ := (ffSampling_gives rand T (T.value m) sigmin fuel t pos m hT rfl h1 h2).iff
  refine ⟨fun z p h => ?_, k2, k3⟩
  obtain ⟨⟨⟨s, s'⟩, p'⟩, m', e, x, n1, n2, r, rfl⟩ := k1 _ h
  dsimp only at r
  subst r
  exact ⟨s, s', m', e, rfl, rfl, n1, n2, fun a ha => ⟨x.cs a ha, x.fs a ha⟩⟩

/-- `basisAndMatrix` changes no existing array; the slices of the tree and the cells of the matrix are new; the three slices of the tree share no
array with each other or with the matrix. -/
theorem C87_basis (fuel : Nat) (f g F G : List Int16) (m : St.Mem O) :
    (∀ B T, basisAndMatrix O fuel f g F G = .ok (B, T) → ∃ B' T' m', St.basisAndMatrix fuel f g F G m = .ok ((B', T'), m') ∧
      readM m' B' = B ∧ T'.value m' = T ∧ (∀ a < m.next, m'.cs a = m.cs a ∧ m'.fs a = m.fs a) ∧ NewM m m' B' ∧
      St.New m m' T'.Value ∧ St.New m m' T'.Leftchild ∧ St.New m m' T'.Rightchild ∧
      Disj T'.Leftchild T'.Rightchild ∧ Disj T'.Leftchild T'.Value ∧ Disj T'.Rightchild T'.Value ∧
      ∀ row ∈ B', ∀ s ∈ row, Disj T'.Leftchild s ∧ Disj T'.Rightchild s ∧ Disj T'.Value s) ∧
    (basisAndMatrix O fuel f g F G = .panic ↔ St.basisAndMatrix fuel f g F G m = .panic) ∧
    (basisAndMatrix O fuel f g F G = .diverge ↔ St.basisAndMatrix fuel f g F G m = .diverge) := by
  obtain ⟨k1, k2, k3⟩ := (basis_gives fuel f g F G m).iff
  refine ⟨fun B T h => ?_, k2, k3⟩
  obtain ⟨⟨B', T'⟩, m', e, x, ⟨nB, rB⟩, ⟨nv, nl, nr⟩, rT, ⟨d1, d2, d3⟩, d4⟩ := k1 _ h
  exact ⟨B', T', m', e, rB, rT, fun a ha => ⟨x.cs a ha, x.fs a ha⟩, nB, nv, nl, nr, d1, d2, d3, d4⟩

/-- C88, the part that holds: for a Gram matrix of degree other than 2 the three slices of the tree are new arrays, so later writes to the tree do not
reach the matrix; the matrix is unchanged and the tree is that of the list model. -/
theorem C88_tree (fuel : Nat) (T : St.FFTtree O) (t : FFTtree O) (G : List (List (St.Slice O.C))) (m : St.Mem O) (hG : ValidM m G)
    (g00 : St.Slice O.C) (h0 : idx2 G 0 0 = .ok g00) (hn : g00.len ≠ 2) (r : FFTtree O) (h : FfldlFFT O fuel t (readM m G) = .ok r) :
    ∃ T' m', St.FfldlFFT fuel T G m = .ok (T', m') ∧ T'.value m' = r ∧ (∀ a < m.next, m'.cs a = m.cs a ∧ m'.fs a = m.fs a) ∧
      St.New m m' T'.Value ∧ St.New m m' T'.Leftchild ∧ St.New m m' T'.Rightchild ∧ Disj T'.Leftchild T'.Rightchild := by
  obtain ⟨T', m', e, x, ⟨⟨g, hg, hl⟩, nv, nr, d, -⟩, rv⟩ := (ffldlFFT_gives fuel T t G m hG).iff.1 r h
  rw [h0] at hg
  cases hg
  rw [if_neg hn] at hl
  exact ⟨T', m', e, rv, fun a ha => ⟨x.cs a ha, x.fs a ha⟩, nv, hl, nr, d⟩

/-- C88 is violated for degree 2, whatever the arithmetic: the left child of the tree is the caller's slice `G[0][0]`. -/
theorem C88_violated_tree (fuel : Nat) (T : St.FFTtree O) (t : FFTtree O) (G : List (List (St.Slice O.C))) (m : St.Mem O) (hG : ValidM m G)
    (g00 : St.Slice O.C) (h0 : idx2 G 0 0 = .ok g00) (hn : g00.len = 2) (r : FFTtree O) (h : FfldlFFT O fuel t (readM m G) = .ok r) :
    ∃ T' m', St.FfldlFFT fuel T G m = .ok (T', m') ∧ T'.value m' = r ∧ (∀ a < m.next, m'.cs a = m.cs a ∧ m'.fs a = m.fs a) ∧
      T'.Leftchild = g00 ∧ St.New m m' T'.Value ∧ St.New m m' T'.Rightchild := by
  obtain ⟨T', m', e, x, ⟨⟨g, hg, hl⟩, nv, nr, -⟩, rv⟩ := (ffldlFFT_gives fuel T t G m hG).iff.1 r h
  rw [h0] at hg
  cases hg
  rw [if_pos hn] at hl
  exact ⟨T', m', e, rv, fun a ha => ⟨x.cs a ha, x.fs a ha⟩, hl, nv, nr⟩

/-- `normalizeTree` of the children of a tree changes the elements of the left child to those of the list model and nothing else. -/
theorem C88_normalize (T : St.FFTtree O) (sigma : O.F) (m : St.Mem O) (hl : St.Valid m T.Leftchild) (hd : Disj T.Leftchild T.Rightchild) :
    (∀ t, normalizeTree O (T.AllChild.map (St.read m)) sigma = .ok t → ∃ m', St.normalizeTree T.AllChild sigma m = .ok ((), m') ∧
      T.AllChild.map (St.read m') = t ∧ m'.fs = m.fs ∧ (∀ a ≠ T.Leftchild.id, m'.cs a = m.cs a) ∧
      ∀ i, i ≠ T.Leftchild.off → i ≠ T.Leftchild.off + 1 → (m'.cs T.Leftchild.id)[i]? = (m.cs T.Leftchild.id)[i]?) ∧
    (normalizeTree O (T.AllChild.map (St.read m)) sigma = .panic ↔ St.normalizeTree T.AllChild sigma m = .panic) := by
  have e : St.normalizeTree T.AllChild sigma m = St.normalizeLeaf T.Leftchild sigma m := rfl
  have e' : normalizeTree O (T.AllChild.map (St.read m)) sigma =
      (normalizeLeaf O (St.read m T.Leftchild) sigma >>= fun l => .ok [l, St.read m T.Rightchild]) := rfl
  rw [e, e', St.normalizeLeaf_eq _ _ _ hl]
  cases hc : normalizeLeaf O (St.read m T.Leftchild) sigma with
  | panic => exact ⟨fun _ h => (by cases h), fun _ => rfl, fun _ => rfl⟩
  | diverge => exact ⟨fun _ h => (by cases h), by constructor <;> intro h <;> cases h⟩
  | ok l =>
    refine ⟨fun t ht => ?_, by constructor <;> intro h <;> cases h⟩
    cases ht
    obtain ⟨h1, h2⟩ := St.normalizeLeaf_length _ _ _ hc
    rw [hl.read_length] at h1 h2
    refine ⟨_, rfl, ?_, rfl, fun a ha => ?_, fun i hi hi' => ?_⟩
    · show [St.read _ _, St.read _ _] = _
      rw [read_put m _ l hl h1, put_read m _ _ l hd h2]
    · exact upd_ne _ _ _ _ ha
    · obtain ⟨v, w, h⟩ := St.normalizeLeaf_mem T.Leftchild sigma m hl l hc
      rw [h]
      show (upd m.cs _ _ _)[i]? = _
      rw [upd_self, List.getElem?_set_ne (by omega), List.getElem?_set_ne (by omega)]
      rfl

/-- C88, the consequence for the caller: for degree 2 normalising the tree overwrites `G[0][0]`: its first element `x` becomes `sigma/sqrt(x)`, its
second 0. -/
theorem C88_violated_gram (fuel : Nat) (T : St.FFTtree O) (t : FFTtree O) (G : List (List (St.Slice O.C))) (m : St.Mem O) (hG : ValidM m G)
    (g00 : St.Slice O.C) (h0 : idx2 G 0 0 = .ok g00) (x y : O.C) (hn : St.read m g00 = [x, y]) (r : FFTtree O)
    (h : FfldlFFT O fuel t (readM m G) = .ok r) (sigma : O.F) :
    ∃ T' m1 m2, St.FfldlFFT fuel T G m = .ok (T', m1) ∧ St.normalizeTree T'.AllChild sigma m1 = .ok ((), m2) ∧
      St.read m1 g00 = [x, y] ∧ St.read m2 g00 = [O.cplx (O.div sigma (O.sqrt (O.re x))) (O.lit 0), O.cplx (O.lit 0) (O.lit 0)] := by
  have v0 := idx2_valid hG h0
  have hlen : g00.len = 2 := by rw [← v0.read_length, hn]; rfl
  obtain ⟨T', m1, e, xt, ⟨⟨g, hg, hl⟩, nv, nr, d, -⟩, rv⟩ := (ffldlFFT_gives fuel T t G m hG).iff.1 r h
  rw [h0] at hg
  cases hg
  rw [if_pos hlen] at hl
  have r1 : St.read m1 g00 = [x, y] := (v0.read xt).trans hn
  have v1 := v0.ext xt
  obtain ⟨m2, e2, r2, -⟩ := (C88_normalize T' sigma m1 (by rw [hl]; exact v1) d).1
    [[O.cplx (O.div sigma (O.sqrt (O.re x))) (O.lit 0), O.cplx (O.lit 0) (O.lit 0)], St.read m1 T'.Rightchild] (by
      simp only [St.FFTtree.AllChild, List.map_cons, List.map_nil, hl, r1]
      rfl)
  refine ⟨T', m1, m2, e, e2, r1, ?_⟩
  rw [← hl]
  exact (List.cons.inj r2).1

/-- With three slices `normalizeTree` does what the list model says when the second and the third share no array. -/
theorem C88_normalize3 (a b c : St.Slice O.C) (sigma : O.F) (m : St.Mem O) (hb : St.Valid m b) (hc : St.Valid m c) (ha : Disj b a) (ha' : Disj c a)
    (hd : Disj b c) :
    (∀ t, normalizeTree O ([a, b, c].map (St.read m)) sigma = .ok t → ∃ m', St.normalizeTree [a, b, c] sigma m = .ok ((), m') ∧
      [a, b, c].map (St.read m') = t) ∧
    (normalizeTree O ([a, b, c].map (St.read m)) sigma = .panic ↔ St.normalizeTree [a, b, c] sigma m = .panic) := by
  have e : St.normalizeTree [a, b, c] sigma m = (St.normalizeLeaf b sigma >>= fun _ => St.normalizeLeaf c sigma) m := rfl
  have e' : normalizeTree O ([a, b, c].map (St.read m)) sigma = (normalizeLeaf O (St.read m b) sigma >>= fun l =>
      normalizeLeaf O (St.read m c) sigma >>= fun l' => .ok [St.read m a, l, l']) := rfl
  rw [e, e', St.bind_apply, St.normalizeLeaf_eq _ _ _ hb]
  cases h1 : normalizeLeaf O (St.read m b) sigma with
  | panic => exact ⟨fun _ h => (by cases h), fun _ => rfl, fun _ => rfl⟩
  | diverge => exact ⟨fun _ h => (by cases h), by constructor <;> intro h <;> cases h⟩
  | ok l =>
    obtain ⟨p1, p2⟩ := St.normalizeLeaf_length _ _ _ h1
    rw [hb.read_length] at p1 p2
    simp only [Go.ok_bind]
    rw [St.normalizeLeaf_eq _ _ _ (put_valid m b c l hb p1 hc), put_read m _ _ l hd p2]
    cases h2 : normalizeLeaf O (St.read m c) sigma with
    | panic => exact ⟨fun _ h => (by cases h), fun _ => rfl, fun _ => rfl⟩
    | diverge => exact ⟨fun _ h => (by cases h), by constructor <;> intro h <;> cases h⟩
    | ok l' =>
      refine ⟨fun t ht => ?_, by constructor <;> intro h <;> cases h⟩
      cases ht
      obtain ⟨q1, q2⟩ := St.normalizeLeaf_length _ _ _ h2
      rw [hc.read_length] at q1 q2
      refine ⟨_, rfl, ?_⟩
      show [St.read _ _, St.read _ _, St.read _ _] = _
      rw [put_read _ _ _ l' ha' q2, put_read m _ _ l ha p2, put_read _ _ _ l' hd.symm q2, read_put m _ l hb p1,
        read_put _ _ l' (put_valid m b c l hb p1 hc) q1]

/-- With the same slice twice `normalizeTree` divides twice. -/
theorem C88_violated_normalize3 (a b : St.Slice O.C) (sigma : O.F) (m : St.Mem O) (hb : St.Valid m b) (x y : O.C) (hr : St.read m b = [x, y]) :
    ∃ m', St.normalizeTree [a, b, b] sigma m = .ok ((), m') ∧
      St.read m' b = [O.cplx (O.div sigma (O.sqrt (O.re (O.cplx (O.div sigma (O.sqrt (O.re x))) (O.lit 0))))) (O.lit 0),
        O.cplx (O.lit 0) (O.lit 0)] := by
  have e : St.normalizeTree [a, b, b] sigma m = (St.normalizeLeaf b sigma >>= fun _ => St.normalizeLeaf b sigma) m := rfl
  have hlen : b.len = 2 := by rw [← hb.read_length, hr]; rfl
  have h1 : normalizeLeaf O (St.read m b) sigma = .ok [O.cplx (O.div sigma (O.sqrt (O.re x))) (O.lit 0), O.cplx (O.lit 0) (O.lit 0)] := by
    rw [hr]; rfl
  have v := put_valid m b b [O.cplx (O.div sigma (O.sqrt (O.re x))) (O.lit 0), O.cplx (O.lit 0) (O.lit 0)] hb hlen.symm hb
  rw [e, St.bind_apply, St.normalizeLeaf_eq _ _ _ hb, h1]
  simp only [Go.ok_bind]
  rw [St.normalizeLeaf_eq _ _ _ v, read_put m b _ hb (by rw [hlen]; rfl)]
  exact ⟨_, rfl, read_put _ b _ v (by rw [hlen]; rfl)⟩

private instance : DecidableEq ratOps.F := inferInstanceAs (DecidableEq ℚ)

private instance : DecidableEq ratOps.C := inferInstanceAs (DecidableEq (ℚ × ℚ))

/-- Numbers as elements. -/
private def q (l : List ℚ) : List ratOps.F := l

private def c (l : List (ℚ × ℚ)) : List ratOps.C := l

/-- A memory with the array `1, 2, 3` of numbers and the arrays of a Gram matrix of degree 2. -/
private def mem : St.Mem ratOps :=
  ⟨4, fun a => if a = 0 then c [(4, 0), (9, 0)] else if a = 1 then c [(2, 0), (3, 0)] else if a = 2 then c [(5, 0), (7, 0)] else [],
    fun a => if a = 3 then q [1, 2, 3] else []⟩

/-- The matrix. -/
private def gram : List (List (St.Slice ratOps.C)) := [[⟨0, 0, 2⟩, ⟨1, 0, 2⟩], [⟨1, 0, 2⟩, ⟨2, 0, 2⟩]]

/-- The elements of the result of a call, and two of the arrays after it. -/
private def got (x : Go (St.Slice ratOps.F × St.Mem ratOps)) : Option (List ratOps.F × List ratOps.F × List ratOps.C) :=
  match x with
  | .ok (s, m) => some (St.read m s, m.fs 3, m.cs 0)
  | _ => none

/-- `Add` of two overlapping slices, and `Sub` of a slice and itself; the array is unchanged. -/
example : St.Valid mem (⟨3, 0, 2⟩ : St.Slice ratOps.F) ∧ St.Valid mem (⟨3, 1, 2⟩ : St.Slice ratOps.F) ∧
    got (St.Add ⟨3, 0, 2⟩ ⟨3, 1, 2⟩ mem) = some (q [3, 5], q [1, 2, 3], c [(4, 0), (9, 0)]) ∧
    got (St.Sub ⟨3, 1, 2⟩ ⟨3, 1, 2⟩ mem) = some (q [0, 0], q [1, 2, 3], c [(4, 0), (9, 0)]) := by
  refine ⟨.inr (by decide), .inr (by decide), ?_, ?_⟩ <;> decide +kernel

/-- The matrix after `FfldlFFT` and after `normalizeTree`. -/
private def matrices : Option (List (List (List ratOps.C)) × List (List (List ratOps.C))) :=
  match St.FfldlFFT 1 ⟨St.nil, St.nil, St.nil⟩ gram mem with
  | .ok (T, m1) => match St.normalizeTree T.AllChild (2 : ℚ) m1 with
    | .ok (_, m2) => some (readM m1 gram, readM m2 gram)
    | _ => none
  | _ => none

/-- The hypotheses of the theorems on trees are met; after normalising the tree with 2 the upper left entry 4, 9 of the matrix has become 2/4, 0
(the square root of these numbers is the identity). -/
example : ValidM mem gram ∧ matrices = some ([[c [(4, 0), (9, 0)], c [(2, 0), (3, 0)]], [c [(2, 0), (3, 0)], c [(5, 0), (7, 0)]]],
      [[c [(1 / 2, 0), (0, 0)], c [(2, 0), (3, 0)]], [c [(2, 0), (3, 0)], c [(5, 0), (7, 0)]]]) := by
  refine ⟨?_, by decide +kernel⟩
  intro r hr s hs
  refine .inr ?_
  revert r s
  decide

/-- The elements of `G[0][0]` after normalising a tree that contains it twice. -/
private def twice : Option (List ratOps.C) :=
  match St.normalizeTree [St.nil, ⟨0, 0, 2⟩, ⟨0, 0, 2⟩] (2 : ℚ) mem with
  | .ok (_, m) => some (St.read m (⟨0, 0, 2⟩ : St.Slice ratOps.C))
  | _ => none

/-- The result of the model on lists. -/
private def once : Option (List (List ratOps.C)) :=
  match normalizeTree ratOps [[], c [(4, 0), (9, 0)], c [(4, 0), (9, 0)]] (2 : ℚ) with
  | .ok t => some t
  | _ => none

/-- The same slice twice: `4` becomes `2/(2/4)`, where the model on lists has `2/4`. -/
example : twice = some (c [(4, 0), (0, 0)]) ∧ once = some [[], c [(1 / 2, 0), (0, 0)], c [(1 / 2, 0), (0, 0)]] := by
  constructor <;> decide +kernel

end Falcon
