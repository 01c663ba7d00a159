import Verif.Lemmas.Storage2
/-! The Gram matrix, the LDL tree, the sampling recursion and the basis in the storage model. -/

set_option linter.unusedSectionVars false

namespace Falcon.St
open Sl (bind_assoc' idx_drop idx_cases idx_lt)
open LawfulElem

variable {O : FloatOps} {E E' : Type} [Elem O E] [LawfulElem O E] [Elem O E'] [LawfulElem O E']

/-! ### Matrices -/

/-- The elements of a matrix of slices. -/
def readM (m : Mem O) (B : List (List (Slice E))) : List (List (List E)) := B.map (List.map (read m))

/-- All cells are slices of existing arrays. -/
def ValidM (m : Mem O) (B : List (List (Slice E))) : Prop := ∀ r ∈ B, ∀ s ∈ r, Valid m s

/-- All cells are new. -/
def NewM (m0 m : Mem O) (B : List (List (Slice E))) : Prop := ∀ r ∈ B, ∀ s ∈ r, New m0 m s

theorem ValidM.ext {m m' : Mem O} {B : List (List (Slice E))} (h : ValidM m B) (e : Ext m m') : ValidM m' B := fun r hr s hs => (h r hr s hs).ext e

theorem ValidM.read {m m' : Mem O} {B : List (List (Slice E))} (h : ValidM m B) (e : Ext m m') : readM m' B = readM m B :=
  List.map_congr_left fun r hr => List.map_congr_left fun s hs => (h r hr s hs).read e

theorem NewM.valid {m0 m : Mem O} {B : List (List (Slice E))} (h : NewM m0 m B) : ValidM m B := fun r hr s hs => (h r hr s hs).valid

theorem NewM.ext {m0 m m' : Mem O} {B : List (List (Slice E))} (h : NewM m0 m B) (e : Ext m m') : NewM m0 m' B := fun r hr s hs => (h r hr s hs).ext e

theorem NewM.older {m0 m1 m : Mem O} {B : List (List (Slice E))} (h : NewM m1 m B) (e : Ext m0 m1) : NewM m0 m B :=
  fun r hr s hs => (h r hr s hs).older e

theorem idx_map {α β : Type} (f : α → β) (l : List α) (i : Nat) : idx (l.map f) i = (idx l i >>= fun x => .ok (f x)) := by
  unfold idx
  rw [List.getElem?_map]
  cases l[i]? <;> rfl

theorem idx_mem {α : Type} {l : List α} {i : Nat} {x : α} (h : idx l i = .ok x) : x ∈ l := by
  unfold idx at h
  cases e : l[i]? with
  | none => rw [e] at h; cases h
  | some y =>
    rw [e] at h
    cases h
    exact List.mem_of_getElem? e

theorem idx2_read (m : Mem O) (B : List (List (Slice E))) (i j : Nat) : idx2 (readM m B) i j = (idx2 B i j >>= fun s => .ok (read m s)) := by
  unfold idx2 readM
  rw [idx_map, bind_assoc', bind_assoc']
  cases idx B i with
  | ok r => simp only [Go.ok_bind]; rw [idx_map]
  | panic => rfl
  | diverge => rfl

theorem idx2_valid {m : Mem O} {B : List (List (Slice E))} (h : ValidM m B) {i j : Nat} {s : Slice E} (e : idx2 B i j = .ok s) : Valid m s := by
  unfold idx2 at e
  rw [Go.bind_eq_ok] at e
  obtain ⟨r, hr, hs⟩ := e
  exact h r (idx_mem hr) s (idx_mem hs)

/-- A cell of a matrix. -/
theorem cell_gives (m0 m : Mem O) (e : Ext m0 m) (B : List (List (Slice E))) (h : ValidM m B) (i j : Nat) :
    Ref m0 (run (idx2 B i j) m) (idx2 (readM m B) i j) fun s m' l => m' = m ∧ idx2 B i j = .ok s ∧ Valid m s ∧ read m s = l := by
  rw [idx2_read, run_apply]
  cases hs : idx2 B i j with
  | ok s => exact ⟨e, rfl, rfl, idx2_valid h hs, rfl⟩
  | panic => trivial
  | diverge => trivial

/-! ### `Gram` -/

theorem gramCell_gives (B : List (List (Slice O.F))) (i j n k : Nat) (m : Mem O) (hB : ValidM m B) (acc : Slice O.F) (ha : Valid m acc) :
    Ref m (gramCell B i j n k acc m) (Falcon.gramCell O (readM m B) i j n k (read m acc)) fun s m' l =>
      (s = acc ∨ New m m' s) ∧ read m' s = l := by
  induction n generalizing k m acc with
  | zero => exact ⟨Ext.refl m, .inl rfl, rfl⟩
  | succ n ih =>
    unfold gramCell Falcon.gramCell
    refine Ref.bind (cell_gives m m (Ext.refl m) B hB i k) ?_
    rintro bik _ _ - ⟨rfl, -, v1, rfl⟩
    refine Ref.bind (cell_gives _ _ (Ext.refl _) B hB j k) ?_
    rintro bjk m _ - ⟨rfl, -, v2, rfl⟩
    refine Ref.bind (adj_gives m bjk v2) ?_
    rintro adj m1 _ e1 ⟨n1, rfl⟩
    rw [← v1.read e1]
    refine Ref.bind (Ref.older e1 (mul_gives m1 bik adj (v1.ext e1) n1.valid)) ?_
    rintro p m2 _ e2 ⟨⟨n2, rfl⟩, x2⟩
    rw [← ha.read e2]
    refine Ref.bind (Ref.older e2 (add_gives m2 acc p (ha.ext e2) n2.valid)) ?_
    rintro q m3 _ e3 ⟨⟨n3, rfl⟩, x3⟩
    rw [← hB.read e3]
    refine Ref.mono (Ref.older e3 (ih (k + 1) m3 (hB.ext e3) q n3.valid)) ?_
    rintro s m4 _ e4 ⟨⟨h, rfl⟩, x4⟩
    refine ⟨.inr ?_, rfl⟩
    rcases h with rfl | h
    · exact (n3.older e2).ext x4
    · exact h.older e3

theorem gramRow_gives (B : List (List (Slice O.F))) (ncols deg i n j : Nat) (m : Mem O) (hB : ValidM m B) :
    Ref m (gramRow B ncols deg i n j m) (Falcon.gramRow O (readM m B) ncols deg i n j) fun r m' l =>
      (∀ s ∈ r, New m m' s) ∧ r.map (read m') = l := by
  induction n generalizing j m with
  | zero => exact ⟨Ext.refl m, by simp, rfl⟩
  | succ n ih =>
    unfold gramRow Falcon.gramRow
    change Ref m _ (Go.ok (List.replicate deg (O.lit 0)) >>= fun g => Falcon.gramCell O (readM m B) i j ncols 0 g >>= fun c =>
      Falcon.gramRow O (readM m B) ncols deg i n (j + 1) >>= fun r => pure (c :: r)) _
    refine Ref.bind (make_gives m deg) ?_
    rintro g m1 _ e1 ⟨n1, rfl⟩
    rw [← hB.read e1]
    refine Ref.bind (Ref.older e1 (gramCell_gives B i j ncols 0 m1 (hB.ext e1) g n1.valid)) ?_
    rintro c m2 _ e2 ⟨⟨n2, rfl⟩, x2⟩
    rw [hB.read e1, ← hB.read e2]
    have n2 : New m m2 c := by
      rcases n2 with rfl | n2
      · exact n1.ext x2
      · exact n2.older e1
    refine Ref.bind (Ref.older e2 (ih (j + 1) m2 (hB.ext e2))) ?_
    rintro r m3 _ e3 ⟨⟨n3, rfl⟩, x3⟩
    refine ⟨e3, ?_, ?_⟩
    · intro s hs
      rcases List.mem_cons.mp hs with rfl | hs
      · exact n2.ext x3
      · exact (n3 s hs).older e2
    · rw [List.map_cons, n2.valid.read x3]

theorem gramRows_gives (B : List (List (Slice O.F))) (ncols deg n i : Nat) (m : Mem O) (hB : ValidM m B) :
    Ref m (gramRows B ncols deg n i m) (Falcon.gramRows O (readM m B) ncols deg n i) fun r m' l => NewM m m' r ∧ readM m' r = l := by
  induction n generalizing i m with
  | zero => exact ⟨Ext.refl m, by simp [NewM], rfl⟩
  | succ n ih =>
    unfold gramRows Falcon.gramRows
    have hl : (readM m B).length = B.length := by simp [readM]
    rw [hl]
    refine Ref.bind (gramRow_gives B ncols deg i B.length 0 m hB) ?_
    rintro c m1 _ e1 ⟨n1, rfl⟩
    rw [← hB.read e1]
    refine Ref.bind (Ref.older e1 (ih (i + 1) m1 (hB.ext e1))) ?_
    rintro r m2 _ e2 ⟨⟨n2, rfl⟩, x2⟩
    refine ⟨e2, ?_, ?_⟩
    · intro t ht
      rcases List.mem_cons.mp ht with rfl | ht
      · exact fun s hs => (n1 s hs).ext x2
      · exact fun s hs => (n2 t ht s hs).older e1
    · show c.map (read m2) :: _ = _
      rw [List.map_congr_left fun s hs => (n1 s hs).valid.read x2]
      rfl

theorem gram_gives (B : List (List (Slice O.F))) (m : Mem O) (hB : ValidM m B) :
    Ref m (Gram B m) (Falcon.Gram O (readM m B)) fun r m' l => NewM m m' r ∧ readM m' r = l := by
  unfold Gram Falcon.Gram
  have hl : (readM m B).length = B.length := by simp [readM]
  rw [hl]
  unfold readM
  rw [idx_map, bind_assoc']
  refine Ref.bind (Ref.keepOk (Ref.run m (idx B 0))) ?_
  rintro b0 _ _ - ⟨h0, rfl, rfl⟩
  simp only [Go.ok_bind]
  rw [idx_map, bind_assoc', List.length_map]
  refine Ref.bind (Ref.keepOk (Ref.run _ (idx b0 0))) ?_
  rintro b00 m _ - ⟨h1, rfl, rfl⟩
  simp only [Go.ok_bind]
  rw [(hB b0 (idx_mem h0) b00 (idx_mem h1)).read_length]
  exact gramRows_gives B _ _ _ _ m hB

/-! ### `LdlFFT` -/

theorem ones_gives (m : Mem O) (deg : Nat) : Gives m (ones deg m) (.ok (List.replicate deg (O.cplx (O.lit 1) (O.lit 0)))) := by
  have e : ∀ j i, chunks (fun _ => Go.ok [O.cplx (O.lit 1) (O.lit 0)]) j i = .ok (List.replicate j (O.cplx (O.lit 1) (O.lit 0))) := by
    intro j
    induction j with
    | zero => exact fun _ => rfl
    | succ j ih =>
      intro i
      unfold chunks
      rw [ih]
      rfl
  rw [← e deg 0]
  refine Gives.fill (fun s i => oneBody s i) _ 1 deg deg m (by omega) (fun _ _ h => by cases h; rfl) ?_
  intro s _ h0 hl i hi A hA M _
  have := store_whole h0 M A i (O.cplx (O.lit 1) (O.lit 0)) (by omega)
  unfold oneBody
  rw [this, set_one A i _ (by omega)]
  simp only [Go.ok_bind, Nat.one_mul]

/-- Two slices without a common array. -/
def Disj (s t : Slice E) : Prop := s.len = 0 ∨ t.len = 0 ∨ s.id ≠ t.id

theorem Disj.of_new {m0 m : Mem O} {s t : Slice E} (hs : Valid m0 s) (ht : New m0 m t) : Disj t s := by
  rcases hs with h | h
  · exact .inr (.inl h)
  rcases ht with rfl | h'
  · exact .inl rfl
  · exact .inr (.inr (by omega))

/-- What `LdlFFT` returns: `D[0][0]` is the slice `G[0][0]` of the caller, the other entries are new. -/
def Ldl (m m' : Mem O) (G : List (List (Slice O.C))) (r : List (List (Slice O.C)) × List (List (Slice O.C))) : Prop :=
  ∃ one zero l10 d11 g00, r = ([[one, zero], [l10, one]], [[g00, zero], [zero, d11]]) ∧ idx2 G 0 0 = .ok g00 ∧
    New m m' one ∧ New m m' zero ∧ New m m' l10 ∧ New m m' d11 ∧ Disj d11 l10

theorem ldlFFT_gives (G : List (List (Slice O.C))) (m : Mem O) (hG : ValidM m G) :
    Ref m (LdlFFT G m) (Falcon.LdlFFT O (readM m G)) fun r m' l => Ldl m m' G r ∧ readM m' r.1 = l.1 ∧ readM m' r.2 = l.2 := by
  unfold LdlFFT Falcon.LdlFFT
  refine Ref.bind (cell_gives m m (Ext.refl m) G hG 0 0) ?_
  rintro g00 _ _ - ⟨rfl, h00, v00, rfl⟩
  rename_i m
  have hl : (readM m G).length = G.length := by simp [readM]
  have hi : idx (readM m G) 0 = (idx G 0 >>= fun r => .ok (r.map (read m))) := idx_map _ _ _
  simp only [hl, hi, v00.read_length, bind_assoc', Go.ok_bind]
  refine Ref.bind (Ref.run m (idx G 0)) ?_
  rintro g0 _ _ - ⟨rfl, rfl⟩
  rename_i m
  rw [List.length_map]
  split_ifs with hc
  · exact trivial
  change Ref m _ (Go.ok (List.replicate g00.len (O.cplx (O.lit 0) (O.lit 0))) >>= fun zero =>
    Go.ok (List.replicate g00.len (O.cplx (O.lit 1) (O.lit 0))) >>= fun one =>
    idx2 (readM m G) 1 0 >>= fun g10 => Falcon.DivFFT O g10 (read m g00) >>= fun L10 => idx2 (readM m G) 1 1 >>= fun g11 =>
    Go.ok (Falcon.AdjFFT O L10) >>= fun a => Falcon.MulFFT O L10 a >>= fun p => Falcon.MulFFT O p (read m g00) >>= fun p =>
    Falcon.SubFFT O g11 p >>= fun D11 => pure ([[one, zero], [L10, one]], [[read m g00, zero], [zero, D11]])) _
  refine Ref.bind (make_gives m g00.len) ?_
  rintro zero m1 _ e1 ⟨nz, rfl⟩
  refine Ref.bind (Ref.older e1 (ones_gives m1 g00.len)) ?_
  rintro one m2 _ e2 ⟨⟨no, rfl⟩, x2⟩
  rw [← hG.read e2]
  refine Ref.bind (cell_gives m m2 e2 G (hG.ext e2) 1 0) ?_
  rintro g10 _ _ - ⟨rfl, -, v10, rfl⟩
  rename_i m2
  rw [← v00.read e2]
  refine Ref.bind (Ref.older e2 (divFFT_gives m2 g10 g00 v10 (v00.ext e2))) ?_
  rintro l10 m3 _ e3 ⟨⟨nl, rfl⟩, x3⟩
  rw [hG.read e2, ← hG.read e3]
  refine Ref.bind (cell_gives m m3 e3 G (hG.ext e3) 1 1) ?_
  rintro g11 _ _ - ⟨rfl, -, v11, rfl⟩
  rename_i m3
  refine Ref.bind (Ref.older e3 (adjFFT_gives m3 l10 nl.valid)) ?_
  rintro a m4 _ e4 ⟨⟨na, rfl⟩, x4⟩
  rw [← nl.valid.read x4]
  refine Ref.bind (Ref.older e4 (mulFFT_gives m4 l10 a (nl.valid.ext x4) na.valid)) ?_
  rintro p m5 _ e5 ⟨⟨np, rfl⟩, x5⟩
  rw [v00.read e2, ← v00.read e5]
  refine Ref.bind (Ref.older e5 (mulFFT_gives m5 p g00 np.valid (v00.ext e5))) ?_
  rintro q m6 _ e6 ⟨⟨nq, rfl⟩, x6⟩
  rw [← v11.read (x4.trans (x5.trans x6))]
  refine Ref.bind (Ref.older e6 (subFFT_gives m6 g11 q (v11.ext (x4.trans (x5.trans x6))) nq.valid)) ?_
  rintro d11 m7 _ e7 ⟨⟨nd, rfl⟩, x7⟩
  have y3 := x4.trans (x5.trans (x6.trans x7))
  have y2 := x3.trans y3
  have y1 := x2.trans y2
  refine ⟨e7, ⟨one, zero, l10, d11, g00, rfl, h00, (no.older e1).ext y2, nz.ext y1, (nl.older e2).ext y3, nd.older e6, Disj.of_new (nl.valid.ext (x4.trans (x5.trans x6))) nd⟩, ?_, ?_⟩
  · simp [readM, no.valid.read y2, nz.valid.read y1, nl.valid.read (x4.trans (x5.trans (x6.trans x7))), nl.valid.read x4]
  · simp [readM, nz.valid.read y1, v00.read e7, v00.read e5]

/-! ### `FfldlFFT` -/

/-- What `FfldlFFT` returns: for `n = 2` the left child is the slice `G[0][0]` of the caller, the other slices are new. -/
def Tree (m m' : Mem O) (G : List (List (Slice O.C))) (T : FFTtree O) : Prop :=
  (∃ g00, idx2 G 0 0 = .ok g00 ∧ (if g00.len = 2 then T.Leftchild = g00 else New m m' T.Leftchild)) ∧ New m m' T.Value ∧ New m m' T.Rightchild ∧
    Disj T.Leftchild T.Rightchild ∧ Disj T.Leftchild T.Value ∧ Disj T.Rightchild T.Value

theorem Disj.symm {s t : Slice E} (h : Disj s t) : Disj t s := by
  rcases h with h | h | h
  · exact .inr (.inl h)
  · exact .inl h
  · exact .inr (.inr h.symm)

theorem ffldlFFT_gives (fuel : Nat) (T : FFTtree O) (t : Falcon.FFTtree O) (G : List (List (Slice O.C))) (m : Mem O) (hG : ValidM m G) :
    Ref m (FfldlFFT fuel T G m) (Falcon.FfldlFFT O fuel t (readM m G)) fun T' m' t' => Tree m m' G T' ∧ T'.value m' = t' := by
  induction fuel generalizing T t G m with
  | zero => trivial
  | succ fuel ih =>
    unfold FfldlFFT Falcon.FfldlFFT
    refine Ref.bind (cell_gives m m (Ext.refl m) G hG 0 0) ?_
    rintro g00 _ _ - ⟨rfl, h00, v00, rfl⟩
    rename_i m
    simp only [v00.read_length]
    refine Ref.bind (ldlFFT_gives G m hG) ?_
    rintro ⟨L, D⟩ m1 ⟨l, d⟩ e1 ⟨⟨one, zero, l10, d11, g, hr, hg, no, nz, nl, nd, dj⟩, r1, r2⟩
    obtain rfl : g00 = g := by rw [h00] at hg; cases hg; rfl
    obtain ⟨rfl, rfl⟩ := Prod.mk.injEq .. ▸ hr
    dsimp only at r1 r2
    subst r1 r2
    by_cases h2 : g00.len = 2
    · simp only [if_pos h2]
      refine ⟨e1, ⟨⟨g00, h00, ?_⟩, nl, nd, (Disj.of_new v00 nd).symm, (Disj.of_new v00 nl).symm, dj⟩, rfl⟩
      rw [if_pos h2]
    · simp only [if_neg h2]
      change Ref m ((SplitFFT g00 >>= fun s0 => SplitFFT d11 >>= fun s1 => AdjFFT s0.2 >>= fun a0 => AdjFFT s1.2 >>= fun a1 =>
          FfldlFFT fuel ⟨l10, T.Leftchild, T.Rightchild⟩ [[s0.1, s0.2], [a0, s0.1]] >>= fun T =>
          FfldlFFT fuel T [[s1.1, s1.2], [a1, s1.1]]) m1)
        (Falcon.SplitFFT O (read m1 g00) >>= fun s0 => Falcon.SplitFFT O (read m1 d11) >>= fun s1 =>
          Go.ok (Falcon.AdjFFT O s0.2) >>= fun a0 => Go.ok (Falcon.AdjFFT O s1.2) >>= fun a1 =>
          Falcon.FfldlFFT O fuel ⟨read m1 l10, t.Leftchild, t.Rightchild⟩ [[s0.1, s0.2], [a0, s0.1]] >>= fun T =>
          Falcon.FfldlFFT O fuel T [[s1.1, s1.2], [a1, s1.1]]) _
      refine Ref.bind (Ref.older e1 (splitFFT_gives m1 g00 (v00.ext e1))) ?_
      rintro ⟨s0, s0'⟩ m2 ⟨_, _⟩ e2 ⟨⟨⟨n2, rfl⟩, n2', rfl⟩, x2⟩
      rw [← nd.valid.read x2]
      refine Ref.bind (Ref.older e2 (splitFFT_gives m2 d11 (nd.valid.ext x2))) ?_
      rintro ⟨s1, s1'⟩ m3 ⟨_, _⟩ e3 ⟨⟨⟨n3, rfl⟩, n3', rfl⟩, x3⟩
      dsimp only
      rw [← n2.valid.read x3, ← n2'.valid.read x3]
      refine Ref.bind (Ref.older e3 (adjFFT_gives m3 s0' (n2'.valid.ext x3))) ?_
      rintro a0 m4 _ e4 ⟨⟨n4, rfl⟩, x4⟩
      rw [← n3'.valid.read x4]
      refine Ref.bind (Ref.older e4 (adjFFT_gives m4 s1' (n3'.valid.ext x4))) ?_
      rintro a1 m5 _ e5 ⟨⟨n5, rfl⟩, x5⟩
      rw [n2'.valid.read x3, n2.valid.read x3, n3'.valid.read x4]
      have v0 : Valid m5 s0 := n2.valid.ext (x3.trans (x4.trans x5))
      have v0' : Valid m5 s0' := n2'.valid.ext (x3.trans (x4.trans x5))
      have w0 : Valid m5 a0 := n4.valid.ext x5
      have v1 : Valid m5 s1 := n3.valid.ext (x4.trans x5)
      have v1' : Valid m5 s1' := n3'.valid.ext (x4.trans x5)
      have hG0 : ValidM m5 [[s0, s0'], [a0, s0]] := by simp [ValidM, v0, v0', w0]
      have hG1 : ValidM m5 [[s1, s1'], [a1, s1]] := by simp [ValidM, v1, v1', n5.valid]
      have r0 : readM m5 [[s0, s0'], [a0, s0]] = [[read m2 s0, read m2 s0'], [read m4 a0, read m2 s0]] := by
        simp [readM, n2.valid.read (x3.trans (x4.trans x5)), n2'.valid.read (x3.trans (x4.trans x5)), n4.valid.read x5]
      have r1 : readM m5 [[s1, s1'], [a1, s1]] = [[read m3 s1, read m3 s1'], [read m5 a1, read m3 s1]] := by
        simp [readM, n3.valid.read (x4.trans x5), n3'.valid.read (x4.trans x5)]
      rw [← r0, ← r1]
      refine Ref.bind (Ref.older e5 (ih _ _ _ m5 hG0)) ?_
      rintro T1 m6 _ e6 ⟨⟨-, rfl⟩, x6⟩
      rw [← hG1.read x6]
      refine Ref.mono (Ref.older e6 (ih _ _ _ m6 (hG1.ext x6))) ?_
      rintro T2 m7 _ e7 ⟨⟨⟨⟨g, hg, hl⟩, hv, hr, dd⟩, rfl⟩, x7⟩
      refine ⟨⟨⟨g00, h00, ?_⟩, hv.older e6, hr.older e6, dd⟩, rfl⟩
      rw [if_neg h2]
      split_ifs at hl
      · obtain rfl : s1 = g := by
          change Go.ok s1 = Go.ok g at hg
          cases hg
          rfl
        rw [hl]
        exact ((n3.older e2).ext (x4.trans (x5.trans (x6.trans x7))))
      · exact hl.older e6

/-! ### `FfSamplingFFT` -/

theorem load_gives (m0 m : Mem O) (e : Ext m0 m) (s : Slice E) (i : Nat) :
    Ref m0 (load s i m) (idx (read m s) i) fun v m' l => m' = m ∧ v = l ∧ idx (read m s) i = .ok l := by
  rw [load_apply]
  cases h : idx (read m s) i with
  | ok v => exact ⟨e, rfl, rfl, rfl⟩
  | panic => trivial
  | diverge => trivial

theorem ffSampling_gives (rand : Rand) (T : FFTtree O) (V : Falcon.FFTtree O) (sigmin : O.F) (fuel : Nat) (t : Slice O.C × Slice O.C) (pos : Nat)
    (m : Mem O) (hT : Valid m T.Value) (hV : V.Value = read m T.Value) (h1 : Valid m t.1) (h2 : Valid m t.2) :
    Ref m (FfSamplingFFT rand T sigmin fuel t pos m) (Falcon.FfSamplingFFT O rand V sigmin fuel (read m t.1, read m t.2) pos)
      fun z m' l => New m m' z.1.1 ∧ New m m' z.1.2 ∧ (read m' z.1.1, read m' z.1.2) = l.1 ∧ z.2 = l.2 := by
  induction fuel generalizing t pos m with
  | zero => trivial
  | succ fuel ih =>
    obtain ⟨t1, t2⟩ := t
    dsimp only at h1 h2
    unfold FfSamplingFFT Falcon.FfSamplingFFT
    simp only [h1.read_length]
    have z0 := lits_gives (E := O.C) m [O.cplx (O.lit 0) (O.lit 0)]
    change Ref m _ (Go.ok [O.cplx (O.lit 0) (O.lit 0)] >>= fun z0 => Go.ok [O.cplx (O.lit 0) (O.lit 0)] >>= fun z1 => if t1.len > 1 then _
      else if t1.len = 1 then _ else pure ((z0, z1), pos)) _
    refine Ref.bind z0 ?_
    rintro z0 ma _ ea ⟨na, rfl⟩
    refine Ref.bind (Ref.older ea (lits_gives ma _)) ?_
    rintro z1 mb _ eb ⟨⟨nb, rfl⟩, xb⟩
    split_ifs with c1 c2
    · rw [← h2.read eb]
      refine Ref.bind (Ref.older eb (splitFFT_gives mb t2 (h2.ext eb))) ?_
      rintro ⟨s, s'⟩ m1 ⟨_, _⟩ e1 ⟨⟨⟨n1, rfl⟩, n1', rfl⟩, x1⟩
      refine Ref.bind (Ref.older e1 (ih (s, s') pos m1 (hT.ext e1) (hV.trans (hT.read e1).symm) n1.valid n1'.valid)) ?_
      rintro ⟨⟨u, u'⟩, pos1⟩ m2 ⟨⟨_, _⟩, _⟩ e2 ⟨⟨n2, n2', hu, rfl⟩, x2⟩
      cases hu
      refine Ref.bind (Ref.older e2 (mergeFFT_gives m2 u u' n2.valid n2'.valid)) ?_
      rintro z1 m3 _ e3 ⟨⟨n3, rfl⟩, x3⟩
      rw [h2.read eb, ← h2.read e3]
      refine Ref.bind (Ref.older e3 (subFFT_gives m3 t2 z1 (h2.ext e3) n3.valid)) ?_
      rintro d m4 _ e4 ⟨⟨n4, rfl⟩, x4⟩
      rw [hV, ← hT.read e4]
      refine Ref.bind (Ref.older e4 (mulFFT_gives m4 d T.Value n4.valid (hT.ext e4))) ?_
      rintro p m5 _ e5 ⟨⟨n5, rfl⟩, x5⟩
      rw [← h1.read e5]
      refine Ref.bind (Ref.older e5 (addFFT_gives m5 t1 p (h1.ext e5) n5.valid)) ?_
      rintro q m6 _ e6 ⟨⟨n6, rfl⟩, x6⟩
      refine Ref.bind (Ref.older e6 (splitFFT_gives m6 q n6.valid)) ?_
      rintro ⟨v, v'⟩ m7 ⟨_, _⟩ e7 ⟨⟨⟨n7, rfl⟩, n7', rfl⟩, x7⟩
      refine Ref.bind (Ref.older e7 (ih (v, v') pos1 m7 (hT.ext e7) (hV.trans (hT.read e7).symm) n7.valid n7'.valid)) ?_
      rintro ⟨⟨w, w'⟩, pos2⟩ m8 ⟨⟨_, _⟩, _⟩ e8 ⟨⟨n8, n8', hw, rfl⟩, x8⟩
      cases hw
      refine Ref.bind (Ref.older e8 (mergeFFT_gives m8 w w' n8.valid n8'.valid)) ?_
      rintro z0 m9 _ e9 ⟨⟨n9, rfl⟩, x9⟩
      have y3 := x4.trans (x5.trans (x6.trans (x7.trans (x8.trans x9))))
      exact ⟨e9, n9.older e8, (n3.older e2).ext y3, by rw [n3.valid.read y3], rfl⟩
    · have hv : V.Value = read mb T.Value := hV.trans (hT.read eb).symm
      rw [← h1.read eb, hv]
      refine Ref.bind (load_gives m mb eb t1 0) ?_
      rintro x _ _ - ⟨rfl, rfl, -⟩
      rename_i mb
      refine Ref.bind (load_gives m mb eb T.Value 0) ?_
      rintro y _ _ - ⟨rfl, rfl, hy⟩
      rename_i mb
      refine Ref.bind (Ref.older eb (Ref.run mb _)) ?_
      rintro ⟨a, p1⟩ _ _ - ⟨⟨rfl, rfl⟩, -⟩
      rename_i mb
      change Ref m _ (Go.ok [O.cplx (O.ofInt a.toInt) (O.lit 0)] >>= fun z0 => idx (read m t2) 0 >>= fun t1 => Go.ok y >>= fun y =>
        Samplerz O rand (O.re t1) (O.re y) sigmin (fuel + 1) p1 >>= fun b =>
        Go.ok [O.cplx (O.ofInt b.1.toInt) (O.lit 0)] >>= fun z1 => pure ((z0, z1), b.2)) _
      refine Ref.bind (Ref.older eb (lits_gives mb _)) ?_
      rintro z0 m1 _ e1 ⟨⟨n1, rfl⟩, x1⟩
      rw [← h2.read e1, ← hy, hT.read eb, ← hT.read e1]
      refine Ref.bind (load_gives m m1 e1 t2 0) ?_
      rintro x' _ _ - ⟨rfl, rfl, -⟩
      rename_i m1
      refine Ref.bind (load_gives m m1 e1 T.Value 0) ?_
      rintro y' _ _ - ⟨rfl, rfl, -⟩
      rename_i m1
      refine Ref.bind (Ref.older e1 (Ref.run m1 _)) ?_
      rintro ⟨b, p2⟩ _ _ - ⟨⟨rfl, rfl⟩, -⟩
      rename_i m1
      refine Ref.bind (Ref.older e1 (lits_gives m1 _)) ?_
      rintro z1 m2 _ e2 ⟨⟨n2, rfl⟩, x2⟩
      exact ⟨e2, (n1.older eb).ext x2, n2.older e1, by rw [n1.valid.read x2], rfl⟩
    · refine ⟨eb, na.ext xb, nb.older ea, ?_, rfl⟩
      rw [na.valid.read xb]

/-! ### `basisAndMatrix` -/

theorem fftRow_gives (row : List (Slice O.F)) (m : Mem O) (h : ∀ s ∈ row, Valid m s) :
    Ref m (fftRow row m) ((row.map (read m)).mapM (Falcon.FFT O)) fun r m' l => (∀ s ∈ r, New m m' s) ∧ r.map (read m') = l := by
  induction row generalizing m with
  | nil => exact ⟨Ext.refl m, by simp, rfl⟩
  | cons f row ih =>
    rw [List.map_cons, List.mapM_cons]
    refine Ref.bind (fft_gives m f (h f (by simp))) ?_
    rintro a m1 _ e1 ⟨n1, rfl⟩
    have hr : row.map (read m) = row.map (read m1) := List.map_congr_left fun s hs => ((h s (by simp [hs])).read e1).symm
    rw [hr]
    refine Ref.bind (Ref.older e1 (ih m1 fun s hs => (h s (by simp [hs])).ext e1)) ?_
    rintro r m2 _ e2 ⟨⟨n2, rfl⟩, x2⟩
    refine ⟨e2, ?_, ?_⟩
    · intro s hs
      rcases List.mem_cons.mp hs with rfl | hs
      · exact n1.ext x2
      · exact (n2 s hs).older e1
    · rw [List.map_cons, n1.valid.read x2]

theorem fft3D_gives (p : List (List (Slice O.F))) (m : Mem O) (h : ValidM m p) :
    Ref m (fft3D p m) (Falcon.fft3D O (readM m p)) fun r m' l => NewM m m' r ∧ readM m' r = l := by
  induction p generalizing m with
  | nil => exact ⟨Ext.refl m, by simp [NewM], rfl⟩
  | cons row p ih =>
    have hp : ValidM m p := fun r hr => h r (by simp [hr])
    show Ref m _ ((readM m (row :: p)).mapM _) _
    unfold readM
    rw [List.map_cons, List.mapM_cons]
    refine Ref.bind (fftRow_gives row m (h row (by simp))) ?_
    rintro c m1 _ e1 ⟨n1, rfl⟩
    rw [show p.map (List.map (read m)) = readM m1 p from (hp.read e1).symm]
    refine Ref.bind (Ref.older e1 (ih m1 (hp.ext e1))) ?_
    rintro r m2 _ e2 ⟨⟨n2, rfl⟩, x2⟩
    refine ⟨e2, ?_, ?_⟩
    · intro t ht
      rcases List.mem_cons.mp ht with rfl | ht
      · exact fun s hs => (n1 s hs).ext x2
      · exact fun s hs => (n2 t ht s hs).older e1
    · rw [List.map_cons, List.map_congr_left fun s hs => (n1 s hs).valid.read x2]
      rfl

/-- The tree of a basis is made of new arrays that no other polynomial uses. -/
theorem basis_gives (fuel : Nat) (f g F G : List Int16) (m : Mem O) :
    Ref m (basisAndMatrix fuel f g F G m) (Falcon.basisAndMatrix O fuel f g F G) fun r m' l =>
      (NewM m m' r.1 ∧ readM m' r.1 = l.1) ∧ (New m m' r.2.Value ∧ New m m' r.2.Leftchild ∧ New m m' r.2.Rightchild) ∧ r.2.value m' = l.2 ∧
        (Disj r.2.Leftchild r.2.Rightchild ∧ Disj r.2.Leftchild r.2.Value ∧ Disj r.2.Rightchild r.2.Value) ∧
        ∀ row ∈ r.1, ∀ s ∈ row, Disj r.2.Leftchild s ∧ Disj r.2.Rightchild s ∧ Disj r.2.Value s := by
  change Ref m _ (Go.ok (Falcon.Int16ToFloat64 O g) >>= fun g => Go.ok (Falcon.Int16ToFloat64 O f) >>= fun f => Go.ok (Falcon.Neg O f) >>= fun f =>
    Go.ok (Falcon.Int16ToFloat64 O G) >>= fun G => Go.ok (Falcon.Int16ToFloat64 O F) >>= fun F => Go.ok (Falcon.Neg O F) >>= fun F =>
    Falcon.Gram O [[g, f], [G, F]] >>= fun G0 => Falcon.fft3D O [[g, f], [G, F]] >>= fun B0FFT => Falcon.fft3D O G0 >>= fun G0FFT =>
    Falcon.FfldlFFT O fuel ⟨[], [], []⟩ G0FFT >>= fun T => pure (B0FFT, T)) _
  refine Ref.bind (lits_gives m _) ?_
  rintro g m1 _ e1 ⟨n1, rfl⟩
  refine Ref.bind (Ref.older e1 (lits_gives m1 _)) ?_
  rintro f' m2 _ e2 ⟨⟨n2, rfl⟩, x2⟩
  refine Ref.bind (Ref.older e2 (neg_gives m2 f' n2.valid)) ?_
  rintro f m3 _ e3 ⟨⟨n3, rfl⟩, x3⟩
  refine Ref.bind (Ref.older e3 (lits_gives m3 _)) ?_
  rintro G m4 _ e4 ⟨⟨n4, rfl⟩, x4⟩
  refine Ref.bind (Ref.older e4 (lits_gives m4 _)) ?_
  rintro F' m5 _ e5 ⟨⟨n5, rfl⟩, x5⟩
  refine Ref.bind (Ref.older e5 (neg_gives m5 F' n5.valid)) ?_
  rintro F m6 _ e6 ⟨⟨n6, rfl⟩, x6⟩
  have y1 := x2.trans (x3.trans (x4.trans (x5.trans x6)))
  have y3 := x4.trans (x5.trans x6)
  have y4 := x5.trans x6
  have hB : ValidM m6 [[g, f], [G, F]] := by simp [ValidM, n1.valid.ext y1, n3.valid.ext y3, n4.valid.ext y4, n6.valid]
  have hr : readM m6 [[g, f], [G, F]] = [[read m1 g, read m3 f], [read m4 G, read m6 F]] := by
    simp [readM, n1.valid.read y1, n3.valid.read y3, n4.valid.read y4]
  rw [← hr]
  refine Ref.bind (Ref.older e6 (gram_gives _ m6 hB)) ?_
  rintro G0 m7 _ e7 ⟨⟨n7, rfl⟩, x7⟩
  rw [← hB.read x7]
  refine Ref.bind (Ref.older e7 (fft3D_gives _ m7 (hB.ext x7))) ?_
  rintro BF m8 _ e8 ⟨⟨n8, rfl⟩, x8⟩
  rw [← n7.valid.read x8]
  refine Ref.bind (Ref.older e8 (fft3D_gives _ m8 (n7.valid.ext x8))) ?_
  rintro GF m9 _ e9 ⟨⟨n9, rfl⟩, x9⟩
  refine Ref.bind (Ref.older e9 (ffldlFFT_gives fuel _ _ GF m9 n9.valid)) ?_
  rintro T m10 _ e10 ⟨⟨⟨⟨g00, hg, hl⟩, nv, nr, dd⟩, rfl⟩, x10⟩
  have nl : New m8 m10 T.Leftchild := by
    split_ifs at hl
    · have : New m8 m9 g00 := by
        unfold idx2 at hg
        rw [Go.bind_eq_ok] at hg
        obtain ⟨r, hr, hs⟩ := hg
        exact n9 r (idx_mem hr) g00 (idx_mem hs)
      rw [hl]
      exact this.ext x10
    · exact hl.older x9
  have y8 := x9.trans x10
  refine ⟨e10, ⟨(n8.older e7).ext y8, n8.valid.read y8⟩, ⟨nv.older e9, nl.older e8, nr.older e9⟩, rfl, dd, ?_⟩
  intro row hrow s hs
  have v := n8.valid row hrow s hs
  exact ⟨Disj.of_new v nl, Disj.of_new v (nr.older x9), Disj.of_new v (nv.older x9)⟩

/-! ### `normalizeTree` -/

/-- A store through one slice is not visible through a slice of another array. -/
theorem Disj.read {s t : Slice E} (h : Disj s t) (hs : s.len ≠ 0) (m : Mem O) (l : List E) : St.read (Elem.set m s.id l) t = St.read m t := by
  refine Off.read ?_ m l
  rcases h with h | h | h
  · exact absurd h hs
  · exact .inr h
  · exact .inl h.symm

/-- The memory in which the elements of a slice are replaced by those of `l`. -/
def put (m : Mem O) (t : Slice E) (l : List E) : Mem O :=
  Elem.set m t.id ((Elem.get m t.id).take t.off ++ l ++ (Elem.get m t.id).drop (t.off + t.len))

theorem read_put (m : Mem O) (t : Slice E) (l : List E) (h : Valid m t) (hl : l.length = t.len) : read (put m t l) t = l := by
  unfold put St.read
  rw [get_self]
  rcases h with h | h
  · rw [h] at hl ⊢
    rw [List.length_eq_zero_iff.mp hl]
    rfl
  · have h1 : ((Elem.get m t.id).take t.off : List E).length = t.off := by rw [List.length_take]; omega
    rw [List.append_assoc, List.drop_append_of_le_length (by omega), List.drop_of_length_le (by omega), List.nil_append, ← hl, List.take_left]

theorem put_read (m : Mem O) (t t' : Slice E) (l : List E) (h : Disj t t') (h0 : t.len ≠ 0) : read (put m t l) t' = read m t' := h.read h0 m _

theorem set_put (A : List E) (a n i : Nat) (v : E) (hi : i < n) (hn : a + n ≤ A.length) :
    A.set (a + i) v = A.take a ++ ((A.drop a).take n).set i v ++ A.drop (a + n) := by
  have hA : A = A.take a ++ (A.drop a).take n ++ A.drop (a + n) := by
    rw [List.append_assoc, ← List.drop_drop, List.take_append_drop, List.take_append_drop]
  have h1 : (A.take a).length = a := by rw [List.length_take]; omega
  have h2 : ((A.drop a).take n).length = n := by rw [List.length_take, List.length_drop]; omega
  generalize A.take a = P at hA h1 ⊢
  generalize (A.drop a).take n = M at hA h2 ⊢
  generalize A.drop (a + n) = S at hA ⊢
  subst hA
  rw [List.append_assoc, List.set_append_right _ _ (by omega), List.set_append_left _ _ (by omega), h1, Nat.add_sub_cancel_left, List.append_assoc]

theorem store_put (m : Mem O) (t : Slice E) (i : Nat) (v : E) (h : Valid m t) (hi : i < t.len) :
    store t i v m = .ok ((), put m t ((read m t).set i v)) := by
  rw [store_apply t i v m hi]
  unfold put St.read
  rw [set_put _ t.off t.len i v hi (by rcases h with h | h <;> omega)]

theorem put_valid (m : Mem O) (t t' : Slice E) (l : List E) (h : Valid m t) (hl : l.length = t.len) (h' : Valid m t') : Valid (put m t l) t' := by
  refine h'.imp id fun ⟨h1, h2⟩ => ?_
  unfold put
  rw [next_set]
  refine ⟨h1, ?_⟩
  by_cases e : t'.id = t.id
  · rw [e, get_self, List.length_append, List.length_append, hl, List.length_take, List.length_drop]
    rw [e] at h2
    rcases h with h | h <;> omega
  · rw [get_ne _ _ _ _ e]
    exact h2

theorem put_put (m : Mem O) (t : Slice E) (l l' : List E) (h : Valid m t) (h0 : t.len ≠ 0) (hl : l.length = t.len) :
    put (put m t l) t l' = put m t l' := by
  unfold put
  rw [get_self, set_set]
  congr 1
  rcases h with h | h
  · exact absurd h h0
  · have h1 : ((Elem.get m t.id).take t.off : List E).length = t.off := by rw [List.length_take]; omega
    congr 1
    · congr 1
      rw [List.append_assoc, List.take_append_of_le_length (by omega), List.take_of_length_le (by omega)]
    · exact List.drop_left' (by rw [List.length_append, h1, hl])

/-- The memory after `normalizeLeaf`: the elements of one slice are changed. -/
theorem normalizeLeaf_eq (t : Slice O.C) (sigma : O.F) (m : Mem O) (h : Valid m t) :
    normalizeLeaf t sigma m = (Falcon.normalizeLeaf O (read m t) sigma >>= fun l => .ok ((), put m t l)) := by
  have hl := h.read_length
  unfold normalizeLeaf Falcon.normalizeLeaf
  rw [bind_apply, load_apply, bind_assoc', bind_assoc']
  by_cases h0 : 0 < t.len
  · rw [idx_lt (by omega)]
    simp only [Go.ok_bind]
    rw [bind_apply, store_put m t 0 _ h h0]
    simp only [Go.ok_bind]
    by_cases h1 : 1 < t.len
    · rw [idx_lt (i := 1) (by omega)]
      rw [store_put _ t 1 _ (put_valid m t t _ h (by rw [List.length_set, hl]) h) h1, read_put m t _ h (by rw [List.length_set, hl]),
        put_put m t _ _ h (by omega) (by rw [List.length_set, hl])]
      rfl
    · have : idx (read m t) 1 = .panic := by
        unfold idx
        rw [List.getElem?_eq_none (by omega)]
      rw [this]
      show store t 1 _ _ = _
      unfold store
      rw [if_neg h1]
      rfl
  · have : idx (read m t) 0 = .panic := by
      unfold idx
      rw [List.getElem?_eq_none (by omega)]
    rw [this]
    rfl

theorem normalizeLeaf_length (l l' : List O.C) (sigma : O.F) (h : Falcon.normalizeLeaf O l sigma = .ok l') : l'.length = l.length ∧ l.length ≠ 0 := by
  unfold Falcon.normalizeLeaf at h
  rw [Go.bind_eq_ok] at h
  obtain ⟨x, hx, h⟩ := h
  rw [Go.bind_eq_ok] at h
  obtain ⟨y, _, h⟩ := h
  cases h
  refine ⟨by simp, fun h0 => ?_⟩
  rw [List.length_eq_zero_iff.mp h0] at hx
  cases hx

/-- The array after `normalizeLeaf`: two elements are changed. -/
theorem normalizeLeaf_mem (t : Slice O.C) (sigma : O.F) (m : Mem O) (h : Valid m t) (l : List O.C)
    (hl : Falcon.normalizeLeaf O (read m t) sigma = .ok l) : ∃ v w : O.C, put m t l = Elem.set m t.id (((Elem.get m t.id).set t.off v).set (t.off + 1) w) := by
  have hr := h.read_length
  unfold Falcon.normalizeLeaf at hl
  rw [Go.bind_eq_ok] at hl
  obtain ⟨x, hx, hl⟩ := hl
  rw [Go.bind_eq_ok] at hl
  obtain ⟨y, hy, hl⟩ := hl
  have h1 : 1 < t.len := by
    rw [← hr]
    by_contra hc
    unfold idx at hy
    rw [List.getElem?_eq_none (by omega)] at hy
    cases hy
  cases hl
  refine ⟨O.cplx (O.div sigma (O.sqrt (O.re x))) (O.lit 0), O.cplx (O.lit 0) (O.lit 0), ?_⟩
  have a := store_put m t 0 (O.cplx (O.div sigma (O.sqrt (O.re x))) (O.lit 0)) h (by omega)
  have v := put_valid m t t ((read m t).set 0 (O.cplx (O.div sigma (O.sqrt (O.re x))) (O.lit 0))) h (by rw [List.length_set, hr]) h
  have b := store_put _ t 1 (O.cplx (O.lit 0) (O.lit 0)) v h1
  rw [store_apply _ _ _ _ (by omega)] at a
  rw [read_put m t _ h (by rw [List.length_set, hr]), put_put m t _ _ h (by omega) (by rw [List.length_set, hr]), store_apply _ _ _ _ h1] at b
  have a' := congrArg (fun z => match z with | Go.ok (_, m') => m' | _ => m) a
  have b' := congrArg (fun z => match z with | Go.ok (_, m') => m' | _ => m) b
  dsimp only at a' b'
  rw [← b', ← a', get_self, set_set]
  rfl

end Falcon.St
