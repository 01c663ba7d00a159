import Verif.Model.StorageNp
import Verif.Props.Storage
/-!
# C87 for `FfnpFFT`
-/

namespace Falcon.St

variable {O : FloatOps}

/-- The vectors of all nodes are slices of existing arrays. -/
def NpTree.Ok (m : Mem O) : NpTree O → Prop
  | .node l10 T0 T1 => Valid m l10 ∧ T0.Ok m ∧ T1.Ok m
  | .other => True

theorem NpTree.Ok.ext {m m' : Mem O} (e : Ext m m') : ∀ {T : NpTree O}, T.Ok m → T.Ok m'
  | .node _ _ _, ⟨h, h0, h1⟩ => ⟨h.ext e, NpTree.Ok.ext e h0, NpTree.Ok.ext e h1⟩
  | .other, _ => trivial

theorem NpTree.Ok.value {m m' : Mem O} (e : Ext m m') : ∀ {T : NpTree O}, T.Ok m → T.value m' = T.value m
  | .node _ _ _, ⟨h, h0, h1⟩ => by
    simp only [NpTree.value]
    rw [h.read e, NpTree.Ok.value e h0, NpTree.Ok.value e h1]
  | .other, _ => rfl

/-- The results are new and have the given values. -/
def NpRes (m m' : Mem O) : Option (Slice O.C × Slice O.C) → Option (List O.C × List O.C) → Prop
  | some z, some l => New m m' z.1 ∧ New m m' z.2 ∧ (read m' z.1, read m' z.2) = l
  | none, none => True
  | _, _ => False

theorem ffnp_leaf (m : Mem O) (t1 t2 : Slice O.C) (h1 : Valid m t1) (h2 : Valid m t2) (mb : Mem O) (eb : Ext m mb) :
    Ref m ((do
      let t0 ← load t1 0
      let z0 ← lits [O.cplx (O.round (O.re t0)) (O.lit 0)]
      let t1 ← load t2 0
      let z1 ← lits [O.cplx (O.round (O.re t1)) (O.lit 0)]
      pure (some (z0, z1)) : H O (Option (Slice O.C × Slice O.C))) mb)
      (do
        let t0 ← idx (read m t1) 0
        let t1 ← idx (read m t2) 0
        pure (some ([O.cplx (O.round (O.re t0)) (O.lit 0)], [O.cplx (O.round (O.re t1)) (O.lit 0)])))
      fun z m' l => NpRes m m' z l := by
  rw [← h1.read eb]
  refine Ref.bind (load_gives m mb eb t1 0) ?_
  rintro x _ _ - ⟨rfl, rfl, -⟩
  rename_i mb
  change Ref m _ (Go.ok [O.cplx (O.round (O.re x)) (O.lit 0)] >>= fun z0 => idx (read m t2) 0 >>= fun t1 =>
    Go.ok [O.cplx (O.round (O.re t1)) (O.lit 0)] >>= fun z1 => Go.ok (some (z0, z1))) _
  refine Ref.bind (Ref.older eb (lits_gives mb _)) ?_
  rintro z0 m1 _ e1 ⟨⟨n1, rfl⟩, x1⟩
  rw [← h2.read e1]
  refine Ref.bind (load_gives m m1 e1 t2 0) ?_
  rintro x' _ _ - ⟨rfl, rfl, -⟩
  rename_i m1
  refine Ref.bind (Ref.older e1 (lits_gives m1 _)) ?_
  rintro z1 m2 _ e2 ⟨⟨n2, rfl⟩, x2⟩
  exact ⟨e2, (n1.older eb).ext x2, n2.older e1, by rw [n1.valid.read x2]⟩

theorem ffnp_gives (T : NpTree O) (t : Slice O.C × Slice O.C) (m : Mem O) (hT : T.Ok m) (h1 : Valid m t.1) (h2 : Valid m t.2) :
    Ref m (FfnpFFT T t m) (Falcon.FfnpFFT O (T.value m) (read m t.1, read m t.2)) fun z m' l => NpRes m m' z l := by
  induction T generalizing t m with
  | other =>
    obtain ⟨t1, t2⟩ := t
    dsimp only at h1 h2
    unfold FfnpFFT Falcon.FfnpFFT NpTree.value
    simp only [h1.read_length]
    change Ref m _ (Go.ok [O.cplx (O.lit 0) (O.lit 0)] >>= fun _ => Go.ok [O.cplx (O.lit 0) (O.lit 0)] >>= fun _ => if t1.len > 1 then _
      else if t1.len = 1 then _ else _) _
    refine Ref.bind (lits_gives (E := O.C) m [O.cplx (O.lit 0) (O.lit 0)]) ?_
    rintro z0 ma _ ea ⟨na, rfl⟩
    refine Ref.bind (Ref.older ea (lits_gives ma _)) ?_
    rintro z1 mb _ eb ⟨⟨nb, rfl⟩, xb⟩
    split_ifs with c1 c2
    · trivial
    · exact ffnp_leaf m t1 t2 h1 h2 mb eb
    · exact ⟨eb, trivial⟩
  | node l10 T0 T1 ih0 ih1 =>
    obtain ⟨t1, t2⟩ := t
    obtain ⟨hl, hT0, hT1⟩ := hT
    dsimp only at h1 h2
    unfold FfnpFFT Falcon.FfnpFFT NpTree.value
    simp only [h1.read_length]
    change Ref m _ (Go.ok [O.cplx (O.lit 0) (O.lit 0)] >>= fun _ => Go.ok [O.cplx (O.lit 0) (O.lit 0)] >>= fun _ => if t1.len > 1 then _
      else if t1.len = 1 then _ else _) _
    refine Ref.bind (lits_gives (E := O.C) m [O.cplx (O.lit 0) (O.lit 0)]) ?_
    rintro z0 ma _ ea ⟨na, rfl⟩
    refine Ref.bind (Ref.older ea (lits_gives ma _)) ?_
    rintro z1 mb _ eb ⟨⟨nb, rfl⟩, xb⟩
    split_ifs with c1 c2
    · rw [← h2.read eb]
      refine Ref.bind (Ref.older eb (splitFFT_gives mb t2 (h2.ext eb))) ?_
      rintro ⟨s, s'⟩ m1 ⟨_, _⟩ e1 ⟨⟨⟨n1, rfl⟩, n1', rfl⟩, x1⟩
      rw [← hT1.value e1]
      refine Ref.bind (Ref.older e1 (ih1 (s, s') m1 (hT1.ext e1) n1.valid n1'.valid)) ?_
      rintro (_ | ⟨u, u'⟩) m2 (_ | ⟨_, _⟩) e2 ⟨hu, x2⟩
      · trivial
      · exact hu.elim
      · exact hu.elim
      obtain ⟨n2, n2', hu⟩ := hu
      cases hu
      refine Ref.bind (Ref.older e2 (mergeFFT_gives m2 u u' n2.valid n2'.valid)) ?_
      rintro z1 m3 _ e3 ⟨⟨n3, rfl⟩, x3⟩
      rw [h2.read eb, ← h2.read e3]
      refine Ref.bind (Ref.older e3 (subFFT_gives m3 t2 z1 (h2.ext e3) n3.valid)) ?_
      rintro d m4 _ e4 ⟨⟨n4, rfl⟩, x4⟩
      rw [← hl.read e4]
      refine Ref.bind (Ref.older e4 (mulFFT_gives m4 d l10 n4.valid (hl.ext e4))) ?_
      rintro p m5 _ e5 ⟨⟨n5, rfl⟩, x5⟩
      rw [← h1.read e5]
      refine Ref.bind (Ref.older e5 (addFFT_gives m5 t1 p (h1.ext e5) n5.valid)) ?_
      rintro q m6 _ e6 ⟨⟨n6, rfl⟩, x6⟩
      refine Ref.bind (Ref.older e6 (splitFFT_gives m6 q n6.valid)) ?_
      rintro ⟨v, v'⟩ m7 ⟨_, _⟩ e7 ⟨⟨⟨n7, rfl⟩, n7', rfl⟩, x7⟩
      rw [← hT0.value e7]
      refine Ref.bind (Ref.older e7 (ih0 (v, v') m7 (hT0.ext e7) n7.valid n7'.valid)) ?_
      rintro (_ | ⟨w, w'⟩) m8 (_ | ⟨_, _⟩) e8 ⟨hw, x8⟩
      · trivial
      · exact hw.elim
      · exact hw.elim
      obtain ⟨n8, n8', hw⟩ := hw
      cases hw
      refine Ref.bind (Ref.older e8 (mergeFFT_gives m8 w w' n8.valid n8'.valid)) ?_
      rintro z0 m9 _ e9 ⟨⟨n9, rfl⟩, x9⟩
      have y3 := x4.trans (x5.trans (x6.trans (x7.trans (x8.trans x9))))
      exact ⟨e9, n9.older e8, (n3.older e2).ext y3, by rw [n3.valid.read y3]⟩
    · exact ffnp_leaf m t1 t2 h1 h2 mb eb
    · exact ⟨eb, trivial⟩

end Falcon.St

namespace Falcon
open St

variable {O : FloatOps}

/-- `FfnpFFT` does not change the tree or the target; both results are new. -/
theorem C87_nearest_plane (T : St.NpTree O) (t : St.Slice O.C × St.Slice O.C) (m : St.Mem O) (hT : T.Ok m) (h1 : St.Valid m t.1) (h2 : St.Valid m t.2) :
    let spec := FfnpFFT O (T.value m) (St.read m t.1, St.read m t.2)
    (∀ z, spec = .ok (some z) → ∃ s s' m', St.FfnpFFT T t m = .ok (some (s, s'), m') ∧
      St.read m' s = z.1 ∧ St.read m' s' = z.2 ∧ St.New m m' s ∧ St.New m m' s' ∧ ∀ a < m.next, m'.cs a = m.cs a ∧ m'.fs a = m.fs a) ∧
    (spec = .ok none → ∃ m', St.FfnpFFT T t m = .ok (none, m') ∧ ∀ a < m.next, m'.cs a = m.cs a ∧ m'.fs a = m.fs a) ∧
    (spec = .panic ↔ St.FfnpFFT T t m = .panic) ∧ (spec = .diverge ↔ St.FfnpFFT T t m = .diverge) := by
  intro spec
  obtain ⟨k1, k2, k3⟩ := (ffnp_gives T t m hT h1 h2).iff
  refine ⟨fun z h => ?_, fun h => ?_, k2, k3⟩
  · obtain ⟨z', m', e, x, r⟩ := k1 _ h
    match z', r with
    | some (s, s'), ⟨n1, n2, r⟩ =>
      subst r
      exact ⟨s, s', m', e, rfl, rfl, n1, n2, fun a ha => ⟨x.cs a ha, x.fs a ha⟩⟩
  · obtain ⟨z', m', e, x, r⟩ := k1 _ h
    match z', r with
    | none, _ => exact ⟨m', e, fun a ha => ⟨x.cs a ha, x.fs a ha⟩⟩

/-- Three vectors: two targets and the vector of a node. -/
private def npMem : St.Mem ratOps :=
  ⟨3, fun a => if a = 0 then [(7 / 3, 0), (1, 2)] else if a = 1 then [(5 / 2, 1), (8, 1 / 4)] else if a = 2 then [(1 / 2, 0), (1 / 3, 1)] else [], fun _ => []⟩

/-- The node, with leaves below. -/
private def npTree : St.NpTree ratOps := .node ⟨2, 0, 2⟩ .other .other

/-- The result of a run in both models, and the arrays of the caller after the run. -/
private def npRun : Option (List ratOps.C × List ratOps.C × Bool) :=
  match St.FfnpFFT npTree (⟨0, 0, 2⟩, ⟨1, 0, 2⟩) npMem, FfnpFFT ratOps (npTree.value npMem) (npMem.cs 0, npMem.cs 1) with
  | .ok (some (s, s'), m), .ok (some z) => some (St.read m s, St.read m s', decide (St.read m s = z.1 ∧ St.read m s' = z.2 ∧ m.cs 0 = npMem.cs 0 ∧ m.cs 1 = npMem.cs 1 ∧ m.cs 2 = npMem.cs 2))
  | _, _ => none

/-- The hypotheses are met; the results have two elements, the targets and the vector of the node are unchanged. -/
example : npTree.Ok npMem ∧ St.Valid npMem (⟨0, 0, 2⟩ : St.Slice ratOps.C) ∧ St.Valid npMem (⟨1, 0, 2⟩ : St.Slice ratOps.C) ∧
    npRun.map (fun r => (r.1.length, r.2.1.length, r.2.2)) = some (2, 2, true) := by
  refine ⟨⟨.inr (by decide), trivial, trivial⟩, .inr (by decide), .inr (by decide), ?_⟩
  decide +kernel

end Falcon
