import Verif.Lemmas.Heap
/-! The pointer model of Karatsuba multiplication and of the tower maps refines the model on numbers. -/

namespace Falcon.Ptr

/-- The result is a slice of new numbers with the given values, and nothing that existed before was overwritten. -/
def Res (h : Heap) (r : List Nat) (h' : Heap) (v : List Int) : Prop := v = vals h' r ∧ Ext h h' ∧ Fresh h h' r

theorem halves2_bind {β : Type} (x0 x1 y0 y1 : List Int) (m : Nat) (K : List Int → List Int → Go β) :
    (addHalves x0 x1 m 0 >>= fun r => addHalves y0 y1 m 0 >>= fun s => K r s) =
      (halves2 x0 x1 y0 y1 m 0 (List.replicate m 0) (List.replicate m 0) >>= fun r => K r.1 r.2) := by
  rw [halves2_eq _ _ _ _ _ _ _ _ (by simp) (by simp)]
  rcases addHalves_cases x0 x1 m 0 with ⟨r, e⟩ | e <;> rw [e]
  · rcases addHalves_cases y0 y1 m 0 with ⟨r', e⟩ | e <;> simp only [Go.ok_bind, e]
    · simp
    · rfl
  · rfl

theorem Fresh.notMem {h h' : Heap} {s t : List Nat} (f : Fresh h h' s) (b : Below h t) : ∀ p ∈ s, p ∉ t := fun p hp hp' => by
  have := (f.2 p hp).1
  have := b p hp'
  omega

theorem Ref.karatsuba (n : Nat) (a b : List Nat) (h : Heap) (ha : Below h a) (hb : Below h b) :
    Ref (Karatsuba a b n h) (Falcon.Karatsuba (vals h a) (vals h b) n) (Res h) := by
  induction n using Nat.strongRecOn generalizing a b h with
  | _ n ih =>
    rw [Karatsuba, Falcon.Karatsuba]
    by_cases h1 : n = 1
    · rw [if_pos h1, if_pos h1]
      refine Ref.bind (Ref.load a 0 h) ?_
      rintro x _ _ ⟨rfl, rfl⟩
      refine Ref.bind (Ref.load b 0 _) ?_
      rintro y h _ ⟨rfl, rfl⟩
      refine Ref.step (a := h.next) (h' := h.push (x * y)) rfl ?_
      refine Ref.step (a := h.next + 1) (h' := (h.push (x * y)).push 0) rfl ?_
      refine ⟨?_, (ext_push _ _).trans (ext_push _ _), ?_, ?_⟩
      · simp [vals, Heap.push]
      · simp
      · intro p hp
        simp only [List.mem_cons, List.not_mem_nil, or_false] at hp
        simp only [Heap.push]
        omega
    rw [if_neg h1, if_neg h1]
    by_cases h0 : n = 0
    · rw [dif_pos h0, dif_pos h0]
      exact trivial
    rw [dif_neg h0, dif_neg h0]
    have hlt : n / 2 < n := by omega
    rw [vals_length, vals_length]
    refine Ref.bind (Ref.slice a 0 (n / 2) h) ?_
    rintro a0 _ _ ⟨rfl, rfl, ma0⟩
    refine Ref.bind (Ref.slice a (n / 2) a.length _) ?_
    rintro a1 _ _ ⟨rfl, rfl, ma1⟩
    refine Ref.bind (Ref.slice b 0 (n / 2) _) ?_
    rintro b0 _ _ ⟨rfl, rfl, mb0⟩
    refine Ref.bind (Ref.slice b (n / 2) b.length _) ?_
    rintro b1 h _ ⟨rfl, rfl, mb1⟩
    have A0 := ha.sub ma0
    have A1 := ha.sub ma1
    have B0 := hb.sub mb0
    have B1 := hb.sub mb1
    obtain ⟨ax, h1, e1, l1, v1, x1, f1, n1⟩ := fill_ok (n / 2) h
    refine Ref.step e1 ?_
    obtain ⟨bx, h2, e2, l2, v2, x2, f2, n2⟩ := fill_ok (n / 2) h1
    refine Ref.step e2 ?_
    have x12 := x1.trans x2
    have nd : (ax ++ bx).Nodup := by
      refine List.nodup_append.2 ⟨f1.1, f2.1, fun p hp q hq => ?_⟩
      have := (f1.2 p hp).2
      have := (f2.2 q hq).1
      omega
    have ge : ∀ p ∈ ax ++ bx, h.next ≤ p := fun p hp => by
      rcases List.mem_append.1 hp with hp | hp
      · exact (f1.2 p hp).1
      · have := (f2.2 p hp).1
        have := x1.1
        omega
    rw [halves2_bind]
    have r1 := Ref.halves ax bx a0 a1 b0 b1 (n / 2) 0 h2 nd fun p hp => by
      have := ge p hp
      refine ⟨fun hq => ?_, fun hq => ?_, fun hq => ?_, fun hq => ?_⟩
      · have := A0 p hq; omega
      · have := A1 p hq; omega
      · have := B0 p hq; omega
      · have := B1 p hq; omega
    rw [vals_ext x12 A0, vals_ext x12 A1, vals_ext x12 B0, vals_ext x12 B1, v2, vals_ext x2 f1.below, v1] at r1
    refine Ref.bind r1 ?_
    rintro _ h3 _ ⟨rfl, u3⟩
    have x3 : Ext h h3 := Ext.absorb x12 u3.frame ge
    have hax : Below h3 ax := fun p hp => by
      have := (f1.2 p hp).2
      have := x2.1
      have := u3.1
      omega
    have hbx : Below h3 bx := fun p hp => by
      have := (f2.2 p hp).2
      have := u3.1
      omega
    simp only
    rw [← vals_ext x3 A0, ← vals_ext x3 B0]
    refine Ref.bind (ih _ hlt a0 b0 h3 (A0.mono x3) (B0.mono x3)) ?_
    rintro p h4 _ ⟨rfl, x4, f4⟩
    have x34 := x3.trans x4
    rw [← vals_ext x34 A1, ← vals_ext x34 B1]
    refine Ref.bind (ih _ hlt a1 b1 h4 (A1.mono x34) (B1.mono x34)) ?_
    rintro q h5 _ ⟨rfl, x5, f5⟩
    have x45 := x4.trans x5
    rw [← vals_ext x45 hax, ← vals_ext x45 hbx, ← vals_ext x5 f4.below]
    refine Ref.bind (ih _ hlt ax bx h5 (hax.mono x45) (hbx.mono x45)) ?_
    rintro w h6 _ ⟨rfl, x6, f6⟩
    have p5 : Below h5 p := f4.below.mono x5
    rw [← vals_ext x6 p5, ← vals_ext x6 f5.below]
    refine Ref.bind (Ref.correct w p q n 0 h6 f6.1 fun r hr => ⟨f6.notMem p5 r hr, f6.notMem f5.below r hr⟩) ?_
    rintro _ h7 _ ⟨rfl, u7⟩
    have x57 : Ext h5 h7 := Ext.absorb x6 u7.frame fun r hr => (f6.2 r hr).1
    have p7 : Below h7 p := p5.mono x57
    have q7 : Below h7 q := f5.below.mono x57
    have w7 : Below h7 w := f6.below.mono u7.frame
    obtain ⟨ab, h8, e8, l8, v8, x8, f8, n8⟩ := fill_ok (2 * n) h7
    refine Ref.step e8 ?_
    rw [vals_ext x6 p5, vals_ext x6 f5.below, ← vals_ext x57 p5, ← vals_ext x57 f5.below, ← vals_ext x8 p7, ← vals_ext x8 q7,
      ← vals_ext x8 w7, ← v8]
    have r8 := Ref.combine ab p q w n (n / 2) n 0 h8 f8.1 fun r hr => ⟨f8.notMem p7 r hr, f8.notMem q7 r hr, f8.notMem w7 r hr⟩
    rw [← bind_pure (karaCombine _ _ _ _ _ _ _ _)]
    refine Ref.bind r8 ?_
    rintro _ h9 _ ⟨rfl, u9⟩
    have x79 : Ext h7 h9 := Ext.absorb x8 u9.frame fun r hr => (f8.2 r hr).1
    have x07 : Ext h h7 := (x34.trans x5).trans x57
    exact ⟨rfl, x07.trans x79, (f8.mono u9.1.ge).older x07.1⟩

/-- The loop of `fold` on lists. -/
def fold2 (ab : List Int) (n : Nat) : Nat → Nat → List Int → Go (List Int)
  | 0, _, A => .ok A
  | m + 1, i, A => do
    let x ← idx ab i
    let y ← idx ab (i + n)
    let A ← setAt A i (x - y)
    fold2 ab n m (i + 1) A

theorem fold2_eq (ab : List Int) (n m i : Nat) (A : List Int) (hA : A.length = i + m) :
    fold2 ab n m i A = (foldLoop ab n m i >>= fun r => .ok (A.take i ++ r)) := by
  induction m generalizing i A with
  | zero =>
    simp only [fold2, foldLoop, Go.ok_bind]
    rw [List.take_of_length_le (by omega)]
    simp
  | succ m ih =>
    unfold fold2 foldLoop
    rcases idx_cases ab i with ⟨a, e⟩ | e <;> rw [e]
    swap
    · rfl
    rcases idx_cases ab (i + n) with ⟨b, e⟩ | e <;> simp only [Go.ok_bind, e]
    swap
    · rfl
    rw [setAt_of_lt _ (by omega)]
    simp only [Go.ok_bind]
    rw [ih (i + 1) _ (by simp; omega), take_set_succ _ (by omega)]
    cases foldLoop ab n m (i + 1) <;> simp

theorem Ref.fold (abr ab : List Nat) (n m i : Nat) (h : Heap) (nd : abr.Nodup) (d : ∀ p ∈ abr, p ∉ ab) :
    Ref (fold abr ab n m i h) (fold2 (vals h ab) n m i (vals h abr)) fun _ h' r => r = vals h' abr ∧ Upd (· ∈ abr) h h' := by
  induction m generalizing i h with
  | zero => exact ⟨rfl, Upd.refl _ _⟩
  | succ m ih =>
    refine Ref.bind (Ref.load ab i h) ?_
    rintro a _ _ ⟨rfl, rfl⟩
    refine Ref.bind (Ref.load ab (i + n) _) ?_
    rintro b _ _ ⟨rfl, rfl⟩
    refine Ref.bind (Ref.store abr i (a - b) _ nd) ?_
    rintro _ h1 _ ⟨rfl, u⟩
    rw [← u.vals (s := ab) fun p hp hp' => d p hp' hp]
    refine (ih (i + 1) h1).mono ?_
    rintro _ h' r ⟨e, w⟩
    exact ⟨e, u.trans w⟩

theorem Ref.karamul (a b : List Nat) (h : Heap) (ha : Below h a) (hb : Below h b) :
    Ref (karamul a b h) (Falcon.karamul (vals h a) (vals h b)) fun r h' v => Res h r h' v ∧ r.length = a.length := by
  unfold Ptr.karamul Falcon.karamul
  simp only [vals_length]
  refine Ref.bind (Ref.karatsuba a.length a b h ha hb) ?_
  rintro ab h1 _ ⟨rfl, x1, f1⟩
  obtain ⟨abr, h2, e2, l2, v2, x2, f2, n2⟩ := fill_ok a.length h1
  refine Ref.step e2 ?_
  have e : foldLoop (vals h1 ab) a.length a.length 0 = (fold2 (vals h2 ab) a.length a.length 0 (vals h2 abr) >>= Pure.pure) := by
    rw [fold2_eq _ _ _ _ _ (by simp [l2]), vals_ext x2 f1.below]
    cases foldLoop (vals h1 ab) a.length a.length 0 <;> simp
  rw [e]
  refine Ref.bind (Ref.fold abr ab a.length a.length 0 h2 f2.1 (f2.notMem f1.below)) ?_
  rintro _ h3 _ ⟨rfl, u⟩
  exact ⟨⟨rfl, x1.trans (Ext.absorb x2 u.frame fun r hr => (f2.2 r hr).1), (f2.mono u.1.ge).older x1.1⟩, l2⟩

/-- The loop of `conjugate` on lists. -/
def conj2 (a : List Int) : Nat → Nat → List Int → Go (List Int)
  | 0, _, A => .ok A
  | m + 1, i, A => do
    let x ← idx a i
    let A ← setAt A i ((-1) ^ i * x)
    conj2 a m (i + 1) A

theorem conj2_eq (a : List Int) (m i : Nat) (A : List Int) (ha : a.length = i + m) (hA : A.length = i + m) :
    conj2 a m i A = .ok (A.take i ++ (Falcon.galoisConjugate a).drop i) := by
  induction m generalizing i A with
  | zero =>
    simp only [conj2]
    rw [List.take_of_length_le (by omega), List.drop_eq_nil_of_le (by simp [Falcon.galoisConjugate]; omega)]
    simp
  | succ m ih =>
    unfold conj2
    rw [idx_ok (by omega)]
    simp only [Go.ok_bind]
    rw [setAt_of_lt _ (by omega)]
    simp only [Go.ok_bind]
    rw [ih (i + 1) _ (by omega) (by simp; omega), take_set_succ _ (by omega),
      List.drop_eq_getElem_cons (l := Falcon.galoisConjugate a) (i := i) (by simp [Falcon.galoisConjugate]; omega)]
    simp [Falcon.galoisConjugate]

theorem Ref.conjugate (res a : List Nat) (m i : Nat) (h : Heap) (nd : res.Nodup) (d : ∀ p ∈ res, p ∉ a) :
    Ref (conjugate res a m i h) (conj2 (vals h a) m i (vals h res)) fun _ h' r => r = vals h' res ∧ Upd (· ∈ res) h h' := by
  induction m generalizing i h with
  | zero => exact ⟨rfl, Upd.refl _ _⟩
  | succ m ih =>
    refine Ref.bind (Ref.load a i h) ?_
    rintro x _ _ ⟨rfl, rfl⟩
    refine Ref.bind (Ref.store res i ((-1) ^ i * x) _ nd) ?_
    rintro _ h1 _ ⟨rfl, u⟩
    rw [← u.vals (s := a) fun p hp hp' => d p hp' hp]
    refine (ih (i + 1) h1).mono ?_
    rintro _ h' r ⟨e, w⟩
    exact ⟨e, u.trans w⟩

theorem Ref.galoisConjugate (a : List Nat) (h : Heap) (ha : Below h a) :
    Ref (galoisConjugate a h) (.ok (Falcon.galoisConjugate (vals h a))) fun r h' v => Res h r h' v ∧ r.length = a.length := by
  unfold Ptr.galoisConjugate
  obtain ⟨res, h2, e2, l2, v2, x2, f2, n2⟩ := fill_ok a.length h
  refine Ref.step e2 ?_
  have e : (Go.ok (Falcon.galoisConjugate (vals h a)) : Go (List Int)) = (conj2 (vals h2 a) a.length 0 (vals h2 res) >>= Pure.pure) := by
    rw [conj2_eq _ _ _ _ (by simp) (by simp [l2]), vals_ext x2 ha]
    simp
  rw [e]
  refine Ref.bind (Ref.conjugate res a a.length 0 h2 f2.1 (f2.notMem ha)) ?_
  rintro _ h3 _ ⟨rfl, u⟩
  exact ⟨⟨rfl, Ext.absorb x2 u.frame fun r hr => (f2.2 r hr).1, f2.mono u.1.ge⟩, l2⟩

/-- The loop of `evenOdd` on lists. -/
def evenOdd2 (a : List Int) : Nat → Nat → List Int → List Int → Go (List Int × List Int)
  | 0, _, A, B => .ok (A, B)
  | m + 1, i, A, B => do
    let x ← idx a (2 * i)
    let A ← setAt A i x
    let y ← idx a (2 * i + 1)
    let B ← setAt B i y
    evenOdd2 a m (i + 1) A B

theorem splitPolys_drop (a : List Int) (i : Nat) (h : 2 * i + 1 < a.length) :
    splitPolys (a.drop (2 * i)) = (a[2 * i] :: (splitPolys (a.drop (2 * (i + 1)))).1, a[2 * i + 1] :: (splitPolys (a.drop (2 * (i + 1)))).2) := by
  rw [List.drop_eq_getElem_cons (by omega), List.drop_eq_getElem_cons (by omega), splitPolys]
  rfl

theorem evenOdd2_eq (a : List Int) (m i : Nat) (A B : List Int) (ha : a.length / 2 = i + m) (hA : A.length = i + m) (hB : B.length = i + m) :
    evenOdd2 a m i A B = .ok (A.take i ++ (splitPolys (a.drop (2 * i))).1, B.take i ++ (splitPolys (a.drop (2 * i))).2) := by
  induction m generalizing i A B with
  | zero =>
    have l := splitPolys_length1 (a.drop (2 * i))
    have l' := splitPolys_length2 (a.drop (2 * i))
    rw [List.length_drop] at l l'
    simp only [evenOdd2]
    rw [List.take_of_length_le (by omega), List.take_of_length_le (by omega), List.length_eq_zero_iff.1 (l.trans (by omega)),
      List.length_eq_zero_iff.1 (l'.trans (by omega))]
    simp
  | succ m ih =>
    unfold evenOdd2
    rw [idx_ok (by omega)]
    simp only [Go.ok_bind]
    rw [setAt_of_lt _ (by omega)]
    simp only [Go.ok_bind]
    rw [idx_ok (by omega)]
    simp only [Go.ok_bind]
    rw [setAt_of_lt _ (by omega)]
    simp only [Go.ok_bind]
    rw [ih (i + 1) _ _ (by omega) (by simp; omega) (by simp; omega), take_set_succ _ (by omega), take_set_succ _ (by omega),
      splitPolys_drop a i (by omega)]
    simp

theorem Ref.evenOdd (ae ao a : List Nat) (m i : Nat) (h : Heap) (nd : (ae ++ ao).Nodup) (d : ∀ p ∈ ae ++ ao, p ∉ a) :
    Ref (evenOdd ae ao a m i h) (evenOdd2 (vals h a) m i (vals h ae) (vals h ao))
      fun _ h' r => r = (vals h' ae, vals h' ao) ∧ Upd (· ∈ ae ++ ao) h h' := by
  induction m generalizing i h with
  | zero => exact ⟨rfl, Upd.refl _ _⟩
  | succ m ih =>
    have nda := (List.nodup_append.1 nd).1
    have ndb := (List.nodup_append.1 nd).2.1
    have dab := (List.nodup_append.1 nd).2.2
    refine Ref.bind (Ref.load a (2 * i) h) ?_
    rintro x _ _ ⟨rfl, rfl⟩
    refine Ref.bind (Ref.store ae i x _ nda) ?_
    rintro _ h1 _ ⟨rfl, u⟩
    have u' := u.weaken (T := (· ∈ ae ++ ao)) fun p hp => List.mem_append.2 (.inl hp)
    rw [← u'.vals (s := a) fun p hp hp' => d p hp' hp, ← u.vals (s := ao) fun p hp hp' => dab p hp' p hp rfl]
    refine Ref.bind (Ref.load a (2 * i + 1) _) ?_
    rintro y _ _ ⟨rfl, rfl⟩
    refine Ref.bind (Ref.store ao i y _ ndb) ?_
    rintro _ h2 _ ⟨rfl, v⟩
    have v' := v.weaken (T := (· ∈ ae ++ ao)) fun p hp => List.mem_append.2 (.inr hp)
    rw [← v'.vals (s := a) fun p hp hp' => d p hp' hp, ← v.vals (s := ae) fun p hp hp' => dab p hp p hp' rfl]
    refine (ih (i + 1) h2).mono ?_
    rintro _ h' r ⟨e, w⟩
    exact ⟨e, (u'.trans v').trans w⟩

theorem Ref.norm (res ao2 : List Nat) (m i : Nat) (h : Heap) (nd : res.Nodup) (d : ∀ p ∈ res, p ∉ ao2) :
    Ref (norm res ao2 m i h) (normLoop (vals h ao2) m i (vals h res)) fun _ h' r => r = vals h' res ∧ Upd (· ∈ res) h h' := by
  induction m generalizing i h with
  | zero => exact ⟨rfl, Upd.refl _ _⟩
  | succ m ih =>
    refine Ref.bind (Ref.load ao2 i h) ?_
    rintro x _ _ ⟨rfl, rfl⟩
    refine Ref.bind (Ref.addTo res (i + 1) (-x) _ nd) ?_
    rintro _ h1 _ ⟨rfl, u⟩
    rw [← u.vals (s := ao2) fun p hp hp' => d p hp' hp]
    refine (ih (i + 1) h1).mono ?_
    rintro _ h' r ⟨e, w⟩
    exact ⟨e, u.trans w⟩

theorem nodup_fill {h h1 h2 : Heap} {a b : List Nat} (f1 : Fresh h h1 a) (f2 : Fresh h1 h2 b) : (a ++ b).Nodup := by
  refine List.nodup_append.2 ⟨f1.1, f2.1, fun p hp q hq => ?_⟩
  have := (f1.2 p hp).2
  have := (f2.2 q hq).1
  omega

theorem Ref.fieldNorm (a : List Nat) (h : Heap) (ha : Below h a) :
    Ref (fieldNorm a h) (Falcon.fieldNorm (vals h a)) fun r h' v => Res h r h' v ∧ r.length = a.length / 2 := by
  unfold Ptr.fieldNorm Falcon.fieldNorm
  simp only [vals_length]
  obtain ⟨ae, h1, e1, l1, v1, x1, f1, n1⟩ := fill_ok (a.length / 2) h
  refine Ref.step e1 ?_
  obtain ⟨ao, h2, e2, l2, v2, x2, f2, n2⟩ := fill_ok (a.length / 2) h1
  refine Ref.step e2 ?_
  have x12 := x1.trans x2
  have nd := nodup_fill f1 f2
  have ge : ∀ p ∈ ae ++ ao, h.next ≤ p := fun p hp => by
    rcases List.mem_append.1 hp with hp | hp
    · exact (f1.2 p hp).1
    · have := (f2.2 p hp).1
      have := x1.1
      omega
  have r := Ref.evenOdd ae ao a (a.length / 2) 0 h2 nd fun p hp hq => by
    have := ge p hp
    have := ha p hq
    omega
  rw [evenOdd2_eq _ _ _ _ _ (by simp) (by simp [l1]) (by simp [l2]), vals_ext x12 ha] at r
  simp only [Nat.mul_zero, List.drop_zero, List.take_zero, List.nil_append] at r
  have hs : splitPolys (vals h a) = ((splitPolys (vals h a)).1, (splitPolys (vals h a)).2) := rfl
  generalize (splitPolys (vals h a)).1 = E at *
  generalize (splitPolys (vals h a)).2 = D at *
  have key : ∀ (K : List Int → List Int → Go (List Int)), K E D = ((Go.ok (E, D) : Go (List Int × List Int)) >>= fun r => K r.1 r.2) := fun K => rfl
  rw [key fun E D => do
    let res ← Falcon.karamul E E
    let ao2 ← Falcon.karamul D D
    let res ← normLoop ao2 (a.length / 2 - 1) 0 res
    let x ← idx ao2 (a.length / 2 - 1)
    addAt res 0 x]
  refine Ref.bind r ?_
  rintro _ h3 _ ⟨rfl, u3⟩
  have x3 : Ext h h3 := Ext.absorb x12 u3.frame ge
  have hae : Below h3 ae := f1.below.next (by have := x2.1; have := u3.1; omega)
  have hao : Below h3 ao := f2.below.next (by have := u3.1; omega)
  simp only
  refine Ref.bind (Ref.karamul ae ae h3 hae hae) ?_
  rintro res h4 _ ⟨⟨rfl, x4, f4⟩, l4⟩
  rw [← vals_ext x4 hao]
  refine Ref.bind (Ref.karamul ao ao h4 (hao.mono x4) (hao.mono x4)) ?_
  rintro ao2 h5 _ ⟨⟨rfl, x5, f5⟩, l5⟩
  rw [← vals_ext x5 f4.below]
  have dis : ∀ p ∈ res, p ∉ ao2 := fun p hp hq => by
    have := (f4.2 p hp).2
    have := (f5.2 p hq).1
    omega
  refine Ref.bind (Ref.norm res ao2 (a.length / 2 - 1) 0 h5 f4.1 dis) ?_
  rintro _ h6 _ ⟨rfl, u6⟩
  rw [← u6.vals (s := ao2) fun p hp hp' => dis p hp' hp]
  refine Ref.bind (Ref.load ao2 _ h6) ?_
  rintro x _ _ ⟨rfl, rfl⟩
  rw [← bind_pure (addAt _ _ _)]
  refine Ref.bind (Ref.addTo res 0 x _ f4.1) ?_
  rintro _ h7 _ ⟨rfl, u7⟩
  have u := u6.trans u7
  refine ⟨⟨rfl, x3.trans (Ext.absorb (x4.trans x5) u.frame fun r hr => (f4.2 r hr).1), (f4.mono ?_).older x3.1⟩, by omega⟩
  have := u.1
  have := x5.1
  omega

end Falcon.Ptr
