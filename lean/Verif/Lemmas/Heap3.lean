import Verif.Lemmas.Heap2
/-! The pointer model of `reduce` and `NtruSolve` refines the model on numbers. -/

namespace Falcon.Ptr

/-- A step that always succeeds on both sides, where the other side is a value. -/
theorem Ref.val {α β γ δ : Type} {x : HM α} {f : α → HM γ} {h : Heap} {v : β} {g : β → Go δ} {R : α → Heap → β → Prop}
    {R' : γ → Heap → δ → Prop} (hx : Ref (x h) (.ok v) R) (hf : ∀ a h', R a h' v → Ref (f a h') (g v) R') :
    Ref ((x >>= f) h) (g v) R' :=
  Ref.bind (y := .ok v) (g := g) (R := fun a h' b => b = v ∧ R a h' b)
    (by cases e : x h <;> simp_all [Ref]) (by rintro a h' b ⟨rfl, r⟩; exact hf a h' r)

/-! ### `lift` -/

theorem liftLoop_ok (a : List Nat) (m i : Nat) (al : List Nat) (ha : a.length = i + m) (hal : al.length = 2 * (i + m)) :
    ∃ r, liftLoop a m i al = .ok r ∧ r.length = al.length ∧
      ∀ j, r[j]? = if j % 2 = 0 ∧ 2 * i ≤ j then a[j / 2]? else al[j]? := by
  induction m generalizing i al with
  | zero =>
    refine ⟨al, rfl, rfl, fun j => ?_⟩
    split
    · rw [List.getElem?_eq_none (by omega), List.getElem?_eq_none (by omega)]
    · rfl
  | succ m ih =>
    obtain ⟨r, e, l, hr⟩ := ih (i + 1) (al.set (2 * i) a[i]) (by omega) (by simp; omega)
    refine ⟨r, ?_, by simpa using l, fun j => ?_⟩
    · unfold liftLoop
      rw [idx_ok (by omega)]
      simp only [Go.ok_bind]
      rw [if_pos (by omega), e]
    · rw [hr j, List.getElem?_set]
      by_cases c : j % 2 = 0
      · by_cases c1 : 2 * i = j
        · rw [if_neg (by omega), if_pos c1, if_pos (by omega), if_pos ⟨c, by omega⟩]
          rw [List.getElem?_eq_getElem (by omega)]
          congr 2
          omega
        · rw [if_neg c1]
          by_cases c2 : 2 * (i + 1) ≤ j
          · rw [if_pos ⟨c, c2⟩, if_pos ⟨c, by omega⟩]
          · rw [if_neg (by omega), if_neg (by omega)]
      · rw [if_neg (by omega), if_neg (by omega), if_neg (by omega)]

theorem lift_getElem? (v : List Int) (j : Nat) :
    (Falcon.lift v)[j]? = if j % 2 = 0 then v[j / 2]? else if j < 2 * v.length then some 0 else none := by
  induction v generalizing j with
  | nil => simp [Falcon.lift]
  | cons x v ih =>
    have e : Falcon.lift (x :: v) = x :: 0 :: Falcon.lift v := by simp [Falcon.lift]
    rw [e]
    match j with
    | 0 => simp
    | 1 => simp; omega
    | j + 2 =>
      rw [List.getElem?_cons_succ, List.getElem?_cons_succ, ih j]
      have h1 : (j + 2) % 2 = j % 2 := by omega
      have h2 : (j + 2) / 2 = j / 2 + 1 := by omega
      rw [h1, h2, List.getElem?_cons_succ, List.length_cons]
      have h3 : (j + 2 < 2 * (v.length + 1)) ↔ j < 2 * v.length := by omega
      simp only [h3]

theorem Ref.lift (a : List Nat) (h : Heap) (ha : Below h a) :
    Ref (lift a h) (.ok (Falcon.lift (vals h a))) fun r h' v => v = vals h' r ∧ Ext h h' ∧ Below h' r := by
  unfold Ptr.lift
  obtain ⟨al, h1, e1, l1, v1, x1, f1, n1⟩ := fill_ok (2 * a.length) h
  refine Ref.step e1 ?_
  obtain ⟨r, e, l, hr⟩ := liftLoop_ok a a.length 0 al (by omega) (by omega)
  have : run (liftLoop a a.length 0 al) h1 = .ok (r, h1) := by simp [run, e]
  rw [this]
  refine ⟨?_, x1, ?_⟩
  · refine List.ext_getElem? fun j => ?_
    rw [lift_getElem?]
    have hj : (vals h1 r)[j]? = r[j]?.map h1.mem := by simp [vals]
    rw [hj, hr j]
    by_cases c : j % 2 = 0
    · have c' : j % 2 = 0 ∧ 2 * 0 ≤ j := ⟨c, by omega⟩
      rw [if_pos c, if_pos c']
      have h2 := vals_ext x1 ha
      rw [← h2]
      simp [vals]
    · have c' : ¬ (j % 2 = 0 ∧ 2 * 0 ≤ j) := fun x => c x.1
      rw [if_neg c, if_neg c']
      have h3 : (vals h1 al)[j]? = al[j]?.map h1.mem := by simp [vals]
      rw [← h3, v1, List.getElem?_replicate, vals_length]
  · intro p hp
    obtain ⟨j, hj, e⟩ := List.getElem_of_mem hp
    have hj' := hr j
    rw [List.getElem?_eq_getElem hj, e] at hj'
    split at hj'
    · exact ha.mono x1 p (List.mem_of_getElem? hj'.symm)
    · exact f1.below p (List.mem_of_getElem? hj'.symm)

/-! ### Sizes -/

theorem minLoop_ok (s : List Nat) (m : Nat) (h : Heap) :
    ∃ p, minLoop s m h = .ok (p, h) ∧ h.mem p = (vals h s).foldl (fun min v => if v < min then v else min) (h.mem m) := by
  induction s generalizing m with
  | nil => exact ⟨m, rfl, rfl⟩
  | cons q s ih =>
    obtain ⟨p, e, hp⟩ := ih (if h.mem q < h.mem m then q else m)
    refine ⟨p, e, hp.trans ?_⟩
    simp only [vals, List.map_cons, List.foldl_cons]
    split <;> rfl

theorem maxLoop_ok (s : List Nat) (m : Nat) (h : Heap) :
    ∃ p, maxLoop s m h = .ok (p, h) ∧ h.mem p = (vals h s).foldl (fun max v => if v > max then v else max) (h.mem m) := by
  induction s generalizing m with
  | nil => exact ⟨m, rfl, rfl⟩
  | cons q s ih =>
    obtain ⟨p, e, hp⟩ := ih (if h.mem q > h.mem m then q else m)
    refine ⟨p, e, hp.trans ?_⟩
    simp only [vals, List.map_cons, List.foldl_cons]
    split <;> rfl

theorem Ref.min (s : List Nat) (h : Heap) :
    Ref (minFromBigInt s h) (Falcon.minFromBigInt (vals h s)) fun p h' v => h' = h ∧ h.mem p = v := by
  refine Ref.bind (Ref.run_idx s 0 h) ?_
  rintro m _ _ ⟨rfl, -, rfl⟩
  obtain ⟨p, e, hp⟩ := minLoop_ok s m ‹_›
  rw [e]
  exact ⟨rfl, hp⟩

theorem Ref.max (s : List Nat) (h : Heap) :
    Ref (maxFromBigInt s h) (Falcon.maxFromBigInt (vals h s)) fun p h' v => h' = h ∧ h.mem p = v := by
  refine Ref.bind (Ref.run_idx s 0 h) ?_
  rintro m _ _ ⟨rfl, -, rfl⟩
  obtain ⟨p, e, hp⟩ := maxLoop_ok s m ‹_›
  rw [e]
  exact ⟨rfl, hp⟩

theorem Ref.run_same {α : Type} (x : Go α) (h : Heap) : Ref (run x h) x fun a h' b => h' = h ∧ a = b := by
  cases x
  · exact ⟨rfl, rfl⟩
  · exact trivial
  · exact trivial

theorem Ref.sizeOf2 (a b : List Nat) (h : Heap) :
    Ref (sizeOf2 a b h) (Falcon.sizeOf2 (vals h a) (vals h b)) fun x h' y => h' = h ∧ x = y := by
  refine Ref.bind (Ref.min a h) ?_
  rintro p1 h _ ⟨rfl, rfl⟩
  refine Ref.step (h' := h) rfl ?_
  refine Ref.bind (Ref.max a _) ?_
  rintro p2 h _ ⟨rfl, rfl⟩
  refine Ref.step (h' := h) rfl ?_
  refine Ref.bind (Ref.min b _) ?_
  rintro p3 h _ ⟨rfl, rfl⟩
  refine Ref.step (h' := h) rfl ?_
  refine Ref.bind (Ref.max b _) ?_
  rintro p4 h _ ⟨rfl, rfl⟩
  refine Ref.step (h' := h) rfl ?_
  refine Ref.bind (Ref.run_same _ h) ?_
  rintro r _ _ ⟨rfl, rfl⟩
  exact ⟨rfl, rfl⟩

/-! ### `reduce` -/

theorem addAt_cases (l : List Int) (i : Nat) (v : Int) : (∃ r, addAt l i v = .ok r) ∨ addAt l i v = .panic := by
  unfold addAt
  split
  · exact .inl ⟨_, rfl⟩
  · exact .inr rfl

theorem subShifted_cases (x : List Int) (sh m i : Nat) (F : List Int) :
    (∃ r, subShifted x sh m i F = .ok r) ∨ subShifted x sh m i F = .panic := by
  induction m generalizing i F with
  | zero => exact .inl ⟨_, rfl⟩
  | succ m ih =>
    unfold subShifted
    rcases idx_cases x i with ⟨a, e⟩ | e <;> rw [e]
    · simp only [Go.ok_bind]
      rcases addAt_cases F i (-(a <<< sh)) with ⟨r, e⟩ | e <;> rw [e]
      · exact ih _ _
      · exact .inr rfl
    · exact .inr rfl

/-- The loop of `subBoth` on lists. -/
def subBoth2 (x y : List Int) (sh : Nat) : Nat → Nat → List Int → List Int → Go (List Int × List Int)
  | 0, _, F, G => .ok (F, G)
  | m + 1, i, F, G => do
    let a ← idx x i
    let F ← addAt F i (-(a <<< sh))
    let b ← idx y i
    let G ← addAt G i (-(b <<< sh))
    subBoth2 x y sh m (i + 1) F G

theorem subBoth2_eq (x y : List Int) (sh m i : Nat) (F G : List Int) :
    subBoth2 x y sh m i F G = (subShifted x sh m i F >>= fun F => subShifted y sh m i G >>= fun G => .ok (F, G)) := by
  induction m generalizing i F G with
  | zero => rfl
  | succ m ih =>
    unfold subBoth2 subShifted
    rcases idx_cases x i with ⟨a, e⟩ | e <;> rw [e]
    swap
    · rfl
    simp only [Go.ok_bind]
    rcases addAt_cases F i (-(a <<< sh)) with ⟨F1, e⟩ | e <;> rw [e]
    swap
    · rfl
    simp only [Go.ok_bind]
    rcases idx_cases y i with ⟨b, e⟩ | e <;> rw [e]
    swap
    · rcases subShifted_cases x sh m (i + 1) F1 with ⟨r, e⟩ | e <;> rw [e] <;> rfl
    simp only [Go.ok_bind]
    rcases addAt_cases G i (-(b <<< sh)) with ⟨G1, e⟩ | e <;> rw [e]
    swap
    · rcases subShifted_cases x sh m (i + 1) F1 with ⟨r, e⟩ | e <;> rw [e] <;> rfl
    simp only [Go.ok_bind]
    exact ih _ _ _

theorem Ref.subBoth (F G x y : List Nat) (sh m i : Nat) (h : Heap) (nd : (F ++ G).Nodup) (d : ∀ p ∈ F ++ G, p ∉ x ∧ p ∉ y) :
    Ref (subBoth F G x y sh m i h) (subBoth2 (vals h x) (vals h y) sh m i (vals h F) (vals h G))
      fun _ h' r => r = (vals h' F, vals h' G) ∧ Upd (· ∈ F ++ G) h h' := by
  induction m generalizing i h with
  | zero => exact ⟨rfl, Upd.refl _ _⟩
  | succ m ih =>
    have nda := (List.nodup_append.1 nd).1
    have ndb := (List.nodup_append.1 nd).2.1
    have dab := (List.nodup_append.1 nd).2.2
    refine Ref.bind (Ref.load x i h) ?_
    rintro a _ _ ⟨rfl, rfl⟩
    refine Ref.bind (Ref.addTo F i (-(a <<< sh)) _ nda) ?_
    rintro _ h1 _ ⟨rfl, u⟩
    have u' := u.weaken (T := (· ∈ F ++ G)) fun p hp => List.mem_append.2 (.inl hp)
    rw [← u'.vals (s := y) fun p hp hp' => (d p hp').2 hp, ← u'.vals (s := x) fun p hp hp' => (d p hp').1 hp,
      ← u.vals (s := G) fun p hp hp' => dab p hp' p hp rfl]
    refine Ref.bind (Ref.load y i _) ?_
    rintro b _ _ ⟨rfl, rfl⟩
    refine Ref.bind (Ref.addTo G i (-(b <<< sh)) _ ndb) ?_
    rintro _ h2 _ ⟨rfl, v⟩
    have v' := v.weaken (T := (· ∈ F ++ G)) fun p hp => List.mem_append.2 (.inr hp)
    rw [← v'.vals (s := y) fun p hp hp' => (d p hp').2 hp, ← v'.vals (s := x) fun p hp hp' => (d p hp').1 hp,
      ← v.vals (s := F) fun p hp hp' => dab p hp p hp' rfl]
    refine (ih (i + 1) h2).mono ?_
    rintro _ h' r ⟨e, w⟩
    exact ⟨e, (u'.trans v').trans w⟩

theorem Ref.reduceLoop (O : FloatOps) (f g : List Nat) (size : Nat) (fa ga : List O.C) (F G : List Nat) (fuel : Nat) (h : Heap)
    (hf : Below h f) (hg : Below h g) (hFG : Below h (F ++ G)) (nd : (F ++ G).Nodup) (d : ∀ p ∈ F ++ G, p ∉ f ∧ p ∉ g) :
    Ref (reduceLoop O f g size fa ga F G fuel h) (Falcon.reduceLoop O (vals h f) (vals h g) size fa ga fuel (vals h F) (vals h G))
      fun _ h' r => r = (vals h' F, vals h' G) ∧ Frame (· ∈ F ++ G) h h' := by
  induction fuel generalizing h with
  | zero => exact trivial
  | succ fuel ih =>
    unfold Ptr.reduceLoop Falcon.reduceLoop
    refine Ref.bind (Ref.sizeOf2 F G h) ?_
    rintro SIZE h _ ⟨rfl, rfl⟩
    by_cases c : SIZE < size
    · rw [if_pos c, if_pos c]
      exact ⟨rfl, Frame.refl _ _⟩
    rw [if_neg c, if_neg c]
    refine Ref.step (a := vals h F) (h' := h) rfl ?_
    refine Ref.step (a := vals h G) (h' := h) rfl ?_
    refine Ref.bind (Ref.run_same _ h) ?_
    rintro k h _ ⟨rfl, rfl⟩
    by_cases ck : allZeroes k
    · rw [if_pos ck, if_pos ck]
      exact ⟨rfl, Frame.refl _ _⟩
    rw [if_neg ck, if_neg ck]
    obtain ⟨kf, h1, e1, v1, x1, f1⟩ := ofInts_ok k h
    refine Ref.step e1 ?_
    have hF : Below h F := fun p hp => hFG p (List.mem_append.2 (.inl hp))
    have hG : Below h G := fun p hp => hFG p (List.mem_append.2 (.inr hp))
    have r1 := Ref.karamul f kf h1 (hf.mono x1) f1.below
    rw [v1, vals_ext x1 hf] at r1
    refine Ref.bind r1 ?_
    rintro fk h2 _ ⟨⟨rfl, x2, f2⟩, l2⟩
    obtain ⟨kg, h3, e3, v3, x3, f3⟩ := ofInts_ok k h2
    refine Ref.step e3 ?_
    have x03 := (x1.trans x2).trans x3
    have r3 := Ref.karamul g kg h3 (hg.mono x03) f3.below
    rw [v3, vals_ext x03 hg] at r3
    refine Ref.bind r3 ?_
    rintro gk h4 _ ⟨⟨rfl, x4, f4⟩, l4⟩
    have x04 := x03.trans x4
    have x24 := x3.trans x4
    have key : ∀ (A B C D : List Int) (K : List Int → List Int → Go (List Int × List Int)),
        (subShifted A (SIZE - size) (vals h f).length 0 C >>= fun F => subShifted B (SIZE - size) (vals h f).length 0 D >>= fun G => K F G) =
        (subBoth2 A B (SIZE - size) f.length 0 C D >>= fun r => K r.1 r.2) := by
      intro A B C D K
      rw [subBoth2_eq, vals_length]
      rcases subShifted_cases A (SIZE - size) f.length 0 C with ⟨r, e⟩ | e <;> rw [e]
      · simp only [Go.ok_bind]
        rcases subShifted_cases B (SIZE - size) f.length 0 D with ⟨r', e⟩ | e <;> rw [e]
        · rfl
        · rfl
      · rfl
    rw [key]
    rw [← vals_ext x24 f2.below, ← vals_ext x04 hF, ← vals_ext x04 hG]
    have dd : ∀ p ∈ F ++ G, p ∉ fk ∧ p ∉ gk := fun p hp => by
      have := hFG p hp
      have := x1.1
      have := x03.1
      refine ⟨fun hq => ?_, fun hq => ?_⟩
      · have := (f2.2 p hq).1; omega
      · have := (f4.2 p hq).1; omega
    refine Ref.bind (Ref.subBoth F G fk gk _ _ 0 h4 nd dd) ?_
    rintro _ h5 _ ⟨rfl, u5⟩
    have fr : Frame (· ∈ F ++ G) h h5 := (x04.weaken fun _ => False.elim).trans u5.frame
    rw [← vals_frame fr hf fun p hp hq => (d p hq).1 hp, ← vals_frame fr hg fun p hp hq => (d p hq).2 hp]
    refine (ih h5 (hf.mono fr) (hg.mono fr) (hFG.mono fr)).mono ?_
    rintro _ h' r ⟨e, w⟩
    exact ⟨e, fr.trans w⟩

theorem Ref.reduce (O : FloatOps) (fuel : Nat) (f g F G : List Nat) (h : Heap)
    (hf : Below h f) (hg : Below h g) (hFG : Below h (F ++ G)) (nd : (F ++ G).Nodup) (d : ∀ p ∈ F ++ G, p ∉ f ∧ p ∉ g) :
    Ref (reduce O fuel f g F G h) (Falcon.reduce O fuel (vals h f) (vals h g) (vals h F) (vals h G))
      fun s h' r => s = (F, G) ∧ r = (vals h' F, vals h' G) ∧ Frame (· ∈ F ++ G) h h' := by
  unfold Ptr.reduce Falcon.reduce
  refine Ref.bind (Ref.sizeOf2 f g h) ?_
  rintro size h _ ⟨rfl, rfl⟩
  refine Ref.step (a := vals h f) (h' := h) rfl ?_
  refine Ref.step (a := vals h g) (h' := h) rfl ?_
  refine Ref.bind (Ref.run_same _ h) ?_
  rintro fa h _ ⟨rfl, rfl⟩
  refine Ref.bind (Ref.run_same _ h) ?_
  rintro ga h _ ⟨rfl, rfl⟩
  rw [← bind_pure (Falcon.reduceLoop _ _ _ _ _ _ _ _ _)]
  refine Ref.bind (Ref.reduceLoop O f g size fa ga F G fuel h hf hg hFG nd d) ?_
  rintro _ h' _ ⟨rfl, w⟩
  exact ⟨rfl, rfl, w⟩

/-! ### `xgcd` and `NtruSolve` -/

theorem xgcdLoop_ok (b n x0 x1 y0 y1 : Nat) (h : Heap) (hb : Below h [b, n, x0, x1, y0, y1]) :
    ∃ d u v h', xgcdLoop b n x0 x1 y0 y1 h = ((d, u, v), h') ∧ Ext h h' ∧ Below h' [d, u, v] ∧
      Falcon.xgcdLoop (h.mem b) (h.mem n) (h.mem x0) (h.mem x1) (h.mem y0) (h.mem y1) = (h'.mem d, h'.mem u, h'.mem v) := by
  induction b, n, x0, x1, y0, y1, h using xgcdLoop.induct with
  | case1 b n x0 x1 y0 y1 h hn =>
    refine ⟨b, x0, y0, h, ?_, Frame.refl _ _, hb.sub (by simp), ?_⟩
    · rw [xgcdLoop, dif_pos hn]
    · rw [Falcon.xgcdLoop, dif_pos hn]
  | case2 b n x0 x1 y0 y1 h hn q h1 h2 h3 ih =>
    have e1 : h1.next = h.next + 1 := rfl
    have e2 : h2.next = h.next + 2 := rfl
    have e3 : h3.next = h.next + 3 := rfl
    have x3 : Ext h h3 := ((ext_push h _).trans (ext_push h1 _)).trans (ext_push h2 _)
    have bn : n < h.next := hb n (by simp)
    have bx : x1 < h.next := hb x1 (by simp)
    have by1 : y1 < h.next := hb y1 (by simp)
    have m0 : h3.mem h.next = h.mem b % h.mem n := by
      simp only [h3, h2, h1, Heap.push]
      rw [if_neg (by omega), if_neg (by omega)]
      simp
    have m1 : h3.mem h1.next = h.mem x0 - q * h.mem x1 := by
      simp only [h3, h2, h1, Heap.push]
      rw [if_neg (by omega)]
      simp
    have m2 : h3.mem h2.next = h.mem y0 - q * h.mem y1 := by
      simp only [h3, Heap.push]
      simp
    obtain ⟨d, u, v, h', e, x, bl, ev⟩ := ih fun p hp => by
      simp only [List.mem_cons, List.not_mem_nil, or_false] at hp
      omega
    refine ⟨d, u, v, h', ?_, x3.trans x, bl, ?_⟩
    · rw [xgcdLoop, dif_neg hn]
      exact e
    · rw [Falcon.xgcdLoop, dif_neg hn]
      rw [m0, m1, m2, x3.2 n bn id, x3.2 x1 bx id, x3.2 y1 by1 id] at ev
      exact ev

theorem Ref.xgcd (b n : Nat) (h : Heap) (hb : Below h [b, n]) :
    Ref (xgcd b n h) (.ok (Falcon.xgcd (h.mem b) (h.mem n))) fun r h' v =>
      v = (h'.mem r.1, h'.mem r.2.1, h'.mem r.2.2) ∧ Ext h h' ∧ Below h' [r.1, r.2.1, r.2.2] := by
  unfold Ptr.xgcd Falcon.xgcd
  refine Ref.step (a := h.next) (h' := h.push 1) rfl ?_
  refine Ref.step (a := h.next + 1) (h' := (h.push 1).push 0) rfl ?_
  refine Ref.step (a := h.next + 2) (h' := ((h.push 1).push 0).push 0) rfl ?_
  refine Ref.step (a := h.next + 3) (h' := (((h.push 1).push 0).push 0).push 1) rfl ?_
  have x : Ext h ((((h.push 1).push 0).push 0).push 1) := (((ext_push h _).trans (ext_push _ _)).trans (ext_push _ _)).trans (ext_push _ _)
  have bb : b < h.next := hb b (by simp)
  have bn : n < h.next := hb n (by simp)
  have nx : ((((h.push 1).push 0).push 0).push 1).next = h.next + 4 := rfl
  obtain ⟨d, u, v, h', e, x', bl, ev⟩ := xgcdLoop_ok b n h.next (h.next + 1) (h.next + 2) (h.next + 3)
    ((((h.push 1).push 0).push 0).push 1) fun p hp => by
      simp only [List.mem_cons, List.not_mem_nil, or_false] at hp
      omega
  rw [x.2 b bb id, x.2 n bn id] at ev
  have m0 : ((((h.push 1).push 0).push 0).push 1).mem h.next = 1 := by simp [Heap.push]; omega
  have m1 : ((((h.push 1).push 0).push 0).push 1).mem (h.next + 1) = 0 := by simp [Heap.push]
  have m2 : ((((h.push 1).push 0).push 0).push 1).mem (h.next + 2) = 0 := by simp [Heap.push]
  have m3 : ((((h.push 1).push 0).push 0).push 1).mem (h.next + 3) = 1 := by simp [Heap.push]
  rw [m0, m1, m2, m3] at ev
  rw [ev]
  change Ref (Go.ok (xgcdLoop b n h.next (h.next + 1) (h.next + 2) (h.next + 3) ((((h.push 1).push 0).push 0).push 1))) _ _
  rw [e]
  exact ⟨rfl, x.trans x', bl⟩

/-- The result of `NtruSolve`: nothing was overwritten, and the slices returned consist of different new numbers. -/
def SolveRes (h : Heap) (r : Option (List Nat × List Nat)) (h' : Heap) (v : Option (List Int × List Int)) : Prop :=
  Ext h h' ∧ (match r, v with
    | none, none => True
    | some s, some w => w = (vals h' s.1, vals h' s.2) ∧ Fresh h h' (s.1 ++ s.2)
    | _, _ => False)

theorem Ref.solveBase (f g : List Nat) (h : Heap) (hg : Below h g) :
    Ref (solveBase f g h) (idx (vals h f) 0 >>= fun f0 => idx (vals h g) 0 >>= fun g0 =>
      if bigInt64 (Falcon.xgcd f0 g0).1 ≠ 1 then .ok none
      else .ok (some ([-Q * (Falcon.xgcd f0 g0).2.2], [Q * (Falcon.xgcd f0 g0).2.1]))) (SolveRes h) := by
  unfold Ptr.solveBase
  refine Ref.bind (Ref.load f 0 h) ?_
  rintro x h _ ⟨rfl, rfl⟩
  have r := Ref.load g 0 (h.push x)
  rw [vals_push h x g hg] at r
  refine Ref.step (a := h.next) (h' := h.push x) rfl ?_
  refine Ref.bind r ?_
  rintro y _ _ ⟨rfl, rfl⟩
  refine Ref.step (a := h.next + 1) (h' := (h.push x).push y) rfl ?_
  have nx : ((h.push x).push y).next = h.next + 2 := rfl
  have r2 := Ref.xgcd h.next (h.next + 1) ((h.push x).push y) fun p hp => by
    simp only [List.mem_cons, List.not_mem_nil, or_false] at hp
    omega
  have m0 : ((h.push x).push y).mem h.next = x := by simp [Heap.push]
  have m1 : ((h.push x).push y).mem (h.next + 1) = y := by simp [Heap.push]
  rw [m0, m1] at r2
  refine Ref.val (g := fun w : Int × Int × Int => if bigInt64 w.1 ≠ 1 then Go.ok none else Go.ok (some ([-Q * w.2.2], [Q * w.2.1]))) r2 ?_
  rintro ⟨d, u, v⟩ h1 ⟨e, x1, b1⟩
  rw [e]
  have x01 : Ext h h1 := ((ext_push _ _).trans (ext_push _ _)).trans x1
  simp only
  refine Ref.step (a := h1.mem d) (h' := h1) rfl ?_
  by_cases c : bigInt64 (h1.mem d) ≠ 1
  · rw [if_pos c, if_pos c]
    exact ⟨x01, trivial⟩
  rw [if_neg c, if_neg c]
  refine Ref.step (a := h1.mem v) (h' := h1) rfl ?_
  refine Ref.step (a := h1.next) (h' := h1.push (-Q * h1.mem v)) rfl ?_
  have bu : u < h1.next := b1 u (by simp)
  have mu : (h1.push (-Q * h1.mem v)).mem u = h1.mem u := (ext_push h1 _).2 u bu id
  refine Ref.step (a := h1.mem u) (h' := h1.push (-Q * h1.mem v)) (by simp only [get, mu]) ?_
  refine Ref.step (a := h1.next + 1) (h' := (h1.push (-Q * h1.mem v)).push (Q * h1.mem u)) rfl ?_
  refine ⟨(x01.trans (ext_push _ _)).trans (ext_push _ _), ?_, ?_, ?_⟩
  · simp [vals, Heap.push]
  · simp
  · intro p hp
    simp only [List.cons_append, List.nil_append, List.mem_cons, List.not_mem_nil, or_false] at hp
    have := x01.1
    simp only [Heap.push]
    omega

theorem Ref.ntruSolve (O : FloatOps) (fuel : Nat) (f g : List Nat) (h : Heap) (hf : Below h f) (hg : Below h g) :
    Ref (NtruSolve O fuel f g h) (Falcon.NtruSolve O fuel (vals h f) (vals h g)) (SolveRes h) := by
  induction fuel generalizing f g h with
  | zero => exact trivial
  | succ fuel ih =>
    unfold Ptr.NtruSolve Falcon.NtruSolve
    rw [vals_length]
    by_cases c : f.length = 1
    · rw [if_pos c, if_pos c]
      exact Ref.solveBase f g h hg
    rw [if_neg c, if_neg c]
    refine Ref.bind (Ref.fieldNorm f h hf) ?_
    rintro fp h1 _ ⟨⟨rfl, x1, f1⟩, -⟩
    rw [← vals_ext x1 hg]
    refine Ref.bind (Ref.fieldNorm g h1 (hg.mono x1)) ?_
    rintro gp h2 _ ⟨⟨rfl, x2, f2⟩, -⟩
    rw [← vals_ext x2 f1.below]
    refine Ref.bind (ih fp gp h2 (f1.below.mono x2) f2.below) ?_
    rintro r h3 v ⟨x3, hr⟩
    have x03 := (x1.trans x2).trans x3
    match r, v, hr with
    | none, none, _ => exact ⟨x03, trivial⟩
    | some (Fp, Gp), some (Fv, Gv), ⟨e, f3⟩ =>
      obtain ⟨rfl, rfl⟩ := Prod.mk.inj e
      have hFp : Below h3 Fp := fun p hp => f3.below p (List.mem_append.2 (.inl hp))
      have hGp : Below h3 Gp := fun p hp => f3.below p (List.mem_append.2 (.inr hp))
      simp only
      rw [vals_ext x1 hg]
      refine Ref.val (g := fun l => Falcon.karamul l (Falcon.galoisConjugate (vals h g)) >>= fun F =>
        Falcon.karamul (Falcon.lift (vals h3 Gp)) (Falcon.galoisConjugate (vals h f)) >>= fun G =>
        Falcon.reduce O (fuel + 1) (vals h f) (vals h g) F G >>= fun r => Pure.pure (some r)) (Ref.lift Fp h3 hFp) ?_
      rintro Fl h4 ⟨e, x4, b4⟩
      rw [e]
      have x04 := x03.trans x4
      have r5 := Ref.galoisConjugate g h4 (hg.mono x04)
      rw [vals_ext x04 hg] at r5
      refine Ref.val (g := fun l => Falcon.karamul (vals h4 Fl) l >>= fun F =>
        Falcon.karamul (Falcon.lift (vals h3 Gp)) (Falcon.galoisConjugate (vals h f)) >>= fun G =>
        Falcon.reduce O (fuel + 1) (vals h f) (vals h g) F G >>= fun r => Pure.pure (some r)) r5 ?_
      rintro gc h5 ⟨⟨e, x5, f5⟩, -⟩
      rw [e, ← vals_ext x5 b4]
      refine Ref.bind (Ref.karamul Fl gc h5 (b4.mono x5) f5.below) ?_
      rintro F h6 _ ⟨⟨rfl, x6, f6⟩, -⟩
      have x36 := (x4.trans x5).trans x6
      have r7 := Ref.lift Gp h6 (hGp.mono x36)
      rw [vals_ext x36 hGp] at r7
      refine Ref.val (g := fun l =>
        Falcon.karamul l (Falcon.galoisConjugate (vals h f)) >>= fun G =>
        Falcon.reduce O (fuel + 1) (vals h f) (vals h g) (vals h6 F) G >>= fun r => Pure.pure (some r)) r7 ?_
      rintro Gl h7 ⟨e, x7, b7⟩
      rw [e]
      have x07 := (x03.trans x36).trans x7
      have r8 := Ref.galoisConjugate f h7 (hf.mono x07)
      rw [vals_ext x07 hf] at r8
      refine Ref.val (g := fun l => Falcon.karamul (vals h7 Gl) l >>= fun G =>
        Falcon.reduce O (fuel + 1) (vals h f) (vals h g) (vals h6 F) G >>= fun r => Pure.pure (some r)) r8 ?_
      rintro fc h8 ⟨⟨e, x8, f8⟩, -⟩
      rw [e, ← vals_ext x8 b7]
      refine Ref.bind (Ref.karamul Gl fc h8 (b7.mono x8) f8.below) ?_
      rintro G h9 _ ⟨⟨rfl, x9, f9⟩, -⟩
      have x69 := (x7.trans x8).trans x9
      have x09 := (x03.trans x36).trans x69
      rw [← vals_ext x69 f6.below, ← vals_ext x09 hf, ← vals_ext x09 hg]
      have n5 : h.next ≤ h5.next := (x04.trans x5).1
      have n8 : h6.next ≤ h8.next := (x7.trans x8).1
      have n6 := x6.1
      have n9 := x9.1
      have fresh : Fresh h h9 (F ++ G) := by
        refine ⟨nodup_fill f6 ((f9.older n8)), fun p hp => ?_⟩
        rcases List.mem_append.1 hp with hp | hp
        · have := f6.2 p hp
          omega
        · have := f9.2 p hp
          omega
      refine Ref.bind (Ref.reduce O (fuel + 1) f g F G h9 (hf.mono x09) (hg.mono x09) fresh.below fresh.1
        fun p hp => ⟨fresh.notMem hf p hp, fresh.notMem hg p hp⟩) ?_
      rintro _ h' _ ⟨rfl, rfl, w⟩
      exact ⟨Ext.absorb x09 w fun p hp => (fresh.2 p hp).1, rfl, fresh.mono w.1⟩

end Falcon.Ptr
