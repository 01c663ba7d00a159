import Verif.Model.Heap
import Verif.Lemmas.Ntrugen
/-! The pointer model of the solver refines the model on numbers: a relation between outcomes compatible with `bind`, and what each function
may change on the heap. -/

namespace Falcon.Ptr

/-- The outcomes are of the same kind, and the results are related. -/
def Ref {α β : Type} (x : Go (α × Heap)) (y : Go β) (R : α → Heap → β → Prop) : Prop :=
  match x, y with
  | .ok (a, h), .ok b => R a h b
  | .panic, .panic => True
  | .diverge, .diverge => True
  | _, _ => False

theorem Ref.bind {α β γ δ : Type} {x : HM α} {f : α → HM γ} {h : Heap} {y : Go β} {g : β → Go δ} {R : α → Heap → β → Prop}
    {R' : γ → Heap → δ → Prop} (hx : Ref (x h) y R) (hf : ∀ a h' b, R a h' b → Ref (f a h') (g b) R') :
    Ref ((x >>= f) h) (y >>= g) R' := by
  change Ref (x h >>= fun a => f a.1 a.2) (y >>= g) R'
  cases e : x h <;> cases e' : y <;> simp only [e, e', Ref] at hx
  · exact hf _ _ _ hx
  · trivial
  · trivial

theorem Ref.mono {α β : Type} {x : Go (α × Heap)} {y : Go β} {R R' : α → Heap → β → Prop} (hx : Ref x y R) (hf : ∀ a h b, R a h b → R' a h b) :
    Ref x y R' := by
  cases x <;> cases y <;> simp only [Ref] at *
  exact hf _ _ _ hx

theorem Ref.pure {α β : Type} {a : α} {h : Heap} {b : β} {R : α → Heap → β → Prop} (hr : R a h b) :
    Ref ((Pure.pure a : HM α) h) (Pure.pure b) R := hr

/-- A step that always succeeds on the heap side only. -/
theorem Ref.step {α β γ : Type} {x : HM α} {f : α → HM γ} {h h' : Heap} {a : α} {y : Go β} {R : γ → Heap → β → Prop}
    (hx : x h = .ok (a, h')) (hf : Ref (f a h') y R) : Ref ((x >>= f) h) y R := by
  change Ref (x h >>= fun a => f a.1 a.2) y R
  rw [hx]
  exact hf

theorem Ref.iff {α β : Type} {x : Go (α × Heap)} {y : Go β} {R : α → Heap → β → Prop} (hx : Ref x y R) :
    (∀ b, y = .ok b → ∃ a h, x = .ok (a, h) ∧ R a h b) ∧ (y = .panic ↔ x = .panic) ∧ (y = .diverge ↔ x = .diverge) := by
  rcases x with ⟨a, h⟩ | _ | _ <;> cases y <;> simp_all [Ref]

/-- From `h` to `h'` only the numbers with `S` were overwritten; new ones may have been allocated. -/
def Frame (S : Nat → Prop) (h h' : Heap) : Prop := h.next ≤ h'.next ∧ ∀ p, p < h.next → ¬ S p → h'.mem p = h.mem p

/-- Nothing was overwritten. -/
abbrev Ext (h h' : Heap) : Prop := Frame (fun _ => False) h h'

/-- All addresses of the slice are allocated. -/
def Below (h : Heap) (s : List Nat) : Prop := ∀ p ∈ s, p < h.next

/-- The slice consists of different numbers that were allocated between `h` and `h'`. -/
def Fresh (h h' : Heap) (s : List Nat) : Prop := s.Nodup ∧ ∀ p ∈ s, h.next ≤ p ∧ p < h'.next

theorem Frame.refl (S : Nat → Prop) (h : Heap) : Frame S h h := ⟨Nat.le_refl _, fun _ _ _ => rfl⟩

theorem Frame.trans {S : Nat → Prop} {h h' h'' : Heap} (a : Frame S h h') (b : Frame S h' h'') : Frame S h h'' :=
  ⟨Nat.le_trans a.1 b.1, fun p hp hs => (b.2 p (Nat.lt_of_lt_of_le hp a.1) hs).trans (a.2 p hp hs)⟩

theorem Frame.weaken {S T : Nat → Prop} {h h' : Heap} (a : Frame S h h') (st : ∀ p, S p → T p) : Frame T h h' :=
  ⟨a.1, fun p hp hs => a.2 p hp fun x => hs (st p x)⟩

/-- Overwriting what was allocated since `h0` is not visible from `h0`. -/
theorem Ext.absorb {S : Nat → Prop} {h0 h h' : Heap} (a : Ext h0 h) (b : Frame S h h') (st : ∀ p, S p → h0.next ≤ p) : Ext h0 h' :=
  ⟨Nat.le_trans a.1 b.1, fun p hp _ =>
    (b.2 p (Nat.lt_of_lt_of_le hp a.1) fun x => absurd (st p x) (by omega)).trans (a.2 p hp id)⟩

theorem Ext.trans {h h' h'' : Heap} (a : Ext h h') (b : Ext h' h'') : Ext h h'' := Frame.trans a b

theorem Below.mono {h h' : Heap} {s : List Nat} {S : Nat → Prop} (b : Below h s) (a : Frame S h h') : Below h' s :=
  fun p hp => Nat.lt_of_lt_of_le (b p hp) a.1

theorem Below.next {h h' : Heap} {s : List Nat} (b : Below h s) (a : h.next ≤ h'.next) : Below h' s :=
  fun p hp => Nat.lt_of_lt_of_le (b p hp) a

theorem Below.sub {h : Heap} {s t : List Nat} (b : Below h s) (a : ∀ p ∈ t, p ∈ s) : Below h t := fun p hp => b p (a p hp)

theorem Fresh.below {h h' : Heap} {s : List Nat} (b : Fresh h h' s) : Below h' s := fun p hp => (b.2 p hp).2

theorem Fresh.mono {h h' h'' : Heap} {s : List Nat} (b : Fresh h h' s) (a : h'.next ≤ h''.next) : Fresh h h'' s :=
  ⟨b.1, fun p hp => ⟨(b.2 p hp).1, Nat.lt_of_lt_of_le (b.2 p hp).2 a⟩⟩

theorem Fresh.older {h0 h h' : Heap} {s : List Nat} (b : Fresh h h' s) (a : h0.next ≤ h.next) : Fresh h0 h' s :=
  ⟨b.1, fun p hp => ⟨Nat.le_trans a (b.2 p hp).1, (b.2 p hp).2⟩⟩

theorem vals_frame {S : Nat → Prop} {h h' : Heap} {s : List Nat} (a : Frame S h h') (b : Below h s) (d : ∀ p ∈ s, ¬ S p) :
    vals h' s = vals h s := List.map_congr_left fun p hp => a.2 p (b p hp) (d p hp)

theorem vals_ext {h h' : Heap} {s : List Nat} (a : Ext h h') (b : Below h s) : vals h' s = vals h s :=
  vals_frame a b fun _ _ => id

@[simp] theorem vals_length (h : Heap) (s : List Nat) : (vals h s).length = s.length := by simp [vals]

theorem vals_push (h : Heap) (v : Int) (s : List Nat) (b : Below h s) : vals (h.push v) s = vals h s := by
  refine List.map_congr_left fun p hp => ?_
  have := b p hp
  simp only [Heap.push]
  rw [if_neg (by omega)]

theorem ext_push (h : Heap) (v : Int) : Ext h (h.push v) := by
  refine ⟨by simp [Heap.push], fun p hp _ => ?_⟩
  simp only [Heap.push]
  rw [if_neg (by omega)]

/-- Only numbers with `S` were overwritten and nothing was allocated. -/
def Upd (S : Nat → Prop) (h h' : Heap) : Prop := h'.next = h.next ∧ ∀ p, ¬ S p → h'.mem p = h.mem p

theorem Upd.refl (S : Nat → Prop) (h : Heap) : Upd S h h := ⟨rfl, fun _ _ => rfl⟩

theorem Upd.trans {S : Nat → Prop} {h h' h'' : Heap} (a : Upd S h h') (b : Upd S h' h'') : Upd S h h'' :=
  ⟨b.1.trans a.1, fun p hs => (b.2 p hs).trans (a.2 p hs)⟩

theorem Upd.weaken {S T : Nat → Prop} {h h' : Heap} (a : Upd S h h') (st : ∀ p, S p → T p) : Upd T h h' :=
  ⟨a.1, fun p hs => a.2 p fun x => hs (st p x)⟩

theorem Upd.frame {S : Nat → Prop} {h h' : Heap} (a : Upd S h h') : Frame S h h' := ⟨a.1.ge, fun p _ hs => a.2 p hs⟩

theorem Upd.vals {S : Nat → Prop} {h h' : Heap} {s : List Nat} (a : Upd S h h') (d : ∀ p ∈ s, ¬ S p) : vals h' s = vals h s :=
  List.map_congr_left fun p hp => a.2 p (d p hp)

theorem upd_upd (h : Heap) (q : Nat) (v : Int) (S : Nat → Prop) (hq : S q) : Upd S h (h.upd q v) := by
  refine ⟨rfl, fun p hs => ?_⟩
  simp only [Heap.upd]
  rw [if_neg (fun e : p = q => hs (e ▸ hq))]

/-- `idx` on addresses and on numbers. -/
theorem Ref.run_idx (s : List Nat) (i : Nat) (h : Heap) :
    Ref (run (idx s i) h) (idx (vals h s) i) fun p h' v => h' = h ∧ s[i]? = some p ∧ h.mem p = v := by
  simp only [run, idx, vals, List.getElem?_map]
  cases e : s[i]? with
  | none => exact trivial
  | some p => exact ⟨rfl, rfl, rfl⟩

theorem load_some {s : List Nat} {i p : Nat} {h : Heap} (e : s[i]? = some p) : load s i h = .ok (h.mem p, h) := by
  change run (idx s i) h >>= _ = _
  simp only [run, idx, e]
  rfl

theorem load_none {s : List Nat} {i : Nat} {h : Heap} (e : s[i]? = none) : load s i h = .panic := by
  change run (idx s i) h >>= _ = _
  simp only [run, idx, e]
  rfl

theorem Ref.load (s : List Nat) (i : Nat) (h : Heap) : Ref (load s i h) (idx (vals h s) i) fun v h' v' => h' = h ∧ v = v' := by
  cases e : s[i]? with
  | none =>
    simp only [load_none e, idx, vals, List.getElem?_map, e]
    exact trivial
  | some p =>
    simp only [load_some e, idx, vals, List.getElem?_map, e]
    exact ⟨rfl, rfl⟩

/-- `s[i] = v` on a list of numbers. -/
def setAt (l : List Int) (i : Nat) (v : Int) : Go (List Int) := if i < l.length then .ok (l.set i v) else .panic

theorem vals_upd (h : Heap) (s : List Nat) (i : Nat) (p : Nat) (v : Int) (nd : s.Nodup) (e : s[i]? = some p) :
    vals (h.upd p v) s = (vals h s).set i v := by
  obtain ⟨hi, e⟩ := List.getElem?_eq_some_iff.1 e
  refine List.ext_getElem (by simp) fun j hj _ => ?_
  have hj' : j < s.length := by simpa using hj
  rw [List.getElem_set]
  simp only [vals, List.getElem_map, Heap.upd]
  by_cases hij : i = j
  · subst hij
    rw [if_pos e, if_pos rfl]
  · rw [if_neg (fun x => hij ((List.Nodup.getElem_inj_iff nd).1 (e.trans x.symm))), if_neg hij]

theorem Ref.store (s : List Nat) (i : Nat) (v : Int) (h : Heap) (nd : s.Nodup) :
    Ref (store s i v h) (setAt (vals h s) i v) fun _ h' l => l = vals h' s ∧ Upd (· ∈ s) h h' := by
  unfold setAt Ptr.store
  by_cases hi : i < s.length
  · rw [if_pos (by simpa using hi)]
    have e : s[i]? = some s[i] := List.getElem?_eq_getElem hi
    refine Ref.step (a := s[i]) (h' := h) (by simp [run, idx, e]) ?_
    exact ⟨(vals_upd h s i _ v nd e).symm, upd_upd _ _ _ _ (List.getElem_mem hi)⟩
  · rw [if_neg (by simpa using hi)]
    have e : s[i]? = none := by simpa using hi
    change Ref (run (idx s i) h >>= _) _ _
    simp only [run, idx, e]
    exact trivial

theorem Ref.addTo (s : List Nat) (i : Nat) (v : Int) (h : Heap) (nd : s.Nodup) :
    Ref (addTo s i v h) (addAt (vals h s) i v) fun _ h' l => l = vals h' s ∧ Upd (· ∈ s) h h' := by
  unfold Ptr.addTo addAt
  by_cases hi : i < s.length
  · rw [if_pos (by simpa using hi)]
    have e : s[i]? = some s[i] := List.getElem?_eq_getElem hi
    refine Ref.step (a := h.mem s[i]) (h' := h) (load_some e) ?_
    have := Ref.store s i (h.mem s[i] + v) h nd
    unfold setAt at this
    rw [if_pos (by simpa using hi)] at this
    have e2 : (vals h s).modify i (· + v) = (vals h s).set i (h.mem s[i] + v) := by
      rw [List.modify_eq_set_getElem?]
      simp [vals, e]
    rw [e2]
    exact this
  · rw [if_neg (by simpa using hi)]
    have e : s[i]? = none := by simpa using hi
    change Ref (Ptr.load s i h >>= _) _ _
    rw [load_none e]
    exact trivial

theorem fill_ok (n : Nat) (h : Heap) : ∃ s h', fill n h = .ok (s, h') ∧ s.length = n ∧ vals h' s = List.replicate n 0 ∧ Ext h h' ∧
    Fresh h h' s ∧ h'.next = h.next + n := by
  induction n generalizing h with
  | zero => exact ⟨[], h, rfl, rfl, rfl, Frame.refl _ _, ⟨List.nodup_nil, by simp⟩, rfl⟩
  | succ n ih =>
    obtain ⟨s, h', e, hl, hv, hx, hf, hn⟩ := ih (h.push 0)
    have hnx : (h.push 0).next = h.next + 1 := rfl
    refine ⟨h.next :: s, h', ?_, by simp [hl], ?_, (ext_push h 0).trans hx, ⟨?_, ?_⟩, by omega⟩
    · change (fill n (h.push 0) >>= fun r => Pure.pure (h.next :: r.1, r.2)) = _
      rw [e]
      rfl
    · have : h'.mem h.next = 0 := by
        rw [hx.2 h.next (by omega) id]
        simp [Heap.push]
      rw [List.replicate_succ, ← hv]
      simp [vals, this]
    · refine List.nodup_cons.2 ⟨fun hm => ?_, hf.1⟩
      have := (hf.2 _ hm).1
      omega
    · intro p hp
      rcases List.mem_cons.1 hp with rfl | hp
      · omega
      · have := hf.2 p hp
        omega

theorem ofInts_ok (k : List Int) (h : Heap) : ∃ s h', ofInts k h = .ok (s, h') ∧ vals h' s = k ∧ Ext h h' ∧ Fresh h h' s := by
  induction k generalizing h with
  | nil => exact ⟨[], h, rfl, rfl, Frame.refl _ _, ⟨List.nodup_nil, by simp⟩⟩
  | cons x k ih =>
    obtain ⟨s, h', e, hv, hx, hf⟩ := ih (h.push x)
    have hnx : (h.push x).next = h.next + 1 := rfl
    have hle := hx.1
    refine ⟨h.next :: s, h', ?_, ?_, (ext_push h x).trans hx, ⟨?_, ?_⟩⟩
    · change (ofInts k (h.push x) >>= fun r => Pure.pure (h.next :: r.1, r.2)) = _
      rw [e]
      rfl
    · have : h'.mem h.next = x := by
        rw [hx.2 h.next (by omega) id]
        simp [Heap.push]
      rw [← hv]
      simp [vals, this]
    · refine List.nodup_cons.2 ⟨fun hm => ?_, hf.1⟩
      have := (hf.2 _ hm).1
      omega
    · intro p hp
      rcases List.mem_cons.1 hp with rfl | hp
      · omega
      · have := hf.2 p hp
        omega

theorem Ref.slice (s : List Nat) (lo hi : Nat) (h : Heap) :
    Ref (run (slice s lo hi) h) (slice (vals h s) lo hi) fun r h' v => h' = h ∧ vals h r = v ∧ ∀ p ∈ r, p ∈ s := by
  unfold Falcon.slice
  by_cases c : lo ≤ hi ∧ hi ≤ s.length
  · rw [if_pos c, if_pos (by simpa using c)]
    exact ⟨rfl, by simp [vals], fun p hp => List.mem_of_mem_take (List.mem_of_mem_drop hp)⟩
  · rw [if_neg c, if_neg (by simpa using c)]
    exact trivial

/-! ### Loops on lists of numbers written in place -/

theorem idx_cases {α : Type} (l : List α) (i : Nat) : (∃ x, idx l i = .ok x) ∨ idx l i = .panic := by
  unfold idx
  cases l[i]? <;> simp

theorem addHalves_cases (x y : List Int) (m i : Nat) : (∃ r, addHalves x y m i = .ok r) ∨ addHalves x y m i = .panic := by
  induction m generalizing i with
  | zero => exact .inl ⟨_, rfl⟩
  | succ m ih =>
    unfold addHalves
    rcases idx_cases x i with ⟨a, e⟩ | e <;> rw [e]
    · rcases idx_cases y i with ⟨b, e⟩ | e <;> simp only [Go.ok_bind, e]
      · rcases ih (i + 1) with ⟨r, e⟩ | e <;> rw [e]
        · exact .inl ⟨_, rfl⟩
        · exact .inr rfl
      · exact .inr rfl
    · exact .inr rfl

theorem setAt_of_lt {A : List Int} {i : Nat} (v : Int) (h : i < A.length) : setAt A i v = .ok (A.set i v) := if_pos h

theorem take_set_succ {A : List Int} {i : Nat} (v : Int) (h : i < A.length) : (A.set i v).take (i + 1) = A.take i ++ [v] := by
  rw [List.take_add_one, List.take_set_of_le (Nat.le_refl i), List.getElem?_set_self h]
  rfl

/-- The loop of `halves` on lists. -/
def halves2 (x0 x1 y0 y1 : List Int) : Nat → Nat → List Int → List Int → Go (List Int × List Int)
  | 0, _, A, B => .ok (A, B)
  | m + 1, i, A, B => do
    let x ← idx x0 i
    let y ← idx x1 i
    let A ← setAt A i (x + y)
    let x ← idx y0 i
    let y ← idx y1 i
    let B ← setAt B i (x + y)
    halves2 x0 x1 y0 y1 m (i + 1) A B

theorem halves2_eq (x0 x1 y0 y1 : List Int) (m i : Nat) (A B : List Int) (hA : A.length = i + m) (hB : B.length = i + m) :
    halves2 x0 x1 y0 y1 m i A B = (addHalves x0 x1 m i >>= fun r => addHalves y0 y1 m i >>= fun s => .ok (A.take i ++ r, B.take i ++ s)) := by
  induction m generalizing i A B with
  | zero =>
    simp only [halves2, addHalves, Go.ok_bind]
    rw [List.take_of_length_le (by omega), List.take_of_length_le (by omega)]
    simp
  | succ m ih =>
    unfold halves2 addHalves
    rcases idx_cases x0 i with ⟨a, e⟩ | e <;> rw [e]
    swap
    · rfl
    rcases idx_cases x1 i with ⟨b, e⟩ | e <;> simp only [Go.ok_bind, e]
    swap
    · rfl
    rw [setAt_of_lt _ (by omega)]
    simp only [Go.ok_bind]
    rcases idx_cases y0 i with ⟨c, e⟩ | e <;> simp only [e, Go.ok_bind]
    swap
    · rcases addHalves_cases x0 x1 m (i + 1) with ⟨r, e⟩ | e <;> rw [e] <;> rfl
    rcases idx_cases y1 i with ⟨d, e⟩ | e <;> simp only [e, Go.ok_bind]
    swap
    · rcases addHalves_cases x0 x1 m (i + 1) with ⟨r, e⟩ | e <;> rw [e] <;> rfl
    rw [setAt_of_lt _ (by omega)]
    simp only [Go.ok_bind]
    rw [ih (i + 1) _ _ (by simp; omega) (by simp; omega), take_set_succ _ (by omega), take_set_succ _ (by omega)]
    rcases addHalves_cases x0 x1 m (i + 1) with ⟨r, e⟩ | e <;> rw [e]
    swap
    · rfl
    rcases addHalves_cases y0 y1 m (i + 1) with ⟨r', e⟩ | e <;> simp only [Go.ok_bind, e]
    · simp
    · rfl

theorem Ref.halves (ax bx a0 a1 b0 b1 : List Nat) (m i : Nat) (h : Heap) (nd : (ax ++ bx).Nodup)
    (d : ∀ p ∈ ax ++ bx, p ∉ a0 ∧ p ∉ a1 ∧ p ∉ b0 ∧ p ∉ b1) :
    Ref (halves ax bx a0 a1 b0 b1 m i h) (halves2 (vals h a0) (vals h a1) (vals h b0) (vals h b1) m i (vals h ax) (vals h bx))
      fun _ h' r => r = (vals h' ax, vals h' bx) ∧ Upd (· ∈ ax ++ bx) h h' := by
  induction m generalizing i h with
  | zero => exact ⟨rfl, Upd.refl _ _⟩
  | succ m ih =>
    have nda := (List.nodup_append.1 nd).1
    have ndb := (List.nodup_append.1 nd).2.1
    have dab := (List.nodup_append.1 nd).2.2
    refine Ref.bind (Ref.load a0 i h) ?_
    rintro x _ _ ⟨rfl, rfl⟩
    refine Ref.bind (Ref.load a1 i _) ?_
    rintro y _ _ ⟨rfl, rfl⟩
    refine Ref.bind (Ref.store ax i (x + y) _ nda) ?_
    rintro _ h1 _ ⟨rfl, u⟩
    have u' := u.weaken (T := (· ∈ ax ++ bx)) fun p hp => List.mem_append.2 (.inl hp)
    have k {s : List Nat} (hs : ∀ p ∈ ax ++ bx, p ∉ s) : vals h1 s = vals _ s := u'.vals fun p hp hp' => hs p hp' hp
    rw [← k fun p hp => (d p hp).2.2.1, ← k fun p hp => (d p hp).2.2.2, ← k fun p hp => (d p hp).1, ← k fun p hp => (d p hp).2.1,
      ← u.vals (s := bx) fun p hp hp' => dab p hp' p hp rfl]
    refine Ref.bind (Ref.load b0 i _) ?_
    rintro x _ _ ⟨rfl, rfl⟩
    refine Ref.bind (Ref.load b1 i _) ?_
    rintro y _ _ ⟨rfl, rfl⟩
    refine Ref.bind (Ref.store bx i (x + y) _ ndb) ?_
    rintro _ h2 _ ⟨rfl, v⟩
    have v' := v.weaken (T := (· ∈ ax ++ bx)) fun p hp => List.mem_append.2 (.inr hp)
    have k' {s : List Nat} (hs : ∀ p ∈ ax ++ bx, p ∉ s) : vals h2 s = vals _ s := v'.vals fun p hp hp' => hs p hp' hp
    rw [← k' fun p hp => (d p hp).2.2.1, ← k' fun p hp => (d p hp).2.2.2, ← k' fun p hp => (d p hp).1, ← k' fun p hp => (d p hp).2.1,
      ← v.vals (s := ax) fun p hp hp' => dab p hp p hp' rfl]
    refine (ih (i + 1) h2).mono ?_
    rintro _ h' r ⟨e, w⟩
    exact ⟨e, (u'.trans v').trans w⟩

theorem Ref.correct (z x y : List Nat) (m i : Nat) (h : Heap) (nd : z.Nodup) (d : ∀ p ∈ z, p ∉ x ∧ p ∉ y) :
    Ref (correct z x y m i h) (karaCorrect (vals h x) (vals h y) m i (vals h z)) fun _ h' r => r = vals h' z ∧ Upd (· ∈ z) h h' := by
  induction m generalizing i h with
  | zero => exact ⟨rfl, Upd.refl _ _⟩
  | succ m ih =>
    refine Ref.bind (Ref.load x i h) ?_
    rintro a _ _ ⟨rfl, rfl⟩
    refine Ref.bind (Ref.load y i _) ?_
    rintro b _ _ ⟨rfl, rfl⟩
    refine Ref.bind (Ref.addTo z i (-(a + b)) _ nd) ?_
    rintro _ h1 _ ⟨rfl, u⟩
    rw [← u.vals (s := x) fun p hp hp' => (d p hp').1 hp, ← u.vals (s := y) fun p hp hp' => (d p hp').2 hp]
    refine (ih (i + 1) h1).mono ?_
    rintro _ h' r ⟨e, w⟩
    exact ⟨e, u.trans w⟩

theorem Ref.combine (ab x y z : List Nat) (n n2 m i : Nat) (h : Heap) (nd : ab.Nodup) (d : ∀ p ∈ ab, p ∉ x ∧ p ∉ y ∧ p ∉ z) :
    Ref (combine ab x y z n n2 m i h) (karaCombine (vals h x) (vals h y) (vals h z) n n2 m i (vals h ab))
      fun _ h' r => r = vals h' ab ∧ Upd (· ∈ ab) h h' := by
  induction m generalizing i h with
  | zero => exact ⟨rfl, Upd.refl _ _⟩
  | succ m ih =>
    refine Ref.bind (Ref.load x i h) ?_
    rintro a _ _ ⟨rfl, rfl⟩
    refine Ref.bind (Ref.addTo ab i a _ nd) ?_
    rintro _ h1 _ ⟨rfl, u⟩
    rw [← u.vals (s := x) fun p hp hp' => (d p hp').1 hp, ← u.vals (s := y) fun p hp hp' => (d p hp').2.1 hp,
      ← u.vals (s := z) fun p hp hp' => (d p hp').2.2 hp]
    refine Ref.bind (Ref.load y i _) ?_
    rintro b _ _ ⟨rfl, rfl⟩
    refine Ref.bind (Ref.addTo ab (i + n) b _ nd) ?_
    rintro _ h2 _ ⟨rfl, u2⟩
    rw [← u2.vals (s := x) fun p hp hp' => (d p hp').1 hp, ← u2.vals (s := y) fun p hp hp' => (d p hp').2.1 hp,
      ← u2.vals (s := z) fun p hp hp' => (d p hp').2.2 hp]
    refine Ref.bind (Ref.load z i _) ?_
    rintro c _ _ ⟨rfl, rfl⟩
    refine Ref.bind (Ref.addTo ab (i + n2) c _ nd) ?_
    rintro _ h3 _ ⟨rfl, u3⟩
    rw [← u3.vals (s := x) fun p hp hp' => (d p hp').1 hp, ← u3.vals (s := y) fun p hp hp' => (d p hp').2.1 hp,
      ← u3.vals (s := z) fun p hp hp' => (d p hp').2.2 hp]
    refine (ih (i + 1) h3).mono ?_
    rintro _ h' r ⟨e, w⟩
    exact ⟨e, ((u.trans u2).trans u3).trans w⟩

end Falcon.Ptr
