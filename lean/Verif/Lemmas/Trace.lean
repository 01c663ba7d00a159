import Verif.Model.Trace
import Verif.Lemmas.Slice3
/-! Programs with the same accesses. -/

namespace Falcon.Sl

/-- Two memories that differ only in the values of the elements. -/
structure Shape (m m' : Mem) : Prop where
  base : m.base = m'.base
  made : m.made = m'.made
  fault : m.fault = m'.fault
  len : ∀ a, (m.arr a).length = (m'.arr a).length

theorem Shape.next {m m' : Mem} (h : Shape m m') : m.next = m'.next := by rw [Mem.next, Mem.next, h.base, h.made]

theorem Shape.push {m m' : Mem} (h : Shape m m') {l l' : List Int16} (hl : l.length = l'.length) : Shape (m.push l) (m'.push l') where
  base := h.base
  made := by simp [Mem.push, h.made]
  fault := h.fault
  len a := by
    simp only [Mem.push, h.next]
    split
    · exact hl
    · exact h.len a

theorem Shape.set {m m' : Mem} (h : Shape m m') (a i : Nat) (v v' : Int16) :
    Shape (m.setArr a ((m.arr a).set i v)) (m'.setArr a ((m'.arr a).set i v')) where
  base := h.base
  made := h.made
  fault := h.fault
  len b := by
    simp only [Mem.setArr]
    split
    · simp [h.len a]
    · exact h.len b

/-- Two runs with the same accesses, which end with related results and memories. -/
def SameAt {α β : Type} (R : α → Mem → β → Mem → Prop) : MM α → Mem → MM β → Mem → Prop
  | .done (.ok a), m, .done (.ok b), m' => R a m b m'
  | .done .panic, _, .done .panic, _ => True
  | .done .diverge, _, .done .diverge, _ => True
  | .make l k, m, .make l' k', m' => l.length = l'.length ∧ SameAt R (k m.next) (m.push l) (k' m'.next) (m'.push l')
  | .load a i k, m, .load a' i' k', m' => a = a' ∧ i = i' ∧ ((m.arr a)[i]? = none ↔ (m'.arr a)[i]? = none) ∧
      ∀ v v', (m.arr a)[i]? = some v → (m'.arr a)[i]? = some v' → SameAt R (k v) m (k' v') m'
  | .store a i v k, m, .store a' i' v' k', m' => a = a' ∧ i = i' ∧
      SameAt R k (m.setArr a ((m.arr a).set i v)) k' (m'.setArr a ((m'.arr a).set i v'))
  | .look i k, m, .look i' k', m' => i = i' ∧ ∀ v, invAt i = .ok v → SameAt R (k v) m (k' v) m'
  | _, _, _, _ => False

theorem SameAt.trace {α β : Type} {R : α → Mem → β → Mem → Prop} {p : MM α} {m : Mem} {q : MM β} {m' : Mem} (h : SameAt R p m q m') :
    trace p m = trace q m' := by
  induction p generalizing m q m' with
  | done r => cases r <;> rcases q with (_ | _ | _) | _ | _ | _ | _ <;> simp_all [SameAt, Sl.trace]
  | make l k ih =>
    rcases q with (_ | _ | _) | ⟨l', k'⟩ | _ | _ | _ <;> simp only [SameAt] at h
    simp only [Sl.trace, h.1, ih _ h.2]
  | load a i k ih =>
    rcases q with (_ | _ | _) | _ | ⟨a', i', k'⟩ | _ | _ <;> simp only [SameAt] at h
    obtain ⟨rfl, rfl, h1, h2⟩ := h
    simp only [Sl.trace]
    congr 1
    cases e : (m.arr a)[i]? with
    | none => rw [h1.1 e]
    | some v =>
      cases e' : (m'.arr a)[i]? with
      | none => rw [h1.2 e'] at e; cases e
      | some v' => exact ih _ (h2 v v' e e')
  | store a i v k ih =>
    rcases q with (_ | _ | _) | _ | _ | ⟨a', i', v', k'⟩ | _ <;> simp only [SameAt] at h
    obtain ⟨rfl, rfl, h2⟩ := h
    simp only [Sl.trace, ih h2]
  | look i k ih =>
    rcases q with (_ | _ | _) | _ | _ | _ | ⟨i', k'⟩ <;> simp only [SameAt] at h
    obtain ⟨rfl, h2⟩ := h
    simp only [Sl.trace]
    congr 1
    cases e : invAt i with
    | ok v => exact ih _ (h2 v e)
    | panic => rfl
    | diverge => rfl

theorem SameAt.bind {α β γ δ : Type} {R : α → Mem → β → Mem → Prop} {S : γ → Mem → δ → Mem → Prop} {p : MM α} {m : Mem} {q : MM β} {m' : Mem}
    {f : α → MM γ} {g : β → MM δ} (h : SameAt R p m q m') (hf : ∀ a m1 b m1', R a m1 b m1' → SameAt S (f a) m1 (g b) m1') :
    SameAt S (p >>= f) m (q >>= g) m' := by
  show SameAt S (p.bind f) m (q.bind g) m'
  induction p generalizing m q m' with
  | done r =>
    cases r <;> rcases q with (_ | _ | _) | _ | _ | _ | _ <;> simp only [SameAt] at h
    · exact hf _ _ _ _ h
    · simp [MM.bind, SameAt]
    · simp [MM.bind, SameAt]
  | make l k ih =>
    rcases q with (_ | _ | _) | ⟨l', k'⟩ | _ | _ | _ <;> simp only [SameAt] at h
    exact ⟨h.1, ih _ h.2⟩
  | load a i k ih =>
    rcases q with (_ | _ | _) | _ | ⟨a', i', k'⟩ | _ | _ <;> simp only [SameAt] at h
    exact ⟨h.1, h.2.1, h.2.2.1, fun v v' e e' => ih _ (h.2.2.2 v v' e e')⟩
  | store a i v k ih =>
    rcases q with (_ | _ | _) | _ | _ | ⟨a', i', v', k'⟩ | _ <;> simp only [SameAt] at h
    exact ⟨h.1, h.2.1, ih h.2.2⟩
  | look i k ih =>
    rcases q with (_ | _ | _) | _ | _ | _ | ⟨i', k'⟩ <;> simp only [SameAt] at h
    exact ⟨h.1, fun v e => ih _ (h.2 v e)⟩

/-- The results of two runs that succeed. -/
theorem SameAt.post {α β : Type} {R : α → Mem → β → Mem → Prop} {p : MM α} {m : Mem} {q : MM β} {m' : Mem} (h : SameAt R p m q m') {a : α}
    {m1 : Mem} (e : exec p m = .ok (a, m1)) {b : β} {m1' : Mem} (e' : exec q m' = .ok (b, m1')) :
    R a m1 b m1' ∧ SameAt (fun x n y n' => x = a ∧ n = m1 ∧ y = b ∧ n' = m1') p m q m' := by
  induction p generalizing m q m' with
  | done r =>
    cases r <;> rcases q with (_ | _ | _) | _ | _ | _ | _ <;> simp only [SameAt] at h
    · simp only [exec, Go.ok_bind, Go.ok.injEq, Prod.mk.injEq] at e e'
      obtain ⟨rfl, rfl⟩ := e
      obtain ⟨rfl, rfl⟩ := e'
      exact ⟨h, rfl, rfl, rfl, rfl⟩
    · cases e
    · cases e
  | make l k ih =>
    rcases q with (_ | _ | _) | ⟨l', k'⟩ | _ | _ | _ <;> simp only [SameAt] at h
    have := ih _ h.2 e e'
    exact ⟨this.1, h.1, this.2⟩
  | load a i k ih =>
    rcases q with (_ | _ | _) | _ | ⟨a', i', k'⟩ | _ | _ <;> simp only [SameAt] at h
    obtain ⟨rfl, rfl, h1, h2⟩ := h
    simp only [exec, idx] at e e'
    cases hv : (m.arr a)[i]? with
    | none => rw [hv] at e; cases e
    | some v =>
      cases hv' : (m'.arr a)[i]? with
      | none => rw [hv'] at e'; cases e'
      | some v' =>
        rw [hv] at e
        rw [hv'] at e'
        simp only [Go.ok_bind] at e e'
        have := ih _ (h2 v v' hv hv') e e'
        refine ⟨this.1, rfl, rfl, h1, fun w w' ew ew' => ?_⟩
        rw [hv] at ew
        rw [hv'] at ew'
        cases ew
        cases ew'
        exact this.2
  | store a i v k ih =>
    rcases q with (_ | _ | _) | _ | _ | ⟨a', i', v', k'⟩ | _ <;> simp only [SameAt] at h
    obtain ⟨rfl, rfl, h2⟩ := h
    simp only [exec] at e e'
    split at e
    · split at e <;> cases e
    · split at e'
      · split at e' <;> cases e'
      · have := ih h2 e e'
        exact ⟨this.1, rfl, rfl, this.2⟩
  | look i k ih =>
    rcases q with (_ | _ | _) | _ | _ | _ | ⟨i', k'⟩ <;> simp only [SameAt] at h
    obtain ⟨rfl, h2⟩ := h
    simp only [exec] at e e'
    cases hv : invAt i with
    | panic => rw [hv] at e; cases e
    | diverge => rw [hv] at e; cases e
    | ok v =>
      rw [hv] at e e'
      have := ih _ (h2 v hv) e e'
      refine ⟨this.1, rfl, fun w ew => ?_⟩
      rw [hv] at ew
      cases ew
      exact this.2

theorem SameAt.mono {α β : Type} {R S : α → Mem → β → Mem → Prop} {p : MM α} {m : Mem} {q : MM β} {m' : Mem} (h : SameAt R p m q m')
    (hf : ∀ a m1 b m1', R a m1 b m1' → S a m1 b m1') : SameAt S p m q m' := by
  induction p generalizing m q m' with
  | done r =>
    cases r <;> rcases q with (_ | _ | _) | _ | _ | _ | _ <;> simp only [SameAt] at h ⊢
    exact hf _ _ _ _ h
  | make l k ih =>
    rcases q with (_ | _ | _) | ⟨l', k'⟩ | _ | _ | _ <;> simp only [SameAt] at h
    exact ⟨h.1, ih _ h.2⟩
  | load a i k ih =>
    rcases q with (_ | _ | _) | _ | ⟨a', i', k'⟩ | _ | _ <;> simp only [SameAt] at h
    exact ⟨h.1, h.2.1, h.2.2.1, fun v v' e e' => ih _ (h.2.2.2 v v' e e')⟩
  | store a i v k ih =>
    rcases q with (_ | _ | _) | _ | _ | ⟨a', i', v', k'⟩ | _ <;> simp only [SameAt] at h
    exact ⟨h.1, h.2.1, ih h.2.2⟩
  | look i k ih =>
    rcases q with (_ | _ | _) | _ | _ | _ | ⟨i', k'⟩ <;> simp only [SameAt] at h
    exact ⟨h.1, fun v e => ih _ (h.2 v e)⟩

/-- Code whose accesses do not depend on the elements. -/
def Same {α : Type} (R : α → α → Prop) (p q : MM α) : Prop :=
  ∀ m m', Shape m m' → SameAt (fun a m1 b m1' => R a b ∧ Shape m1 m1') p m q m'

theorem Same.bind {α β : Type} {R : α → α → Prop} {S : β → β → Prop} {p q : MM α} {f g : α → MM β} (h : Same R p q)
    (hf : ∀ a b, R a b → Same S (f a) (g b)) : Same S (p >>= f) (q >>= g) := fun m m' hm =>
  (h m m' hm).bind fun a m1 b m1' hr => hf a b hr.1 m1 m1' hr.2

theorem Same.pure {α : Type} {R : α → α → Prop} {a b : α} (h : R a b) : Same R (Pure.pure a) (Pure.pure b) := fun _ _ hm => ⟨h, hm⟩

theorem Same.fail {α : Type} {R : α → α → Prop} : Same R (run .panic) (run .panic) := fun _ _ _ => trivial

theorem Same.diverge {α : Type} {R : α → α → Prop} : Same R (run .diverge) (run .diverge) := fun _ _ _ => trivial

/-- Any two values are related. -/
def Any {α : Type} (_ _ : α) : Prop := True

theorem Same.wrap (x y : Int) : Same Any (run (wrap64 x)) (run (wrap64 y)) := fun _ _ hm => ⟨trivial, hm⟩

theorem Same.run {α : Type} (x : Go α) : Same Eq (run x) (run x) := fun _ _ hm => by
  cases x
  · exact ⟨rfl, hm⟩
  · trivial
  · trivial

theorem Same.make (n : Nat) : Same Eq (make n) (make n) := fun m m' hm => by
  refine ⟨rfl, ?_, hm.push rfl⟩
  rw [hm.next]

theorem Same.load (s : Slice) (i : Nat) : Same Any (load s i) (load s i) := fun m m' hm => by
  unfold Sl.load
  split
  · refine ⟨rfl, rfl, ?_, fun v v' _ _ => ⟨trivial, hm⟩⟩
    rw [List.getElem?_eq_none_iff, List.getElem?_eq_none_iff, hm.len]
  · trivial

theorem Same.store (s : Slice) (i : Nat) (v v' : Int16) : Same Any (store s i v) (store s i v') := fun m m' hm => by
  unfold Sl.store
  split
  · exact ⟨rfl, rfl, trivial, hm.set _ _ _ _⟩
  · trivial

theorem Same.lookup (i : Int) : Same Eq (lookup i) (lookup i) := fun _ _ hm => ⟨rfl, fun _ _ => ⟨rfl, hm⟩⟩

theorem Same.loop {body : Nat → MM Unit} (h : ∀ i, Same Any (body i) (body i)) (n i : Nat) : Same Any (forLoop body n i) (forLoop body n i) := by
  induction n generalizing i with
  | zero => exact Same.pure trivial
  | succ n ih => exact (h i).bind fun _ _ _ => ih _

theorem same_splitPolys (f : Slice) : Same Eq (SplitPolysInt f) (SplitPolysInt f) := by
  refine (Same.make _).bind ?_
  rintro f0 _ rfl
  refine (Same.make _).bind ?_
  rintro f1 _ rfl
  refine (Same.loop (fun i => ?_) _ _).bind fun _ _ _ => Same.pure rfl
  exact (Same.load _ _).bind fun _ _ _ => (Same.store _ _ _ _).bind fun _ _ _ => (Same.load _ _).bind fun _ _ _ => Same.store _ _ _ _

theorem same_mergePolys (f0 f1 : Slice) : Same Eq (MergePolysInt f0 f1) (MergePolysInt f0 f1) := by
  refine (Same.make _).bind ?_
  rintro f _ rfl
  refine (Same.loop (fun i => ?_) _ _).bind fun _ _ _ => Same.pure rfl
  exact (Same.load _ _).bind fun _ _ _ => (Same.store _ _ _ _).bind fun _ _ _ => (Same.load _ _).bind fun _ _ _ => Same.store _ _ _ _

theorem same_split (f : Slice) : Same Eq (SplitNTT wrap64 f) (SplitNTT wrap64 f) := by
  refine (Same.make _).bind ?_
  rintro f0 _ rfl
  refine (Same.make _).bind ?_
  rintro f1 _ rfl
  refine (Same.loop (fun i => ?_) _ _).bind fun _ _ _ => Same.pure rfl
  refine (Same.load _ _).bind fun _ _ _ => (Same.load _ _).bind fun _ _ _ => (Same.wrap _ _).bind fun _ _ _ => (Same.wrap _ _).bind fun _ _ _ =>
    (Same.store _ _ _ _).bind fun _ _ _ => (Same.load _ _).bind fun _ _ _ => (Same.load _ _).bind fun _ _ _ => (Same.wrap _ _).bind fun _ _ _ =>
    (Same.wrap _ _).bind fun _ _ _ => (Same.run _).bind ?_
  rintro wa _ rfl
  exact (Same.lookup _).bind fun _ _ _ => (Same.wrap _ _).bind fun _ _ _ => Same.store _ _ _ _

theorem same_merge (f0 f1 : Slice) : Same Eq (MergeNTT wrap64 f0 f1) (MergeNTT wrap64 f0 f1) := by
  refine (Same.make _).bind ?_
  rintro f _ rfl
  refine (Same.loop (fun i => ?_) _ _).bind fun _ _ _ => Same.pure rfl
  exact (Same.run _).bind fun _ _ _ => (Same.load _ _).bind fun _ _ _ => (Same.wrap _ _).bind fun _ _ _ => (Same.load _ _).bind fun _ _ _ =>
    (Same.wrap _ _).bind fun _ _ _ => (Same.store _ _ _ _).bind fun _ _ _ => (Same.run _).bind fun _ _ _ => (Same.load _ _).bind fun _ _ _ =>
    (Same.wrap _ _).bind fun _ _ _ => (Same.load _ _).bind fun _ _ _ => (Same.wrap _ _).bind fun _ _ _ => Same.store _ _ _ _

theorem same_pair (x y x' y' : Int16) : Same Eq (pair x y) (pair x' y') := by
  refine (Same.make _).bind ?_
  rintro f _ rfl
  exact (Same.store _ _ _ _).bind fun _ _ _ => (Same.store _ _ _ _).bind fun _ _ _ => Same.pure rfl

theorem same_ntt (d : Nat) (f : Slice) : Same Eq (NTT wrap64 d f) (NTT wrap64 d f) := by
  induction d generalizing f with
  | zero => exact Same.diverge
  | succ d ih =>
    unfold NTT
    split
    · refine (same_splitPolys f).bind ?_
      rintro ⟨f0, f1⟩ _ rfl
      refine (ih f0).bind ?_
      rintro s0 _ rfl
      refine (ih f1).bind ?_
      rintro s1 _ rfl
      exact same_merge _ _
    · split
      · exact (Same.load _ _).bind fun _ _ _ => (Same.wrap _ _).bind fun _ _ _ => (Same.load _ _).bind fun _ _ _ => (Same.wrap _ _).bind fun _ _ _ =>
          (Same.load _ _).bind fun _ _ _ => (Same.wrap _ _).bind fun _ _ _ => same_pair _ _ _ _
      · exact Same.pure rfl

theorem same_intt (d : Nat) (f : Slice) : Same Eq (INTT wrap64 d f) (INTT wrap64 d f) := by
  induction d generalizing f with
  | zero => exact Same.diverge
  | succ d ih =>
    unfold INTT
    split
    · refine (same_split f).bind ?_
      rintro ⟨f0, f1⟩ _ rfl
      refine (ih f0).bind ?_
      rintro s0 _ rfl
      refine (ih f1).bind ?_
      rintro s1 _ rfl
      exact same_mergePolys _ _
    · split
      · exact (Same.load _ _).bind fun _ _ _ => (Same.load _ _).bind fun _ _ _ => (Same.wrap _ _).bind fun _ _ _ => (Same.wrap _ _).bind fun _ _ _ =>
          (Same.load _ _).bind fun _ _ _ => (Same.load _ _).bind fun _ _ _ => (Same.wrap _ _).bind fun _ _ _ => (Same.lookup _).bind fun _ _ _ =>
          (Same.wrap _ _).bind fun _ _ _ => (Same.wrap _ _).bind fun _ _ _ => same_pair _ _ _ _
      · exact Same.pure rfl

theorem same_mul (f g : Slice) : Same Eq (MulZq wrap64 f g) (MulZq wrap64 f g) := by
  refine (same_ntt _ f).bind ?_
  rintro s _ rfl
  refine (same_ntt _ g).bind ?_
  rintro t _ rfl
  refine Same.bind (R := Eq) ?_ ?_
  · refine (Same.make _).bind ?_
    rintro r _ rfl
    split
    · exact Same.fail
    · refine (Same.loop (fun i => ?_) _ _).bind fun _ _ _ => Same.pure rfl
      exact (Same.load _ _).bind fun _ _ _ => (Same.load _ _).bind fun _ _ _ => (Same.wrap _ _).bind fun _ _ _ => Same.store _ _ _ _
  · rintro p _ rfl
    exact same_intt _ p

theorem same_sub (f g : Slice) : Same Eq (SubZq f g) (SubZq f g) := by
  refine Same.bind (R := Eq) ?_ ?_
  · refine (Same.make _).bind ?_
    rintro r _ rfl
    refine (Same.loop (fun i => ?_) _ _).bind fun _ _ _ => Same.pure rfl
    exact (Same.load _ _).bind fun _ _ _ => Same.store _ _ _ _
  · rintro t _ rfl
    refine (Same.make _).bind ?_
    rintro r _ rfl
    split
    · exact Same.fail
    · refine (Same.loop (fun i => ?_) _ _).bind fun _ _ _ => Same.pure rfl
      exact (Same.load _ _).bind fun _ _ _ => (Same.load _ _).bind fun _ _ _ => Same.store _ _ _ _

end Falcon.Sl
