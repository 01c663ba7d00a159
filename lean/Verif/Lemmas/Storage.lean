import Verif.Model.Storage
import Verif.Lemmas.Slice2
/-! The storage model of the floating-point code refines the model on lists: loops that fill a new array. -/

set_option linter.unusedSectionVars false

namespace Falcon.St
open Sl (bind_assoc' idx_drop idx_cases idx_lt)

/-- The laws of the two instances of `Elem`. -/
class LawfulElem (O : FloatOps) (E : Type) [Elem O E] : Prop where
  next_set (m : Mem O) (a : Nat) (l : List E) : (Elem.set m a l).next = m.next
  get_self (m : Mem O) (a : Nat) (l : List E) : Elem.get (Elem.set m a l) a = l
  other (m : Mem O) (a : Nat) (l : List E) (b : Nat) (h : b ≠ a) : (Elem.set m a l).cs b = m.cs b ∧ (Elem.set m a l).fs b = m.fs b
  get_cong (m m' : Mem O) (b : Nat) (h : m.cs b = m'.cs b) (h' : m.fs b = m'.fs b) : (Elem.get m b : List E) = Elem.get m' b
  set_set (m : Mem O) (a : Nat) (l l' : List E) : Elem.set (Elem.set m a l) a l' = Elem.set m a l'
  set_get (m : Mem O) (a : Nat) : Elem.set m a (Elem.get m a : List E) = m
  set_comm (m : Mem O) (a b : Nat) (h : a ≠ b) (l l' : List E) : Elem.set (Elem.set m a l) b l' = Elem.set (Elem.set m b l') a l
  set_bump (m : Mem O) (a n : Nat) (l : List E) : Elem.set { m with next := n } a l = { Elem.set m a l with next := n }

theorem upd_self {α : Type} (f : Nat → α) (a : Nat) (l : α) : upd f a l a = l := by simp [upd]

theorem upd_ne {α : Type} (f : Nat → α) (a : Nat) (l : α) (b : Nat) (h : b ≠ a) : upd f a l b = f b := by simp [upd, h]

theorem upd_upd {α : Type} (f : Nat → α) (a : Nat) (l l' : α) : upd (upd f a l) a l' = upd f a l' := by
  funext b
  by_cases h : b = a <;> simp [upd, h]

theorem upd_get {α : Type} (f : Nat → α) (a : Nat) : upd f a (f a) = f := by
  funext b
  by_cases h : b = a <;> simp [upd, h]

theorem upd_comm {α : Type} (f : Nat → α) (a b : Nat) (h : a ≠ b) (l l' : α) : upd (upd f a l) b l' = upd (upd f b l') a l := by
  funext c
  by_cases h1 : c = a <;> by_cases h2 : c = b <;> simp [upd, h1, h2]
  · exact absurd (h1.symm.trans h2) h
  · intro e; exact absurd e h
  · intro e; exact absurd e.symm h

instance (O : FloatOps) : LawfulElem O O.C where
  next_set _ _ _ := rfl
  get_self m a l := upd_self m.cs a l
  other m a l b h := ⟨upd_ne m.cs a l b h, rfl⟩
  get_cong _ _ _ h _ := h
  set_set m a l l' := congrArg (Mem.mk m.next · m.fs) (upd_upd m.cs a l l')
  set_get m a := congrArg (Mem.mk m.next · m.fs) (upd_get m.cs a)
  set_comm m a b h l l' := congrArg (Mem.mk m.next · m.fs) (upd_comm m.cs a b h l l')
  set_bump _ _ _ _ := rfl

instance (O : FloatOps) : LawfulElem O O.F where
  next_set _ _ _ := rfl
  get_self m a l := upd_self m.fs a l
  other m a l b h := ⟨rfl, upd_ne m.fs a l b h⟩
  get_cong _ _ _ _ h := h
  set_set m a l l' := congrArg (Mem.mk m.next m.cs) (upd_upd m.fs a l l')
  set_get m a := congrArg (Mem.mk m.next m.cs) (upd_get m.fs a)
  set_comm m a b h l l' := congrArg (Mem.mk m.next m.cs) (upd_comm m.fs a b h l l')
  set_bump _ _ _ _ := rfl

open LawfulElem

variable {O : FloatOps} {E E' : Type} [Elem O E] [LawfulElem O E] [Elem O E'] [LawfulElem O E']

theorem bind_apply {α β : Type} (x : H O α) (f : α → H O β) (m : Mem O) : (x >>= f) m = (x m >>= fun p => f p.1 p.2) := rfl

theorem pure_apply {α : Type} (a : α) (m : Mem O) : (pure a : H O α) m = .ok (a, m) := rfl

theorem run_apply {α : Type} (x : Go α) (m : Mem O) : run x m = (x >>= fun a => .ok (a, m)) := rfl

theorem make_apply (n : Nat) (m : Mem O) : make (E := E) n m = .ok (⟨m.next, 0, n⟩, m.push (List.replicate n (Elem.zero O : E))) := rfl

theorem load_apply (s : Slice E) (i : Nat) (m : Mem O) : load s i m = (idx (read m s) i >>= fun v => .ok (v, m)) := rfl

theorem store_apply (s : Slice E) (i : Nat) (v : E) (m : Mem O) (h : i < s.len) :
    store s i v m = .ok ((), Elem.set m s.id ((Elem.get m s.id).set (s.off + i) v)) := by
  unfold store
  rw [if_pos h]

/-! ### What stays unchanged -/

/-- No array that existed was changed. -/
structure Ext (m m' : Mem O) : Prop where
  next : m.next ≤ m'.next
  cs : ∀ a, a < m.next → m'.cs a = m.cs a
  fs : ∀ a, a < m.next → m'.fs a = m.fs a

theorem Ext.refl (m : Mem O) : Ext m m := ⟨Nat.le_refl _, fun _ _ => rfl, fun _ _ => rfl⟩

theorem Ext.trans {a b c : Mem O} (h : Ext a b) (h' : Ext b c) : Ext a c :=
  ⟨Nat.le_trans h.1 h'.1, fun x hx => (h'.2 x (Nat.lt_of_lt_of_le hx h.1)).trans (h.2 x hx),
    fun x hx => (h'.3 x (Nat.lt_of_lt_of_le hx h.1)).trans (h.3 x hx)⟩

theorem Ext.get {m m' : Mem O} (h : Ext m m') {a : Nat} (ha : a < m.next) : (Elem.get m' a : List E) = Elem.get m a :=
  get_cong _ _ _ (h.cs a ha) (h.fs a ha)

theorem get_ne (m : Mem O) (a : Nat) (l : List E) (b : Nat) (h : b ≠ a) : (Elem.get (Elem.set m a l) b : List E') = Elem.get m b :=
  get_cong _ _ _ (other m a l b h).1 (other m a l b h).2

theorem push_next (m : Mem O) (l : List E) : (m.push l).next = m.next + 1 := rfl

theorem push_get_ne (m : Mem O) (l : List E) (b : Nat) (h : b ≠ m.next) : (Elem.get (m.push l) b : List E') = Elem.get m b := by
  have := other m m.next l b h
  exact get_cong _ _ _ this.1 this.2

theorem push_get (m : Mem O) (l : List E) : Elem.get (m.push l) m.next = l :=
  (get_cong (E := E) (m.push l) (Elem.set m m.next l) m.next rfl rfl).trans (get_self m m.next l)

theorem ext_push (m : Mem O) (l : List E) : Ext m (m.push l) :=
  ⟨Nat.le_succ _, fun a ha => (other m m.next l a (by omega)).1, fun a ha => (other m m.next l a (by omega)).2⟩

/-- Overwriting an array made since `m` is not visible from `m`. -/
theorem Ext.set {m m' : Mem O} (h : Ext m m') {a : Nat} (ha : m.next ≤ a) (l : List E) : Ext m (Elem.set m' a l) :=
  ⟨by rw [next_set]; exact h.1, fun b hb => ((other m' a l b (by omega)).1).trans (h.2 b hb),
    fun b hb => ((other m' a l b (by omega)).2).trans (h.3 b hb)⟩

theorem push_set (m : Mem O) (l l' : List E) : Elem.set (m.push l) m.next l' = m.push l' := by
  unfold Mem.push
  rw [set_bump, set_set]

/-- A slice of an existing array, or an empty one. -/
def Valid (m : Mem O) (s : Slice E) : Prop := s.len = 0 ∨ s.id < m.next ∧ s.off + s.len ≤ (Elem.get m s.id : List E).length

/-- A slice of a whole array made since `m0`, or nil. -/
def New (m0 m : Mem O) (s : Slice E) : Prop :=
  s = nil ∨ (m0.next ≤ s.id ∧ s.id < m.next ∧ s.off = 0 ∧ (Elem.get m s.id : List E).length = s.len)

theorem Valid.read_length {m : Mem O} {s : Slice E} (h : Valid m s) : (read m s).length = s.len := by
  unfold St.read
  rcases h with h | h
  · simp [h]
  · simp only [List.length_take, List.length_drop]
    omega

theorem Valid.ext {m m' : Mem O} {s : Slice E} (h : Valid m s) (e : Ext m m') : Valid m' s := by
  refine h.imp id fun h => ⟨Nat.lt_of_lt_of_le h.1 e.1, ?_⟩
  rw [e.get h.1]
  exact h.2

theorem Valid.read {m m' : Mem O} {s : Slice E} (h : Valid m s) (e : Ext m m') : read m' s = read m s := by
  unfold St.read
  rcases h with h | h
  · simp [h]
  · rw [e.get h.1]

theorem New.valid {m0 m : Mem O} {s : Slice E} (h : New m0 m s) : Valid m s := by
  rcases h with rfl | ⟨_, h1, h2, h3⟩
  · exact .inl rfl
  · exact .inr ⟨h1, by omega⟩

theorem New.ext {m0 m m' : Mem O} {s : Slice E} (h : New m0 m s) (e : Ext m m') : New m0 m' s := by
  refine h.imp id fun ⟨h0, h1, h2, h3⟩ => ⟨h0, Nat.lt_of_lt_of_le h1 e.1, h2, ?_⟩
  rw [e.get h1]
  exact h3

theorem New.older {m0 m1 m : Mem O} {s : Slice E} (h : New m1 m s) (e : Ext m0 m1) : New m0 m s :=
  h.imp id fun ⟨h0, h1⟩ => ⟨Nat.le_trans e.1 h0, h1⟩

/-- A slice that does not see the array `a`. -/
def Off (a : Nat) (s : Slice E) : Prop := s.id ≠ a ∨ s.len = 0

theorem Off.read {a : Nat} {s : Slice E} (h : Off a s) (m : Mem O) (l : List E') : read (Elem.set m a l) s = read m s := by
  unfold St.read
  rcases h with h | h
  · rw [get_ne m a l s.id h]
  · simp [h]

theorem Valid.off {m : Mem O} {s : Slice E} (h : Valid m s) {a : Nat} (ha : m.next ≤ a) : Off a s := by
  rcases h with h | h
  · exact .inr h
  · exact .inl (by omega)

theorem load_off {a : Nat} {s : Slice E} (h : Off a s) (m : Mem O) (l : List E') (i : Nat) :
    load s i (Elem.set m a l) = (idx (read m s) i >>= fun v => .ok (v, Elem.set m a l)) := by
  rw [load_apply, h.read]

/-- A store into the whole-array slice of `a`. -/
theorem store_whole {s : Slice E} (h : s.off = 0) (m : Mem O) (l : List E) (i : Nat) (v : E) (hi : i < s.len) :
    store s i v (Elem.set m s.id l) = .ok ((), Elem.set m s.id (l.set i v)) := by
  rw [store_apply s i v _ hi, set_set, get_self, h, Nat.zero_add]

/-! ### Loops -/

/-- The results of the iterations `i`, `i+1`, … put together. -/
def chunks (c : Nat → Go (List E)) : Nat → Nat → Go (List E)
  | 0, _ => .ok []
  | j + 1, i => do
    let l ← c i
    let r ← chunks c j (i + 1)
    pure (l ++ r)

/-- A loop whose iteration `i` computes `k` numbers and stores them at `k*i`, ….  -/
theorem forLoop_from (body : Nat → H O Unit) (c : Nat → Go (List E)) (k n : Nat) (m : Mem O) (a : Nat)
    (hc : ∀ i l, c i = .ok l → l.length = k)
    (hb : ∀ i, i < n → ∀ A', A'.length = k * n →
      body i (Elem.set m a A') = (c i >>= fun l => .ok ((), Elem.set m a (A'.take (k * i) ++ l ++ A'.drop (k * i + k)))))
    (j i : Nat) (hij : i + j = n) (A' : List E) (hA : A'.length = k * n) :
    forLoop body j i (Elem.set m a A') = (chunks c j i >>= fun l => .ok ((), Elem.set m a (A'.take (k * i) ++ l))) := by
  induction j generalizing i A' with
  | zero =>
    have : i = n := by omega
    subst this
    simp only [forLoop, chunks, pure_apply, Go.ok_bind, List.append_nil]
    rw [List.take_of_length_le (by omega)]
  | succ j ih =>
    simp only [forLoop, chunks, bind_apply, Go.pure_eq]
    rw [hb i (by omega) A' hA, bind_assoc', bind_assoc']
    cases e : c i with
    | panic => rfl
    | diverge => rfl
    | ok l =>
      have hl := hc i l e
      have hki : k * i + k ≤ k * n := by
        have := Nat.mul_le_mul_left k (show i + 1 ≤ n by omega)
        rwa [Nat.mul_add, Nat.mul_one] at this
      have hk : k * (i + 1) = k * i + k := by rw [Nat.mul_add, Nat.mul_one]
      simp only [Go.ok_bind]
      have ht : (A'.take (k * i) ++ l).length = k * i + k := by simp; omega
      rw [ih (i + 1) (by omega) _ (by simp; omega), bind_assoc']
      simp only [Go.ok_bind]
      rw [hk, List.take_left' ht]
      simp only [List.append_assoc]

theorem set_one (A : List E) (i : Nat) (v : E) (h : i < A.length) : A.set i v = A.take i ++ [v] ++ A.drop (i + 1) := by
  rw [List.set_eq_take_append_cons_drop, if_pos h]
  simp

theorem set_two (A : List E) (i : Nat) (v w : E) (h : i + 1 < A.length) :
    (A.set i v).set (i + 1) w = A.take i ++ [v, w] ++ A.drop (i + 2) := by
  rw [set_one _ (i + 1) w (by simpa using h)]
  have h1 : (A.set i v).take (i + 1) = A.take i ++ [v] := by
    rw [List.take_add_one, List.take_set_of_le (Nat.le_refl i), List.getElem?_set_self (by omega)]
    rfl
  rw [h1, List.drop_set_of_lt (by omega)]
  simp

theorem chunks_length (c : Nat → Go (List E)) (k : Nat) (hc : ∀ i l, c i = .ok l → l.length = k) (j i : Nat) (l : List E)
    (h : chunks c j i = .ok l) : l.length = k * j := by
  induction j generalizing i l with
  | zero => simp [chunks] at h; subst h; simp
  | succ j ih =>
    simp only [chunks, Go.bind_eq_ok, Go.pure_eq, Go.ok.injEq] at h
    obtain ⟨x, hx, r, hr, rfl⟩ := h
    rw [List.length_append, hc _ _ hx, ih _ _ hr, Nat.mul_add, Nat.mul_one, Nat.add_comm]

/-- The same with one number for each of two arrays. -/
def chunks2 (c : Nat → Go (E × E)) : Nat → Nat → Go (List E × List E)
  | 0, _ => .ok ([], [])
  | j + 1, i => do
    let l ← c i
    let r ← chunks2 c j (i + 1)
    pure (l.1 :: r.1, l.2 :: r.2)

theorem chunks2_length (c : Nat → Go (E × E)) (j i : Nat) (l : List E × List E)
    (h : chunks2 c j i = .ok l) : l.1.length = j ∧ l.2.length = j := by
  induction j generalizing i l with
  | zero => simp [chunks2] at h; subst h; simp
  | succ j ih =>
    simp only [chunks2, Go.bind_eq_ok, Go.pure_eq, Go.ok.injEq] at h
    obtain ⟨x, hx, r, hr, rfl⟩ := h
    have := ih _ _ hr
    simp; omega

theorem forLoop_two (body : Nat → H O Unit) (c : Nat → Go (E × E)) (n : Nat) (m : Mem O) (a b : Nat)
    (hb : ∀ i, i < n → ∀ A B : List E, A.length = n → B.length = n →
      body i (Elem.set (Elem.set m a A) b B) = (c i >>= fun l => .ok ((), Elem.set (Elem.set m a (A.set i l.1)) b (B.set i l.2))))
    (j i : Nat) (hij : i + j = n) (A B : List E) (hA : A.length = n) (hB : B.length = n) :
    forLoop body j i (Elem.set (Elem.set m a A) b B) =
      (chunks2 c j i >>= fun l => .ok ((), Elem.set (Elem.set m a (A.take i ++ l.1)) b (B.take i ++ l.2))) := by
  induction j generalizing i A B with
  | zero =>
    simp only [forLoop, chunks2, pure_apply, Go.ok_bind, List.append_nil]
    rw [List.take_of_length_le (by omega), List.take_of_length_le (by omega)]
  | succ j ih =>
    simp only [forLoop, chunks2, bind_apply, Go.pure_eq]
    rw [hb i (by omega) A B hA hB, bind_assoc', bind_assoc']
    cases e : c i with
    | panic => rfl
    | diverge => rfl
    | ok l =>
      simp only [Go.ok_bind]
      rw [ih (i + 1) (by omega) _ _ (by simp; omega) (by simp; omega), bind_assoc']
      simp only [Go.ok_bind]
      have k (A : List E) (v : E) (h : i < A.length) : (A.set i v).take (i + 1) = A.take i ++ [v] := by
        rw [List.take_add_one, List.take_set_of_le (Nat.le_refl i), List.getElem?_set_self (by omega)]
        rfl
      rw [k _ _ (by omega), k _ _ (by omega)]
      simp only [List.append_assoc, List.singleton_append]

/-! ### Outcomes -/

/-- The outcomes are of the same kind; nothing that existed in `m` was changed; the results are related. -/
def Ref {α β : Type} (m : Mem O) (x : Go (α × Mem O)) (y : Go β) (R : α → Mem O → β → Prop) : Prop :=
  match x, y with
  | .ok (a, m'), .ok b => Ext m m' ∧ R a m' b
  | .panic, .panic => True
  | .diverge, .diverge => True
  | _, _ => False

theorem Ref.bind {α β γ δ : Type} {x : H O α} {f : α → H O γ} {m0 m : Mem O} {y : Go β} {g : β → Go δ} {R : α → Mem O → β → Prop}
    {R' : γ → Mem O → δ → Prop} (hx : Ref m0 (x m) y R) (hf : ∀ a m' b, Ext m0 m' → R a m' b → Ref m0 (f a m') (g b) R') :
    Ref m0 ((x >>= f) m) (y >>= g) R' := by
  rw [bind_apply]
  rcases e : x m with ⟨a, m'⟩ | _ | _ <;> cases e' : y <;> simp only [e, e', Ref] at hx
  · exact hf _ _ _ hx.1 hx.2
  · trivial
  · trivial

theorem Ref.mono {α β : Type} {m : Mem O} {x : Go (α × Mem O)} {y : Go β} {R R' : α → Mem O → β → Prop} (hx : Ref m x y R)
    (hf : ∀ a m' b, Ext m m' → R a m' b → R' a m' b) : Ref m x y R' := by
  rcases x with ⟨a, m'⟩ | _ | _ <;> cases y <;> simp only [Ref] at *
  exact ⟨hx.1, hf _ _ _ hx.1 hx.2⟩

theorem Ref.older {α β : Type} {m m1 : Mem O} {x : Go (α × Mem O)} {y : Go β} {R : α → Mem O → β → Prop} (e : Ext m m1) (h : Ref m1 x y R) :
    Ref m x y fun a m' b => R a m' b ∧ Ext m1 m' := by
  rcases x with ⟨a, m'⟩ | _ | _ <;> cases y <;> simp only [Ref] at *
  exact ⟨e.trans h.1, h.2, h.1⟩

theorem Ref.keepOk {α β : Type} {m : Mem O} {x : Go (α × Mem O)} {y : Go β} {R : α → Mem O → β → Prop} (h : Ref m x y R) :
    Ref m x y fun a m' b => y = .ok b ∧ R a m' b := by
  rcases x with ⟨a, m'⟩ | _ | _ <;> cases y <;> simp only [Ref] at *
  exact ⟨h.1, trivial, h.2⟩

theorem Ref.run {α : Type} (m : Mem O) (x : Go α) : Ref m (run x m) x fun a m' b => m' = m ∧ a = b := by
  cases x <;> simp [Ref, run_apply, Ext.refl]

theorem Ref.iff {α β : Type} {m : Mem O} {x : Go (α × Mem O)} {y : Go β} {R : α → Mem O → β → Prop} (hx : Ref m x y R) :
    (∀ b, y = .ok b → ∃ a m', x = .ok (a, m') ∧ Ext m m' ∧ R a m' b) ∧ (y = .panic ↔ x = .panic) ∧ (y = .diverge ↔ x = .diverge) := by
  rcases x with ⟨a, h⟩ | _ | _ <;> cases y <;> simp_all [Ref]

/-- The result is a new slice with the elements computed by the list model. -/
abbrev Gives (m : Mem O) (x : Go (Slice E × Mem O)) (y : Go (List E)) : Prop := Ref m x y fun s m' l => New m m' s ∧ read m' s = l

/-- Two new slices. -/
abbrev Gives2 (m : Mem O) (x : Go ((Slice E × Slice E) × Mem O)) (y : Go (List E × List E)) : Prop :=
  Ref m x y fun s m' l => (New m m' s.1 ∧ read m' s.1 = l.1) ∧ New m m' s.2 ∧ read m' s.2 = l.2

theorem Gives.older {m m1 : Mem O} {x : Go (Slice E × Mem O)} {y : Go (List E)} (e : Ext m m1) (h : Gives m1 x y) : Gives m x y := by
  rcases x with ⟨a, m'⟩ | _ | _ <;> cases y <;> simp only [Ref] at *
  exact ⟨e.trans h.1, h.2.1.older e, h.2.2⟩

theorem new_push (m : Mem O) (l : List E) :
    New m (m.push l) (⟨m.next, 0, l.length⟩ : Slice E) ∧ read (m.push l) (⟨m.next, 0, l.length⟩ : Slice E) = l := by
  refine ⟨.inr ⟨Nat.le_refl _, by simp [push_next], rfl, by rw [push_get]⟩, ?_⟩
  show ((Elem.get (m.push l) m.next : List E).drop 0).take l.length = l
  rw [push_get, List.drop_zero, List.take_length]

theorem lits_gives (m : Mem O) (l : List E) : Gives m (lits l m) (.ok l) := ⟨ext_push m l, new_push m l⟩

theorem make_gives (m : Mem O) (n : Nat) : Gives m (make n m) (.ok (List.replicate n (Elem.zero O : E))) := by
  have h := new_push m (List.replicate n (Elem.zero O : E))
  rw [List.length_replicate] at h
  exact ⟨ext_push m _, h⟩

/-- Filling an array just made. -/
theorem Gives.loop (body : Slice E → Nat → H O Unit) (c : Nat → Go (List E)) (k n len : Nat) (m : Mem O) (hlen : len = k * n)
    (hc : ∀ i l, c i = .ok l → l.length = k)
    (hb : ∀ s : Slice E, s.id = m.next → s.off = 0 → s.len = k * n → ∀ i, i < n → ∀ A' : List E, A'.length = k * n → ∀ M, Ext m M →
      body s i (Elem.set M s.id A') = (c i >>= fun l => .ok ((), Elem.set M s.id (A'.take (k * i) ++ l ++ A'.drop (k * i + k))))) :
    Gives m ((do forLoop (body ⟨m.next, 0, len⟩) n 0; pure ⟨m.next, 0, len⟩ : H O (Slice E)) (m.push (List.replicate len (Elem.zero O : E))))
      (chunks c n 0) := by
  subst hlen
  have e0 := push_set m ([] : List E) (List.replicate (k * n) (Elem.zero O))
  rw [bind_apply, ← e0]
  rw [forLoop_from (body ⟨m.next, 0, k * n⟩) c k n (m.push ([] : List E)) m.next hc
    (fun i hi A' hA => hb ⟨m.next, 0, k * n⟩ rfl rfl rfl i hi A' hA _ (ext_push m _)) n 0 (by omega) _ (by simp), bind_assoc']
  cases e : chunks c n 0 with
  | panic => trivial
  | diverge => trivial
  | ok l =>
    have hl := chunks_length c k hc n 0 l e
    simp only [Go.ok_bind, pure_apply, push_set, Nat.mul_zero, List.take_zero, List.nil_append]
    rw [← hl]
    exact ⟨ext_push m l, new_push m l⟩

/-- Making an array and filling it. -/
theorem Gives.fill (body : Slice E → Nat → H O Unit) (c : Nat → Go (List E)) (k n len : Nat) (m : Mem O) (hlen : len = k * n)
    (hc : ∀ i l, c i = .ok l → l.length = k)
    (hb : ∀ s : Slice E, s.id = m.next → s.off = 0 → s.len = k * n → ∀ i, i < n → ∀ A' : List E, A'.length = k * n → ∀ M, Ext m M →
      body s i (Elem.set M s.id A') = (c i >>= fun l => .ok ((), Elem.set M s.id (A'.take (k * i) ++ l ++ A'.drop (k * i + k))))) :
    Gives m ((do let s ← make len; forLoop (body s) n 0; pure s : H O (Slice E)) m) (chunks c n 0) :=
  Gives.loop body c k n len m hlen hc hb

theorem Gives2.fill (body : Slice E → Slice E → Nat → H O Unit) (c : Nat → Go (E × E)) (n : Nat) (m : Mem O)
    (hb : ∀ s t : Slice E, s.id = m.next → s.off = 0 → s.len = n → t.id = m.next + 1 → t.off = 0 → t.len = n →
      ∀ i, i < n → ∀ A B : List E, A.length = n → B.length = n → ∀ M : Mem O, Ext m M →
      body s t i (Elem.set (Elem.set M s.id A) t.id B) =
        (c i >>= fun l => .ok ((), Elem.set (Elem.set M s.id (A.set i l.1)) t.id (B.set i l.2)))) :
    Gives2 m ((do let s ← make n; let t ← make n; forLoop (body s t) n 0; pure (s, t) : H O (Slice E × Slice E)) m) (chunks2 c n 0) := by
  simp only [bind_apply, make_apply, Go.ok_bind]
  generalize hM : (m.push (List.replicate n (Elem.zero O : E))).push (List.replicate n (Elem.zero O : E)) = M
  have hx : Ext m M := hM ▸ (ext_push m _).trans (ext_push _ _)
  have hn : M.next = m.next + 2 := hM ▸ rfl
  have e2 : (Elem.get M (m.next + 1) : List E) = List.replicate n (Elem.zero O) := by
    rw [← hM]
    exact push_get (m.push (List.replicate n (Elem.zero O : E))) _
  have e1 : (Elem.get M m.next : List E) = List.replicate n (Elem.zero O) := by
    rw [← hM, push_get_ne _ _ _ (by rw [push_next]; omega), push_get]
  have e : M = Elem.set (Elem.set M m.next (List.replicate n (Elem.zero O : E))) (m.next + 1) (List.replicate n (Elem.zero O : E)) := by
    conv_lhs => rw [← set_get (E := E) M m.next, e1]
    conv_lhs => rw [← set_get (E := E) (Elem.set M m.next (List.replicate n (Elem.zero O : E))) (m.next + 1)]
    rw [get_ne (E' := E) _ _ _ _ (show m.next + 1 ≠ m.next by omega), e2]
  have := forLoop_two (body ⟨m.next, 0, n⟩ ⟨m.next + 1, 0, n⟩) c n M m.next (m.next + 1)
    (fun i hi A B hA hB => hb ⟨m.next, 0, n⟩ ⟨m.next + 1, 0, n⟩ rfl rfl rfl rfl rfl rfl i hi A B hA hB M hx) n 0 (by omega)
    (List.replicate n (Elem.zero O)) (List.replicate n (Elem.zero O)) (by simp) (by simp)
  rw [← e] at this
  change Gives2 m (forLoop (body ⟨m.next, 0, n⟩ ⟨m.next + 1, 0, n⟩) n 0 M >>= _) _
  rw [this, bind_assoc']
  cases e : chunks2 c n 0 with
  | panic => trivial
  | diverge => trivial
  | ok l =>
    have hl := chunks2_length c n 0 l e
    simp only [Go.ok_bind, pure_apply, List.take_zero, List.nil_append]
    have g1 : (Elem.get (Elem.set (Elem.set M m.next l.1) (m.next + 1) l.2) m.next : List E) = l.1 := by
      rw [get_ne (E' := E) _ _ _ _ (by omega), get_self]
    have g2 : (Elem.get (Elem.set (Elem.set M m.next l.1) (m.next + 1) l.2) (m.next + 1) : List E) = l.2 := get_self _ _ _
    have hn' : (Elem.set (Elem.set M m.next l.1) (m.next + 1) l.2).next = m.next + 2 := by rw [next_set, next_set, hn]
    refine ⟨(hx.set (Nat.le_refl _) _).set (by omega) _,
      ⟨.inr ⟨Nat.le_refl _, ?_, rfl, ?_⟩, ?_⟩, .inr ⟨Nat.le_succ _, ?_, rfl, ?_⟩, ?_⟩
    · rw [hn']; show m.next < _; omega
    · show (Elem.get _ m.next : List E).length = n
      rw [g1, hl.1]
    · show ((Elem.get _ m.next : List E).drop 0).take n = l.1
      rw [g1, List.drop_zero, List.take_of_length_le (by omega)]
    · rw [hn']; show m.next + 1 < _; omega
    · show (Elem.get _ (m.next + 1) : List E).length = n
      rw [g2, hl.2]
    · show ((Elem.get _ (m.next + 1) : List E).drop 0).take n = l.2
      rw [g2, List.drop_zero, List.take_of_length_le (by omega)]

/-- A load that sees neither array. -/
theorem load_off2 {a b : Nat} {s : Slice E} (h : Off a s) (h' : Off b s) (m : Mem O) (l l' : List E') (i : Nat) :
    load s i (Elem.set (Elem.set m a l) b l') = (idx (read m s) i >>= fun v => .ok (v, Elem.set (Elem.set m a l) b l')) := by
  rw [load_apply, h'.read, h.read]

theorem store_first {s : Slice E} (h : s.off = 0) {b : Nat} (hb : s.id ≠ b) (m : Mem O) (l l' : List E) (i : Nat) (v : E) (hi : i < s.len) :
    store s i v (Elem.set (Elem.set m s.id l) b l') = .ok ((), Elem.set (Elem.set m s.id (l.set i v)) b l') := by
  rw [set_comm _ _ _ hb, store_whole h (Elem.set m b l') _ _ _ hi, set_comm _ _ _ hb.symm]

end Falcon.St
