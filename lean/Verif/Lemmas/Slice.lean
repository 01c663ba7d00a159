import Verif.Model.Slice
/-! The slice model refines the model on lists: loops that fill a new array, and what each function leaves unchanged. -/

namespace Falcon.Sl

theorem bind_assoc' {α β γ : Type} (x : Go α) (f : α → Go β) (g : β → Go γ) : (x >>= f) >>= g = x >>= fun a => f a >>= g := by
  cases x <;> rfl

theorem bind_apply {α β : Type} (x : MM α) (f : α → MM β) (m : Mem) : (x >>= f) m = (x m >>= fun p => f p.1 p.2) := by
  show exec (MM.bind x f) m = _
  induction x generalizing m with
  | done r => cases r <;> rfl
  | make l k ih => simp only [MM.bind, exec, ih]
  | load a i k ih => simp only [MM.bind, exec, ih, bind_assoc']
  | store a i v k ih =>
    simp only [MM.bind, exec, ih]
    split
    · split <;> rfl
    · rfl
  | look i k ih => simp only [MM.bind, exec, ih, bind_assoc']

instance : LawfulMonad MM := LawfulMonad.mk'
  (id_map := fun x => by
    show MM.bind x (fun a => MM.done (.ok a)) = x
    induction x with
    | done r => cases r <;> rfl
    | make l k ih => simp only [MM.bind, ih]
    | load a i k ih => simp only [MM.bind, ih]
    | store a i v k ih => simp only [MM.bind, ih]
    | look i k ih => simp only [MM.bind, ih])
  (pure_bind := fun _ _ => rfl)
  (bind_assoc := fun x f g => by
    show MM.bind (MM.bind x f) g = MM.bind x fun a => MM.bind (f a) g
    induction x with
    | done r => cases r <;> rfl
    | make l k ih => simp only [MM.bind, ih]
    | load a i k ih => simp only [MM.bind, ih]
    | store a i v k ih => simp only [MM.bind, ih]
    | look i k ih => simp only [MM.bind, ih])

theorem pure_apply {α : Type} (a : α) (m : Mem) : (pure a : MM α) m = .ok (a, m) := rfl

theorem run_apply {α : Type} (x : Go α) (m : Mem) : run x m = (x >>= fun a => .ok (a, m)) := rfl

theorem lookup_apply (i : Int) (m : Mem) : lookup i m = (invAt i >>= fun v => .ok (v, m)) := rfl

theorem invAt_nat (n : Nat) : invAt n = idx inv_mod_q n := by
  unfold invAt
  rw [if_neg (by omega), Int.toNat_natCast]

theorem invAt_1479 : invAt 1479 = idx inv_mod_q 1479 := invAt_nat 1479

theorem make_apply (n : Nat) (m : Mem) : make n m = .ok (⟨m.next, 0, n, n⟩, m.push (List.replicate n 0)) := rfl

theorem load_apply (s : Slice) (i : Nat) (m : Mem) : load s i m = (idx (read m s) i >>= fun v => .ok (v, m)) := by
  unfold load
  split
  · rename_i h
    show (idx (m.arr s.id) (s.off + i) >>= fun v => Go.ok (v, m)) = _
    congr 1
    unfold idx read
    rw [List.getElem?_take_of_lt h, List.getElem?_drop]
  · rename_i h
    have : idx (read m s) i = .panic := by
      unfold idx read
      rw [List.getElem?_eq_none (by simp; omega)]
    rw [this]
    rfl

theorem store_apply (s : Slice) (i : Nat) (v : Int16) (m : Mem) (h : i < s.len) (hb : m.base ≤ s.id) :
    store s i v m = .ok ((), m.setArr s.id ((m.arr s.id).set (s.off + i) v)) := by
  unfold store
  rw [if_pos h]
  show (if s.id < m.base then _ else _) = _
  rw [if_neg (by omega)]
  rfl

theorem loadAll_apply (s : Slice) (m : Mem) (h : s.len ≤ (read m s).length) (j i : Nat) (hij : i + j = s.len) :
    loadAll s j i m = .ok ((read m s).drop i, m) := by
  induction j generalizing i with
  | zero =>
    rw [List.drop_of_length_le (by simp [read]; omega)]
    rfl
  | succ j ih =>
    have hi : i < (read m s).length := by omega
    have e : idx (read m s) i = .ok (read m s)[i] := by simp [idx, hi]
    simp only [loadAll, bind_apply, load_apply, e, Go.ok_bind]
    rw [ih (i + 1) (by omega), List.drop_eq_getElem_cons hi]
    rfl

/-- No array that existed was changed. -/
structure Ext (m m' : Mem) : Prop where
  next : m.next ≤ m'.next
  arr : ∀ a, a < m.next → m'.arr a = m.arr a
  base : m'.base = m.base
  fault : m'.fault = m.fault

/-- A slice of an existing array, or an empty one without array. -/
def Valid (m : Mem) (s : Slice) : Prop :=
  s.len ≤ s.cap ∧ (s.cap = 0 ∨ s.id < m.next ∧ s.off + s.cap ≤ (m.arr s.id).length)

instance (m : Mem) (s : Slice) : Decidable (Valid m s) := inferInstanceAs (Decidable (_ ∧ _))

/-- A slice of a whole array made since `m0`, or nil. -/
def New (m0 m : Mem) (s : Slice) : Prop :=
  s = nil ∨ (m0.next ≤ s.id ∧ s.id < m.next ∧ s.off = 0 ∧ s.cap = s.len ∧ (m.arr s.id).length = s.len)

theorem Ext.refl (m : Mem) : Ext m m := ⟨Nat.le_refl _, fun _ _ => rfl, rfl, rfl⟩

theorem Ext.trans {a b c : Mem} (h : Ext a b) (h' : Ext b c) : Ext a c :=
  ⟨Nat.le_trans h.1 h'.1, fun x hx => (h'.2 x (Nat.lt_of_lt_of_le hx h.1)).trans (h.2 x hx), h'.base.trans h.base, h'.fault.trans h.fault⟩

theorem ext_push (m : Mem) (l : List Int16) : Ext m (m.push l) := by
  refine ⟨by simp [Mem.push, Mem.next], fun a ha => ?_, rfl, rfl⟩
  simp only [Mem.push]
  rw [if_neg (by omega)]

theorem base_le (m : Mem) : m.base ≤ m.next := Nat.le_add_right _ _

theorem base_le_of {m : Mem} {a : Nat} (h : m.next ≤ a) : m.base ≤ a := Nat.le_trans (base_le m) h

theorem push_base (m : Mem) (l : List Int16) : (m.push l).base = m.base := rfl

theorem setArr_base (m : Mem) (a : Nat) (l : List Int16) : (m.setArr a l).base = m.base := rfl

theorem push_next (m : Mem) (l : List Int16) : (m.push l).next = m.next + 1 := rfl

/-- Overwriting an array made since `m` is not visible from `m`. -/
theorem Ext.setArr {m m' : Mem} (h : Ext m m') {a : Nat} (ha : m.next ≤ a) (l : List Int16) : Ext m (m'.setArr a l) := by
  refine ⟨h.1, fun b hb => ?_, h.base, h.fault⟩
  simp only [Mem.setArr]
  rw [if_neg (by omega)]
  exact h.2 b hb

theorem Valid.read_length {m : Mem} {s : Slice} (h : Valid m s) : (read m s).length = s.len := by
  unfold read
  rcases h with ⟨h, h' | h'⟩
  · simp; omega
  · simp; omega

theorem Valid.ext {m m' : Mem} {s : Slice} (h : Valid m s) (e : Ext m m') : Valid m' s := by
  refine ⟨h.1, h.2.imp id fun h => ⟨Nat.lt_of_lt_of_le h.1 e.1, ?_⟩⟩
  rw [e.2 _ h.1]
  exact h.2

theorem Valid.read {m m' : Mem} {s : Slice} (h : Valid m s) (e : Ext m m') : read m' s = read m s := by
  unfold Sl.read
  rcases h with ⟨h, h' | h'⟩
  · have : s.len = 0 := by omega
    simp [this]
  · rw [e.2 _ h'.1]

theorem New.valid {m0 m : Mem} {s : Slice} (h : New m0 m s) : Valid m s := by
  rcases h with rfl | ⟨_, h1, h2, h3, h4⟩
  · exact ⟨Nat.le_refl _, .inl rfl⟩
  · exact ⟨by omega, .inr ⟨h1, by omega⟩⟩

theorem New.ext {m0 m m' : Mem} {s : Slice} (h : New m0 m s) (e : Ext m m') : New m0 m' s := by
  refine h.imp id fun ⟨h0, h1, h2, h3, h4⟩ => ⟨h0, Nat.lt_of_lt_of_le h1 e.1, h2, h3, ?_⟩
  rw [e.2 _ h1]
  exact h4

theorem New.older {m0 m1 m : Mem} {s : Slice} (h : New m1 m s) (e : Ext m0 m1) : New m0 m s :=
  h.imp id fun ⟨h0, h1⟩ => ⟨Nat.le_trans e.1 h0, h1⟩

theorem setArr_setArr (m : Mem) (a : Nat) (l l' : List Int16) : (m.setArr a l).setArr a l' = m.setArr a l' := by
  simp only [Mem.setArr, Mem.mk.injEq, true_and]
  funext b
  by_cases h : b = a <;> simp [h]

theorem setArr_self (m : Mem) (a : Nat) : m.setArr a (m.arr a) = m := by
  cases m
  simp only [Mem.setArr, Mem.mk.injEq, true_and]
  funext b
  by_cases h : b = a <;> simp [h]

theorem setArr_arr (m : Mem) (a : Nat) (l : List Int16) : (m.setArr a l).arr a = l := by simp [Mem.setArr]

theorem push_setArr (m : Mem) (l l' : List Int16) : (m.push l).setArr m.next l' = m.push l' := by
  simp only [Mem.setArr, Mem.push, Mem.mk.injEq, true_and]
  funext b
  by_cases h : b = m.next <;> simp [h]

/-- A slice that does not see the array `a`. -/
def Off (a : Nat) (s : Slice) : Prop := s.id ≠ a ∨ s.len = 0

theorem Off.read {a : Nat} {s : Slice} (h : Off a s) (m : Mem) (l : List Int16) : read (m.setArr a l) s = read m s := by
  unfold Sl.read Mem.setArr
  rcases h with h | h
  · simp only
    rw [if_neg h]
  · simp [h]

theorem Valid.off {m : Mem} {s : Slice} (h : Valid m s) {a : Nat} (ha : m.next ≤ a) : Off a s := by
  rcases h with ⟨h, h' | h'⟩
  · exact .inr (by omega)
  · exact .inl (by omega)

theorem load_off {a : Nat} {s : Slice} (h : Off a s) (m : Mem) (l : List Int16) (i : Nat) :
    load s i (m.setArr a l) = (idx (read m s) i >>= fun v => .ok (v, m.setArr a l)) := by
  rw [load_apply, h.read]

/-- A store into the whole-array slice of `a`. -/
theorem store_whole {s : Slice} (h : s.off = 0) (m : Mem) (l : List Int16) (i : Nat) (v : Int16) (hi : i < s.len)
    (hb : m.base ≤ s.id) : store s i v (m.setArr s.id l) = .ok ((), m.setArr s.id (l.set i v)) := by
  rw [store_apply s i v (m.setArr s.id l) hi hb, setArr_setArr, setArr_arr, h, Nat.zero_add]

/-! ### Loops -/

/-- The results of the iterations `i`, `i+1`, … put together. -/
def chunks (c : Nat → Go (List Int16)) : Nat → Nat → Go (List Int16)
  | 0, _ => .ok []
  | j + 1, i => do
    let l ← c i
    let r ← chunks c j (i + 1)
    pure (l ++ r)

/-- A loop whose iteration `i` computes `k` numbers and stores them at `k*i`, ….  -/
theorem forLoop_from (body : Nat → MM Unit) (c : Nat → Go (List Int16)) (k n : Nat) (m : Mem) (a : Nat) (A : List Int16)
    (hc : ∀ i l, c i = .ok l → l.length = k)
    (hb : ∀ i, i < n → ∀ A', A'.length = k * n → A'.drop (k * i) = A.drop (k * i) →
      body i (m.setArr a A') = (c i >>= fun l => .ok ((), m.setArr a (A'.take (k * i) ++ l ++ A'.drop (k * i + k)))))
    (j i : Nat) (hij : i + j = n) (A' : List Int16) (hA : A'.length = k * n) (hd : A'.drop (k * i) = A.drop (k * i)) :
    forLoop body j i (m.setArr a A') = (chunks c j i >>= fun l => .ok ((), m.setArr a (A'.take (k * i) ++ l))) := by
  induction j generalizing i A' with
  | zero =>
    have : i = n := by omega
    subst this
    simp only [forLoop, chunks, pure_apply, Go.ok_bind, List.append_nil]
    rw [List.take_of_length_le (by omega)]
  | succ j ih =>
    simp only [forLoop, chunks, bind_apply, Go.pure_eq]
    rw [hb i (by omega) A' hA hd, bind_assoc', bind_assoc']
    cases e : c i with
    | panic => rfl
    | diverge => rfl
    | ok l =>
      have hl := hc i l e
      have hki : k * i + k ≤ k * n := by
        have := Nat.mul_le_mul_left k (show i + 1 ≤ n by omega)
        rwa [Nat.mul_add, Nat.mul_one] at this
      have hk : k * (i + 1) = k * i + k := by rw [Nat.mul_add, Nat.mul_one]
      simp only [Go.ok_bind]
      have ht : (A'.take (k * i) ++ l).length = k * i + k := by simp; omega
      rw [ih (i + 1) (by omega) _ (by simp; omega) (by
        rw [hk, List.drop_left' ht, ← List.drop_drop, hd, List.drop_drop]), bind_assoc']
      simp only [Go.ok_bind]
      rw [hk, List.take_left' ht]
      simp only [List.append_assoc]

theorem forLoop_fill (body : Nat → MM Unit) (c : Nat → Go (List Int16)) (k n : Nat) (m : Mem) (a : Nat)
    (hA : (m.arr a).length = k * n) (hc : ∀ i l, c i = .ok l → l.length = k)
    (hb : ∀ i, i < n → ∀ A', A'.length = k * n → A'.drop (k * i) = (m.arr a).drop (k * i) →
      body i (m.setArr a A') = (c i >>= fun l => .ok ((), m.setArr a (A'.take (k * i) ++ l ++ A'.drop (k * i + k))))) :
    forLoop body n 0 m = (chunks c n 0 >>= fun l => .ok ((), m.setArr a l)) := by
  have := forLoop_from body c k n m a (m.arr a) hc hb n 0 (by omega) (m.arr a) hA rfl
  rw [setArr_self] at this
  simpa using this

theorem set_one (A : List Int16) (i : Nat) (v : Int16) (h : i < A.length) : A.set i v = A.take i ++ [v] ++ A.drop (i + 1) := by
  rw [List.set_eq_take_append_cons_drop, if_pos h]
  simp

theorem set_two (A : List Int16) (i : Nat) (v w : Int16) (h : i + 1 < A.length) :
    (A.set i v).set (i + 1) w = A.take i ++ [v, w] ++ A.drop (i + 2) := by
  rw [set_one _ (i + 1) w (by simpa using h)]
  have h1 : (A.set i v).take (i + 1) = A.take i ++ [v] := by
    rw [List.take_add_one, List.take_set_of_le (Nat.le_refl i), List.getElem?_set_self (by omega)]
    rfl
  rw [h1, List.drop_set_of_lt (by omega)]
  simp

theorem chunks_length (c : Nat → Go (List Int16)) (k : Nat) (hc : ∀ i l, c i = .ok l → l.length = k) (j i : Nat) (l : List Int16)
    (h : chunks c j i = .ok l) : l.length = k * j := by
  induction j generalizing i l with
  | zero => simp [chunks] at h; subst h; simp
  | succ j ih =>
    simp only [chunks, Go.bind_eq_ok, Go.pure_eq, Go.ok.injEq] at h
    obtain ⟨x, hx, r, hr, rfl⟩ := h
    rw [List.length_append, hc _ _ hx, ih _ _ hr, Nat.mul_add, Nat.mul_one, Nat.add_comm]

/-- The same with one number for each of two arrays. -/
def chunks2 (c : Nat → Go (Int16 × Int16)) : Nat → Nat → Go (List Int16 × List Int16)
  | 0, _ => .ok ([], [])
  | j + 1, i => do
    let l ← c i
    let r ← chunks2 c j (i + 1)
    pure (l.1 :: r.1, l.2 :: r.2)

theorem chunks2_length (c : Nat → Go (Int16 × Int16)) (j i : Nat) (l : List Int16 × List Int16)
    (h : chunks2 c j i = .ok l) : l.1.length = j ∧ l.2.length = j := by
  induction j generalizing i l with
  | zero => simp [chunks2] at h; subst h; simp
  | succ j ih =>
    simp only [chunks2, Go.bind_eq_ok, Go.pure_eq, Go.ok.injEq] at h
    obtain ⟨x, hx, r, hr, rfl⟩ := h
    have := ih _ _ hr
    simp; omega

theorem forLoop_two (body : Nat → MM Unit) (c : Nat → Go (Int16 × Int16)) (n : Nat) (m : Mem) (a b : Nat)
    (hb : ∀ i, i < n → ∀ A B, A.length = n → B.length = n →
      body i ((m.setArr a A).setArr b B) = (c i >>= fun l => .ok ((), (m.setArr a (A.set i l.1)).setArr b (B.set i l.2))))
    (j i : Nat) (hij : i + j = n) (A B : List Int16) (hA : A.length = n) (hB : B.length = n) :
    forLoop body j i ((m.setArr a A).setArr b B) =
      (chunks2 c j i >>= fun l => .ok ((), (m.setArr a (A.take i ++ l.1)).setArr b (B.take i ++ l.2))) := by
  induction j generalizing i A B with
  | zero =>
    simp only [forLoop, chunks2, pure_apply, Go.ok_bind, List.append_nil]
    rw [List.take_of_length_le (by omega), List.take_of_length_le (by omega)]
  | succ j ih =>
    simp only [forLoop, chunks2, bind_apply, Go.pure_eq]
    rw [hb i (by omega) A B hA hB, bind_assoc', bind_assoc']
    cases e : c i with
    | panic => rfl
    | diverge => rfl
    | ok l =>
      simp only [Go.ok_bind]
      rw [ih (i + 1) (by omega) _ _ (by simp; omega) (by simp; omega), bind_assoc']
      simp only [Go.ok_bind]
      have k (A : List Int16) (v : Int16) (h : i < A.length) : (A.set i v).take (i + 1) = A.take i ++ [v] := by
        rw [List.take_add_one, List.take_set_of_le (Nat.le_refl i), List.getElem?_set_self (by omega)]
        rfl
      rw [k _ _ (by omega), k _ _ (by omega)]
      simp only [List.append_assoc, List.singleton_append]

/-! ### Outcomes -/

/-- The outcomes are of the same kind; nothing that existed was changed; the results are related. -/
def Ref {α β : Type} (m : Mem) (x : Go (α × Mem)) (y : Go β) (R : α → Mem → β → Prop) : Prop :=
  match x, y with
  | .ok (a, m'), .ok b => Ext m m' ∧ R a m' b
  | .panic, .panic => True
  | .diverge, .diverge => True
  | _, _ => False

theorem Ref.bind {α β γ δ : Type} {x : MM α} {f : α → MM γ} {m : Mem} {y : Go β} {g : β → Go δ} {R : α → Mem → β → Prop}
    {R' : γ → Mem → δ → Prop} (hx : Ref m (x m) y R) (hf : ∀ a m' b, Ext m m' → R a m' b → Ref m' (f a m') (g b) R') :
    Ref m ((x >>= f) m) (y >>= g) R' := by
  rw [bind_apply]
  rcases e : x m with ⟨a, m'⟩ | _ | _ <;> cases e' : y <;> simp only [e, e', Ref] at hx
  · have := hf _ _ _ hx.1 hx.2
    simp only [Go.ok_bind]
    revert this
    rcases f a m' with ⟨b, m''⟩ | _ | _ <;> rcases g _ with _ | _ | _ <;> simp only [Ref, imp_self]
    exact fun h => ⟨hx.1.trans h.1, h.2⟩
  · trivial
  · trivial

theorem Ref.mono {α β : Type} {m : Mem} {x : Go (α × Mem)} {y : Go β} {R R' : α → Mem → β → Prop} (hx : Ref m x y R)
    (hf : ∀ a m' b, Ext m m' → R a m' b → R' a m' b) : Ref m x y R' := by
  rcases x with ⟨a, m'⟩ | _ | _ <;> cases y <;> simp only [Ref] at *
  exact ⟨hx.1, hf _ _ _ hx.1 hx.2⟩

theorem Ref.run {α : Type} (m : Mem) (x : Go α) : Ref m (run x m) x fun a m' b => m' = m ∧ a = b := by
  cases x <;> simp [Ref, run_apply, Ext.refl]

theorem Ref.load (m : Mem) (s : Slice) (i : Nat) : Ref m (load s i m) (idx (read m s) i) fun a m' b => m' = m ∧ a = b := by
  rw [load_apply]
  cases idx (Sl.read m s) i <;> simp [Ref, Ext.refl]

theorem Ref.iff {α β : Type} {m : Mem} {x : Go (α × Mem)} {y : Go β} {R : α → Mem → β → Prop} (hx : Ref m x y R) :
    (∀ b, y = .ok b → ∃ a m', x = .ok (a, m') ∧ Ext m m' ∧ R a m' b) ∧ (y = .panic ↔ x = .panic) ∧ (y = .diverge ↔ x = .diverge) := by
  rcases x with ⟨a, h⟩ | _ | _ <;> cases y <;> simp_all [Ref]

/-- The result is a new slice with the elements computed by the list model. -/
abbrev Gives (m : Mem) (x : Go (Slice × Mem)) (y : Go (List Int16)) : Prop := Ref m x y fun s m' l => New m m' s ∧ read m' s = l

/-- Making an array and filling it. -/
theorem Gives.fill (body : Slice → Nat → MM Unit) (c : Nat → Go (List Int16)) (k n len : Nat) (m : Mem) (hlen : len = k * n)
    (hc : ∀ i l, c i = .ok l → l.length = k)
    (hb : ∀ s : Slice, s.id = m.next → s.off = 0 → s.len = k * n → ∀ i, i < n → ∀ A', A'.length = k * n →
      body s i ((m.push (List.replicate len 0)).setArr s.id A') = (c i >>= fun l =>
        .ok ((), (m.push (List.replicate len 0)).setArr s.id (A'.take (k * i) ++ l ++ A'.drop (k * i + k))))) :
    Gives m ((do let s ← make len; forLoop (body s) n 0; pure s : MM Slice) m) (chunks c n 0) := by
  subst hlen
  simp only [bind_apply, make_apply, Go.ok_bind]
  rw [forLoop_fill (body ⟨m.next, 0, k * n, k * n⟩) c k n _ m.next (by simp [Mem.push]) hc
    (fun i hi A' hA _ => hb ⟨m.next, 0, k * n, k * n⟩ rfl rfl rfl i hi A' hA), bind_assoc']
  cases e : chunks c n 0 with
  | panic => trivial
  | diverge => trivial
  | ok l =>
    have hl := chunks_length c k hc n 0 l e
    simp only [Go.ok_bind, pure_apply, push_setArr]
    refine ⟨ext_push m l, .inr ⟨Nat.le_refl _, by simp [Mem.push, Mem.next], rfl, rfl, by simpa [Mem.push] using hl⟩, ?_⟩
    simp only [Sl.read, Mem.push, if_true, List.drop_zero]
    exact List.take_of_length_le (by omega)

end Falcon.Sl
