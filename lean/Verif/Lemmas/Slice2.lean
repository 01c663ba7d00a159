import Verif.Lemmas.Slice
/-! The functions of the slice model compute what the list model computes and change nothing that existed. -/

namespace Falcon.Sl

theorem idx_drop {α : Type} (l : List α) (a i : Nat) : idx (l.drop a) i = idx l (a + i) := by simp [idx]

theorem idx_cases {α : Type} (l : List α) (i : Nat) : (∃ x, idx l i = .ok x) ∨ idx l i = .panic := by
  unfold idx
  cases l[i]? <;> simp

theorem idx_lt {α : Type} {l : List α} {i : Nat} (h : i < l.length) : idx l i = .ok l[i] := by simp [idx, h]

/-! ### `MergeNTT` -/

/-- One iteration of `MergeNTT` on lists. -/
def mergeC (W : Int → Go Int) (w : List Nat) (f0 f1 : List Int16) (i : Nat) : Go (List Int16) := do
  let wa ← idx w (2 * i)
  let y ← idx f1 i
  let a ← W ((wa : Int) * y.toInt)
  let x ← idx f0 i
  let a ← W (a + x.toInt)
  let wa ← idx w (2 * i)
  let y ← idx f1 i
  let b ← W ((wa : Int) * y.toInt)
  let x ← idx f0 i
  let b ← W (x.toInt - b)
  pure [reduceQ a, reduceQ b]

theorem mergeLoop_chunks (W : Int → Go Int) (w : List Nat) (f0 f1 : List Int16) (j i : Nat) (h : i + j = f0.length) :
    mergeLoop W (w.drop (2 * i)) (f0.drop i) (f1.drop i) = chunks (mergeC W w f0 f1) j i := by
  induction j generalizing i with
  | zero =>
    rw [List.drop_of_length_le (show f0.length ≤ i by omega)]
    simp [mergeLoop, chunks]
  | succ j ih =>
    have hi : i < f0.length := by omega
    rw [List.drop_eq_getElem_cons hi, mergeLoop, chunks, ← ih (i + 1) (by omega)]
    unfold mergeC
    simp only [idx_drop, Nat.add_zero, idx_lt hi, List.drop_drop, bind_assoc', Go.ok_bind, Go.pure_eq, Nat.mul_add, Nat.mul_one]
    rcases idx_cases w (2 * i) with ⟨x, e⟩ | e <;> rw [e]
    swap
    · rfl
    simp only [Go.ok_bind]
    rcases idx_cases f1 i with ⟨y, e⟩ | e <;> simp only [e, Go.ok_bind]
    · rfl
    · rfl

theorem merge_gives (W : Int → Go Int) (m : Mem) (f0 f1 : Slice) (h0 : Valid m f0) (h1 : Valid m f1) :
    Gives m (MergeNTT W f0 f1 m) (Falcon.MergeNTT W (read m f0) (read m f1)) := by
  have e : Falcon.MergeNTT W (read m f0) (read m f1) =
      chunks (mergeC W (roots_dict_Zq (Int16.ofNat (2 * f0.len))) (read m f0) (read m f1)) f0.len 0 := by
    have := mergeLoop_chunks W (roots_dict_Zq (Int16.ofNat (2 * f0.len))) (read m f0) (read m f1) f0.len 0 (by rw [h0.read_length]; omega)
    simp only [Nat.mul_zero, List.drop_zero] at this
    rw [← this, Falcon.MergeNTT, h0.read_length]
  rw [e]
  unfold MergeNTT
  rw [Nat.mul_div_cancel_left _ (by omega : 0 < 2)]
  refine Gives.fill (fun s => mergeBody W _ s f0 f1) _ 2 f0.len (2 * f0.len) m rfl (fun i l h => ?_) (fun s hs ho hl i hi A hA => ?_)
  · simp only [mergeC, Go.bind_eq_ok, Go.pure_eq, Go.ok.injEq] at h
    obtain ⟨_, _, _, _, _, _, _, _, _, _, _, _, _, _, _, _, _, _, _, _, rfl⟩ := h
    rfl
  · have o0 : Off s.id f0 := h0.off (by omega)
    have o1 : Off s.id f1 := h1.off (by omega)
    have hb : m.base ≤ s.id := base_le_of (by omega)
    have r0 := h0.read (ext_push m (List.replicate (2 * f0.len) 0))
    have r1 := h1.read (ext_push m (List.replicate (2 * f0.len) 0))
    simp only [mergeBody, mergeC, bind_apply, run_apply, load_off o0, load_off o1, r0, r1, bind_assoc', Go.ok_bind, Go.pure_eq,
      store_whole ho (m.push _) _ _ _ (show 2 * i < s.len by omega) hb, store_whole ho (m.push _) _ _ _ (show 2 * i + 1 < s.len by omega) hb,
      set_two _ _ _ _ (show 2 * i + 1 < A.length by omega)]

/-! ### `MergePolysInt` -/

/-- One iteration of `MergePolysInt` on lists. -/
def mergePolysC (f0 f1 : List Int16) (i : Nat) : Go (List Int16) := do
  let x ← idx f0 i
  let y ← idx f1 i
  pure [x, y]

theorem mergePolys_chunks (f0 f1 : List Int16) (j i : Nat) (h : i + j = f0.length) :
    mergePolys (f0.drop i) (f1.drop i) = chunks (mergePolysC f0 f1) j i := by
  induction j generalizing i with
  | zero =>
    rw [List.drop_of_length_le (show f0.length ≤ i by omega)]
    simp [mergePolys, chunks]
  | succ j ih =>
    have hi : i < f0.length := by omega
    rw [List.drop_eq_getElem_cons hi, chunks, ← ih (i + 1) (by omega)]
    unfold mergePolysC
    simp only [idx_lt hi, bind_assoc', Go.ok_bind, Go.pure_eq]
    by_cases h1 : i < f1.length
    · rw [List.drop_eq_getElem_cons h1, mergePolys, idx_lt h1]
      rfl
    · rw [List.drop_of_length_le (show f1.length ≤ i by omega), mergePolys]
      simp [idx, show f1[i]? = none by simpa using h1]

theorem mergePolys_gives (m : Mem) (f0 f1 : Slice) (h0 : Valid m f0) (h1 : Valid m f1) :
    Gives m (MergePolysInt f0 f1 m) (mergePolys (read m f0) (read m f1)) := by
  have e := mergePolys_chunks (read m f0) (read m f1) f0.len 0 (by rw [h0.read_length]; omega)
  simp only [List.drop_zero] at e
  rw [e]
  unfold MergePolysInt
  rw [Nat.mul_div_cancel_left _ (by omega : 0 < 2)]
  refine Gives.fill (fun s => mergePolysBody s f0 f1) _ 2 f0.len (2 * f0.len) m rfl (fun i l h => ?_) (fun s hs ho hl i hi A hA => ?_)
  · simp only [mergePolysC, Go.bind_eq_ok, Go.pure_eq, Go.ok.injEq] at h
    obtain ⟨_, _, _, _, rfl⟩ := h
    rfl
  · have o0 : Off s.id f0 := h0.off (by omega)
    have o1 : Off s.id f1 := h1.off (by omega)
    have hb : m.base ≤ s.id := base_le_of (by omega)
    have r0 := h0.read (ext_push m (List.replicate (2 * f0.len) 0))
    have r1 := h1.read (ext_push m (List.replicate (2 * f0.len) 0))
    simp only [mergePolysBody, mergePolysC, bind_apply, load_off o0, load_off o1, r0, r1, bind_assoc', Go.ok_bind, Go.pure_eq,
      store_whole ho (m.push _) _ _ _ (show 2 * i < s.len by omega) hb, store_whole ho (m.push _) _ _ _ (show 2 * i + 1 < s.len by omega) hb,
      set_two _ _ _ _ (show 2 * i + 1 < A.length by omega)]

/-! ### Functions with two results -/

/-- Two new slices. -/
abbrev Gives2 (m : Mem) (x : Go ((Slice × Slice) × Mem)) (y : Go (List Int16 × List Int16)) : Prop :=
  Ref m x y fun s m' l => (New m m' s.1 ∧ read m' s.1 = l.1) ∧ New m m' s.2 ∧ read m' s.2 = l.2

theorem setArr_comm (m : Mem) {a b : Nat} (h : a ≠ b) (l l' : List Int16) : (m.setArr a l).setArr b l' = (m.setArr b l').setArr a l := by
  simp only [Mem.setArr, Mem.mk.injEq, true_and]
  funext c
  by_cases h1 : c = a <;> by_cases h2 : c = b <;> simp [h1, h2]
  · exact absurd (h1.symm.trans h2) h
  · intro e; exact absurd e h
  · intro e; exact absurd e.symm h

theorem Gives2.fill (body : Slice → Slice → Nat → MM Unit) (c : Nat → Go (Int16 × Int16)) (n : Nat) (m : Mem)
    (hb : ∀ s t : Slice, s.id = m.next → s.off = 0 → s.len = n → t.id = m.next + 1 → t.off = 0 → t.len = n →
      ∀ i, i < n → ∀ A B, A.length = n → B.length = n → ∀ M : Mem, Ext m M →
      body s t i ((M.setArr s.id A).setArr t.id B) =
        (c i >>= fun l => .ok ((), (M.setArr s.id (A.set i l.1)).setArr t.id (B.set i l.2)))) :
    Gives2 m ((do let s ← make n; let t ← make n; forLoop (body s t) n 0; pure (s, t) : MM (Slice × Slice)) m) (chunks2 c n 0) := by
  simp only [bind_apply, make_apply, Go.ok_bind]
  generalize hM : (m.push (List.replicate n 0)).push (List.replicate n 0) = M
  have hx : Ext m M := hM ▸ (ext_push m _).trans (ext_push _ _)
  have hn : M.next = m.next + 2 := hM ▸ rfl
  have e1 : M.arr m.next = List.replicate n 0 := by rw [← hM]; simp [Mem.push, Mem.next]; try omega
  have e2 : M.arr (m.next + 1) = List.replicate n 0 := by rw [← hM]; simp [Mem.push, Mem.next]; try omega
  have e : M = (M.setArr m.next (List.replicate n 0)).setArr (m.next + 1) (List.replicate n 0) := by
    conv_lhs => rw [← setArr_self M m.next, e1]
    conv_lhs => rw [← setArr_self (M.setArr m.next (List.replicate n 0)) (m.next + 1)]
    congr 1
    simp [Mem.setArr, e2]
  have := forLoop_two (body ⟨m.next, 0, n, n⟩ ⟨m.next + 1, 0, n, n⟩) c n M m.next (m.next + 1)
    (fun i hi A B hA hB => hb ⟨m.next, 0, n, n⟩ ⟨m.next + 1, 0, n, n⟩ rfl rfl rfl rfl rfl rfl i hi A B hA hB M hx) n 0 (by omega)
    (List.replicate n 0) (List.replicate n 0) (by simp) (by simp)
  rw [← e] at this
  change Gives2 m (forLoop (body ⟨m.next, 0, n, n⟩ ⟨m.next + 1, 0, n, n⟩) n 0 M >>= _) _
  rw [this, bind_assoc']
  cases e : chunks2 c n 0 with
  | panic => trivial
  | diverge => trivial
  | ok l =>
    have hl := chunks2_length c n 0 l e
    simp only [Go.ok_bind, pure_apply, List.take_zero, List.nil_append]
    refine ⟨(hx.setArr (Nat.le_refl _) _).setArr (by omega) _,
      ⟨.inr ⟨Nat.le_refl _, (show m.next < M.next by omega), rfl, rfl, ?_⟩, ?_⟩,
      .inr ⟨Nat.le_succ _, (show m.next + 1 < M.next by omega), rfl, rfl, ?_⟩, ?_⟩
    · simpa [Mem.setArr] using hl.1
    · simpa [Sl.read, Mem.setArr] using List.take_of_length_le (by omega)
    · simpa [Mem.setArr, push_next] using hl.2
    · simpa [Sl.read, Mem.setArr, push_next] using List.take_of_length_le (by omega)

/-- A load that sees neither array. -/
theorem load_off2 {a b : Nat} {s : Slice} (h : Off a s) (h' : Off b s) (m : Mem) (l l' : List Int16) (i : Nat) :
    load s i ((m.setArr a l).setArr b l') = (idx (read m s) i >>= fun v => .ok (v, (m.setArr a l).setArr b l')) := by
  rw [load_apply, h'.read, h.read]

theorem store_first {s : Slice} (h : s.off = 0) {b : Nat} (hb : s.id ≠ b) (m : Mem) (l l' : List Int16) (i : Nat) (v : Int16) (hi : i < s.len)
    (hm : m.base ≤ s.id) : store s i v ((m.setArr s.id l).setArr b l') = .ok ((), (m.setArr s.id (l.set i v)).setArr b l') := by
  rw [setArr_comm _ hb, store_whole h (m.setArr b l') _ _ _ hi hm, setArr_comm _ hb]

theorem splitPolys_chunks (f : List Int16) (j i : Nat) (h : i + j = f.length / 2) :
    .ok (splitPolys (f.drop (2 * i))) =
      chunks2 (fun i => do let x ← idx f (2 * i); let y ← idx f (2 * i + 1); pure (x, y)) j i := by
  induction j generalizing i with
  | zero =>
    have : (f.drop (2 * i)).length ≤ 1 := by simp; omega
    match e : f.drop (2 * i), this with
    | [], _ => rfl
    | [_], _ => rfl
  | succ j ih =>
    have h0 : 2 * i < f.length := by omega
    have h1 : 2 * i + 1 < f.length := by omega
    rw [chunks2, ← ih (i + 1) (by omega), List.drop_eq_getElem_cons h0, List.drop_eq_getElem_cons h1, splitPolys]
    simp only [idx_lt h0, idx_lt h1, Go.ok_bind, Go.pure_eq]
    rfl

theorem splitPolys_gives (m : Mem) (f : Slice) (hf : Valid m f) : Gives2 m (SplitPolysInt f m) (.ok (splitPolys (read m f))) := by
  have e := splitPolys_chunks (read m f) (f.len / 2) 0 (by rw [hf.read_length]; omega)
  simp only [Nat.mul_zero, List.drop_zero] at e
  rw [e]
  refine Gives2.fill (splitPolysBody f) _ (f.len / 2) m (fun s t hs ho hl ht ho' hl' i hi A B hA hB M hM => ?_)
  have o0 : Off s.id f := hf.off (by omega)
  have o1 : Off t.id f := hf.off (by omega)
  have hb : M.base ≤ s.id := hM.base ▸ base_le_of (by omega)
  have hb' : M.base ≤ t.id := hM.base ▸ base_le_of (by omega)
  simp only [splitPolysBody, bind_apply, load_off2 o0 o1, hf.read hM, bind_assoc', Go.ok_bind, Go.pure_eq,
    store_first ho (show s.id ≠ t.id by omega) M _ _ _ _ (show i < s.len by omega) hb,
    store_whole ho' (M.setArr _ _) _ _ _ (show i < t.len by omega) hb']

/-- One iteration of `SplitNTT` on lists. -/
def splitC (W : Int → Go Int) (w : List Nat) (f : List Int16) (i : Nat) : Go (Int16 × Int16) := do
  let x ← idx f (2 * i)
  let y ← idx f (2 * i + 1)
  let f0 ← W (x.toInt + y.toInt)
  let f0 ← W (f0 * i2)
  let x ← idx f (2 * i)
  let y ← idx f (2 * i + 1)
  let f1 ← W (x.toInt - y.toInt)
  let f1 ← W (f1 * i2)
  let wa ← idx w (2 * i)
  let inv ← idx inv_mod_q wa
  let f1 ← W (f1 * (inv : Int))
  pure (reduceQ f0, reduceQ f1)

theorem splitLoop_chunks (W : Int → Go Int) (w : List Nat) (f : List Int16) (j i : Nat) (h : i + j = f.length / 2) :
    Falcon.splitLoop W (w.drop (2 * i)) (f.drop (2 * i)) = chunks2 (splitC W w f) j i := by
  induction j generalizing i with
  | zero =>
    have : (f.drop (2 * i)).length ≤ 1 := by simp; omega
    match e : f.drop (2 * i), this with
    | [], _ => simp [Falcon.splitLoop, chunks2]
    | [_], _ => simp [Falcon.splitLoop, chunks2]
  | succ j ih =>
    have h0 : 2 * i < f.length := by omega
    have h1 : 2 * i + 1 < f.length := by omega
    rw [List.drop_eq_getElem_cons h0, List.drop_eq_getElem_cons h1, Falcon.splitLoop, chunks2, ← ih (i + 1) (by omega)]
    simp only [splitC, idx_lt h0, idx_lt h1, Go.ok_bind, Go.pure_eq, idx_drop, Nat.add_zero, bind_assoc', List.drop_drop, Nat.mul_add, Nat.mul_one]

theorem split_gives (W : Int → Go Int) (m : Mem) (f : Slice) (hf : Valid m f) :
    Gives2 m (SplitNTT W f m) (Falcon.SplitNTT W (read m f)) := by
  have e : Falcon.SplitNTT W (read m f) = chunks2 (splitC W (roots_dict_Zq (Int16.ofNat f.len)) (read m f)) (f.len / 2) 0 := by
    have := splitLoop_chunks W (roots_dict_Zq (Int16.ofNat f.len)) (read m f) (f.len / 2) 0 (by rw [hf.read_length]; omega)
    simp only [Nat.mul_zero, List.drop_zero] at this
    rw [← this, Falcon.SplitNTT, hf.read_length]
  rw [e]
  refine Gives2.fill (splitBody W _ f) _ (f.len / 2) m (fun s t hs ho hl ht ho' hl' i hi A B hA hB M hM => ?_)
  have o0 : Off s.id f := hf.off (by omega)
  have o1 : Off t.id f := hf.off (by omega)
  have hb : M.base ≤ s.id := hM.base ▸ base_le_of (by omega)
  have hb' : M.base ≤ t.id := hM.base ▸ base_le_of (by omega)
  simp only [splitBody, splitC, bind_apply, run_apply, lookup_apply, invAt_nat, load_off2 o0 o1, hf.read hM, bind_assoc', Go.ok_bind, Go.pure_eq,
    store_first ho (show s.id ≠ t.id by omega) M _ _ _ _ (show i < s.len by omega) hb,
    store_whole ho' (M.setArr _ _) _ _ _ (show i < t.len by omega) hb']

/-! ### The transforms -/

theorem pair_gives (m : Mem) (x y : Int16) : Gives m (pair x y m) (.ok [x, y]) := by
  have e : pair x y m = .ok (⟨m.next, 0, 2, 2⟩, m.push [x, y]) := by
    simp only [pair, bind_apply, make_apply, Go.ok_bind]
    rw [← push_setArr m [] (List.replicate 2 0)]
    rw [store_whole (s := ⟨m.next, 0, 2, 2⟩) rfl (m.push []) _ 0 x (by simp) (base_le m)]
    simp only [Go.ok_bind]
    rw [store_whole (s := ⟨m.next, 0, 2, 2⟩) rfl (m.push []) _ 1 y (by simp) (base_le m)]
    simp only [Go.ok_bind, push_setArr, pure_apply]
    rfl
  rw [e]
  exact ⟨ext_push m _, .inr ⟨Nat.le_refl _, by simp [push_next], rfl, rfl, by simp [Mem.push]⟩, by simp [Sl.read, Mem.push]⟩

theorem two_elements {m : Mem} {f : Slice} (hf : Valid m f) (h : f.len = 2) : ∃ a b, read m f = [a, b] := by
  have := hf.read_length
  rw [h] at this
  match e : read m f, this with
  | [a, b], _ => exact ⟨a, b, rfl⟩

theorem Gives.older {m m1 : Mem} {x : Go (Slice × Mem)} {y : Go (List Int16)} (e : Ext m m1) (h : Gives m1 x y) : Gives m x y := by
  rcases x with ⟨a, m'⟩ | _ | _ <;> cases y <;> simp only [Ref] at *
  exact ⟨e.trans h.1, h.2.1.older e, h.2.2⟩

/-- As `Ref.bind`, but everything is compared with the memory `m0` before. -/
theorem Ref.bind' {α β γ δ : Type} {x : MM α} {f : α → MM γ} {m0 m : Mem} {y : Go β} {g : β → Go δ} {R : α → Mem → β → Prop}
    {R' : γ → Mem → δ → Prop} (hx : Ref m0 (x m) y R) (hf : ∀ a m' b, Ext m0 m' → R a m' b → Ref m0 (f a m') (g b) R') :
    Ref m0 ((x >>= f) m) (y >>= g) R' := by
  rw [bind_apply]
  rcases e : x m with ⟨a, m'⟩ | _ | _ <;> cases e' : y <;> simp only [e, e', Ref] at hx
  · exact hf _ _ _ hx.1 hx.2
  · trivial
  · trivial

theorem Ref.older {α β : Type} {m m1 : Mem} {x : Go (α × Mem)} {y : Go β} {R : α → Mem → β → Prop} (e : Ext m m1) (h : Ref m1 x y R) :
    Ref m x y fun a m' b => R a m' b ∧ Ext m1 m' := by
  rcases x with ⟨a, m'⟩ | _ | _ <;> cases y <;> simp only [Ref] at *
  exact ⟨e.trans h.1, h.2, h.1⟩

theorem Ref.keepOk {α β : Type} {m : Mem} {x : Go (α × Mem)} {y : Go β} {R : α → Mem → β → Prop} (h : Ref m x y R) :
    Ref m x y fun a m' b => y = .ok b ∧ R a m' b := by
  rcases x with ⟨a, m'⟩ | _ | _ <;> cases y <;> simp only [Ref] at *
  exact ⟨h.1, trivial, h.2⟩

theorem ntt_big (W : Int → Go Int) (l : List Int16) (h : 2 < l.length) : Falcon.NTT W l =
    (Go.ok (splitPolys l) >>= fun s => Falcon.NTT W s.1 >>= fun a => Falcon.NTT W s.2 >>= fun b => Falcon.MergeNTT W a b) := by
  rw [Falcon.NTT, dif_pos h]
  rfl

theorem ntt_two (W : Int → Go Int) (a b : Int16) : Falcon.NTT W [a, b] = (do
    let c ← W (sqr1 * b.toInt)
    let x ← W (a.toInt + c)
    let y ← W (a.toInt - c)
    pure [reduceQ x, reduceQ y]) := by
  rw [Falcon.NTT, dif_neg (by simp)]

theorem ntt_small (W : Int → Go Int) (l : List Int16) (h : l.length < 2) : Falcon.NTT W l = .ok [] := by
  rw [Falcon.NTT, dif_neg (by omega)]
  match l, h with
  | [], _ => rfl
  | [_], _ => rfl

theorem intt_big (W : Int → Go Int) (l : List Int16) (h : 2 < l.length) : Falcon.INTT W l =
    (Falcon.SplitNTT W l >>= fun s => Falcon.INTT W s.1 >>= fun a => Falcon.INTT W s.2 >>= fun b => mergePolys a b) := by
  rw [Falcon.INTT, dif_pos h]
  split <;> rename_i e <;> rw [e] <;> rfl

theorem intt_two (W : Int → Go Int) (a b : Int16) : Falcon.INTT W [a, b] = (do
    let x ← W (a.toInt + b.toInt)
    let x ← W (x * i2)
    let y ← W (a.toInt - b.toInt)
    let inv ← idx inv_mod_q 1479
    let y ← W (y * (inv : Int))
    let y ← W (y * i2)
    pure [reduceQ x, reduceQ y]) := by
  rw [Falcon.INTT, dif_neg (by simp)]

theorem intt_small (W : Int → Go Int) (l : List Int16) (h : l.length < 2) : Falcon.INTT W l = .ok [] := by
  rw [Falcon.INTT, dif_neg (by omega)]
  match l, h with
  | [], _ => rfl
  | [_], _ => rfl

theorem ntt_gives (W : Int → Go Int) (d : Nat) (m : Mem) (f : Slice) (hf : Valid m f) (hd : f.len < d) :
    Gives m (NTT W d f m) (Falcon.NTT W (read m f)) := by
  induction d generalizing m f with
  | zero => omega
  | succ d ih =>
    have hl := hf.read_length
    rw [NTT]
    split
    · rename_i h
      rw [ntt_big W _ (by omega)]
      have hs := splitPolys_length (read m f)
      refine Ref.bind' (R := fun s m' l => Go.ok (splitPolys (read m f)) = .ok l ∧
        (New m m' s.1 ∧ read m' s.1 = l.1) ∧ New m m' s.2 ∧ read m' s.2 = l.2)
        (splitPolys_gives m f hf).keepOk ?_
      rintro ⟨s, t⟩ m1 ⟨l, l'⟩ e1 ⟨hq, ⟨n1, rfl⟩, n2, rfl⟩
      rw [Go.ok.inj hq] at hs
      have ls := n1.valid.read_length
      have lt := n2.valid.read_length
      simp only at *
      refine Ref.bind' (Ref.older e1 (ih m1 s n1.valid (by omega))) ?_
      rintro a m2 _ e2 ⟨⟨n3, rfl⟩, e2'⟩
      rw [← n2.valid.read e2']
      refine Ref.bind' (Ref.older e2 (ih m2 t (n2.valid.ext e2') (by omega))) ?_
      rintro b m3 _ e3 ⟨⟨n4, rfl⟩, e3'⟩
      rw [← n3.valid.read e3']
      exact Gives.older e3 (merge_gives W m3 a b (n3.valid.ext e3') n4.valid)
    · rename_i h
      split
      · rename_i h2
        obtain ⟨a, b, e⟩ := two_elements hf h2
        rw [e, ntt_two]
        simp only [bind_apply, load_apply, e, idx, run_apply, bind_assoc', Go.ok_bind, List.getElem?_cons_zero, List.getElem?_cons_succ]
        rcases W (sqr1 * b.toInt) with x | _ | _ <;> simp only [Go.ok_bind, Go.panic_bind, Go.diverge_bind]
        · rcases W (a.toInt + x) with y | _ | _ <;> simp only [Go.ok_bind, Go.panic_bind, Go.diverge_bind]
          · rcases W (a.toInt - x) with z | _ | _ <;> simp only [Go.ok_bind, Go.panic_bind, Go.diverge_bind, Go.pure_eq]
            · exact pair_gives _ _ _
            · trivial
            · trivial
          · trivial
          · trivial
        · trivial
        · trivial
      · rw [ntt_small W _ (by omega)]
        exact ⟨Ext.refl m, .inl rfl, rfl⟩

theorem intt_gives (W : Int → Go Int) (d : Nat) (m : Mem) (f : Slice) (hf : Valid m f) (hd : f.len < d) :
    Gives m (INTT W d f m) (Falcon.INTT W (read m f)) := by
  induction d generalizing m f with
  | zero => omega
  | succ d ih =>
    have hl := hf.read_length
    rw [INTT]
    split
    · rename_i h
      rw [intt_big W _ (by omega)]
      refine Ref.bind' (R := fun s m' l => Falcon.SplitNTT W (read m f) = .ok l ∧
        (New m m' s.1 ∧ read m' s.1 = l.1) ∧ New m m' s.2 ∧ read m' s.2 = l.2) ((split_gives W m f hf).keepOk) ?_
      rintro ⟨s, t⟩ m1 ⟨l, l'⟩ e1 ⟨hq, ⟨n1, rfl⟩, n2, rfl⟩
      have hs := splitLoop_length hq
      have ls := n1.valid.read_length
      have lt := n2.valid.read_length
      simp only at *
      refine Ref.bind' (Ref.older e1 (ih m1 s n1.valid (by omega))) ?_
      rintro a m2 _ e2 ⟨⟨n3, rfl⟩, e2'⟩
      rw [← n2.valid.read e2']
      refine Ref.bind' (Ref.older e2 (ih m2 t (n2.valid.ext e2') (by omega))) ?_
      rintro b m3 _ e3 ⟨⟨n4, rfl⟩, e3'⟩
      rw [← n3.valid.read e3']
      exact Gives.older e3 (mergePolys_gives m3 a b (n3.valid.ext e3') n4.valid)
    · rename_i h
      split
      · rename_i h2
        obtain ⟨a, b, e⟩ := two_elements hf h2
        rw [e, intt_two]
        simp only [bind_apply, load_apply, e, run_apply, lookup_apply, invAt_1479, bind_assoc', Go.ok_bind,
          show idx [a, b] 0 = .ok a from rfl, show idx [a, b] 1 = .ok b from rfl]
        rcases W (a.toInt + b.toInt) with x | _ | _ <;> simp only [Go.ok_bind, Go.panic_bind, Go.diverge_bind]
        rotate_left
        · trivial
        · trivial
        rcases W (x * i2) with x | _ | _ <;> simp only [Go.ok_bind, Go.panic_bind, Go.diverge_bind]
        rotate_left
        · trivial
        · trivial
        rcases W (a.toInt - b.toInt) with y | _ | _ <;> simp only [Go.ok_bind, Go.panic_bind, Go.diverge_bind]
        rotate_left
        · trivial
        · trivial
        rcases idx inv_mod_q 1479 with v | _ | _ <;> simp only [Go.ok_bind, Go.panic_bind, Go.diverge_bind]
        rotate_left
        · trivial
        · trivial
        rcases W (y * (v : Int)) with y | _ | _ <;> simp only [Go.ok_bind, Go.panic_bind, Go.diverge_bind]
        rotate_left
        · trivial
        · trivial
        rcases W (y * i2) with y | _ | _ <;> simp only [Go.ok_bind, Go.panic_bind, Go.diverge_bind, Go.pure_eq]
        rotate_left
        · trivial
        · trivial
        exact pair_gives _ _ _
      · rw [intt_small W _ (by omega)]
        exact ⟨Ext.refl m, .inl rfl, rfl⟩

end Falcon.Sl
