import Verif.Lemmas.Slice2
/-! The slice model, continued: ring operations, hashing, verification. -/

namespace Falcon.Sl

/-! ### Loops over one or two slices -/

theorem neg_chunks (f : List Int16) (j i : Nat) (h : i + j = f.length) :
    .ok (Falcon.negZq (f.drop i)) = chunks (fun i => do let x ← idx f i; pure [reduceQ (-x).toInt]) j i := by
  induction j generalizing i with
  | zero =>
    rw [List.drop_of_length_le (show f.length ≤ i by omega)]
    simp [Falcon.negZq, chunks]
  | succ j ih =>
    have hi : i < f.length := by omega
    rw [chunks, ← ih (i + 1) (by omega), List.drop_eq_getElem_cons hi]
    simp only [idx_lt hi, Falcon.negZq, List.map_cons, Go.ok_bind, Go.pure_eq, List.singleton_append]

theorem neg_gives (m : Mem) (f : Slice) (hf : Valid m f) : Gives m (negZq f m) (.ok (Falcon.negZq (read m f))) := by
  have e := neg_chunks (read m f) f.len 0 (by rw [hf.read_length]; omega)
  simp only [List.drop_zero] at e
  rw [e]
  refine Gives.fill (fun s => negBody s f) _ 1 f.len f.len m (by omega) (fun i l h => ?_) (fun s hs ho hl i hi A hA => ?_)
  · simp only [Go.bind_eq_ok, Go.pure_eq, Go.ok.injEq] at h
    obtain ⟨_, _, rfl⟩ := h
    rfl
  · have o0 : Off s.id f := hf.off (by omega)
    simp only [negBody, bind_apply, load_off o0, hf.read (ext_push m _), bind_assoc', Go.ok_bind, Go.pure_eq, Nat.one_mul,
      store_whole ho (m.push _) _ _ _ (show i < s.len by omega) (show m.base ≤ s.id from base_le_of (by omega)), set_one _ _ _ (show i < A.length by omega)]

theorem add_chunks (f g : List Int16) (j i : Nat) (h : i + j = f.length) (hg : f.length = g.length) :
    .ok (addLoop (f.drop i) (g.drop i)) = chunks (fun i => do let x ← idx f i; let y ← idx g i; pure [reduceQ (x + y).toInt]) j i := by
  induction j generalizing i with
  | zero =>
    rw [List.drop_of_length_le (show f.length ≤ i by omega)]
    simp [addLoop, chunks]
  | succ j ih =>
    have hi : i < f.length := by omega
    have hi' : i < g.length := by omega
    rw [chunks, ← ih (i + 1) (by omega), List.drop_eq_getElem_cons hi, List.drop_eq_getElem_cons hi']
    simp [idx_lt hi, idx_lt hi', addLoop]

/-- A function that makes its result before it compares the lengths. -/
theorem Gives.check {m : Mem} {p : Prop} [Decidable p] {len n : Nat} {body : Slice → Nat → MM Unit} {y : Go (List Int16)}
    (h : ¬ p → Gives m ((do let s ← make len; forLoop (body s) n 0; pure s : MM Slice) m) y) :
    Gives m ((do
      let s ← make len
      if p then run .panic
      else do
        forLoop (body s) n 0
        pure s : MM Slice) m) (if p then .panic else y) := by
  by_cases hp : p
  · simp only [if_pos hp, bind_apply, make_apply, Go.ok_bind, run_apply, Go.panic_bind]
    trivial
  · simp only [if_neg hp]
    exact h hp

theorem add_gives (m : Mem) (f g : Slice) (hf : Valid m f) (hg : Valid m g) :
    Gives m (addZq f g m) (Falcon.addZq (read m f) (read m g)) := by
  unfold addZq Falcon.addZq
  rw [hf.read_length, hg.read_length]
  refine Gives.check fun hp => ?_
  have hp : f.len = g.len := not_not.1 hp
  have e := add_chunks (read m f) (read m g) f.len 0 (by rw [hf.read_length]; omega) (by rw [hf.read_length, hg.read_length, hp])
  simp only [List.drop_zero] at e
  rw [e]
  refine Gives.fill (fun s => addBody s f g) _ 1 f.len f.len m (by omega) (fun i l h => ?_) (fun s hs ho hl i hi A hA => ?_)
  · simp only [Go.bind_eq_ok, Go.pure_eq, Go.ok.injEq] at h
    obtain ⟨_, _, _, _, rfl⟩ := h
    rfl
  · have o0 : Off s.id f := hf.off (by omega)
    have o1 : Off s.id g := hg.off (by omega)
    simp only [addBody, bind_apply, load_off o0, load_off o1, hf.read (ext_push m _), hg.read (ext_push m _), bind_assoc', Go.ok_bind,
      Go.pure_eq, Nat.one_mul, store_whole ho (m.push _) _ _ _ (show i < s.len by omega) (show m.base ≤ s.id from base_le_of (by omega)), set_one _ _ _ (show i < A.length by omega)]

theorem sub_gives (m : Mem) (f g : Slice) (hf : Valid m f) (hg : Valid m g) :
    Gives m (SubZq f g m) (Falcon.SubZq (read m f) (read m g)) := by
  change Gives m _ (Go.ok (Falcon.negZq (read m g)) >>= fun n => Falcon.addZq (read m f) n)
  refine Ref.bind' (neg_gives m g hg) ?_
  rintro s m1 _ e1 ⟨n1, rfl⟩
  rw [← hf.read e1]
  exact Gives.older e1 (add_gives m1 f s (hf.ext e1) n1.valid)

theorem mul_chunks (W : Int → Go Int) (f g : List Int16) (j i : Nat) (h : i + j = f.length) (hg : f.length = g.length) :
    mulLoop W (f.drop i) (g.drop i) =
      chunks (fun i => do let x ← idx f i; let y ← idx g i; let z ← W (x.toInt * y.toInt); pure [reduceQ z]) j i := by
  induction j generalizing i with
  | zero =>
    rw [List.drop_of_length_le (show f.length ≤ i by omega)]
    simp [mulLoop, chunks]
  | succ j ih =>
    have hi : i < f.length := by omega
    have hi' : i < g.length := by omega
    rw [chunks, ← ih (i + 1) (by omega), List.drop_eq_getElem_cons hi, List.drop_eq_getElem_cons hi', mulLoop]
    simp [idx_lt hi, idx_lt hi']

theorem mulNTT_gives (W : Int → Go Int) (m : Mem) (f g : Slice) (hf : Valid m f) (hg : Valid m g) :
    Gives m (mulNTT W f g m) (Falcon.mulNTT W (read m f) (read m g)) := by
  unfold mulNTT Falcon.mulNTT
  rw [hf.read_length, hg.read_length]
  refine Gives.check fun hp => ?_
  have hp : f.len = g.len := not_not.1 hp
  have e := mul_chunks W (read m f) (read m g) f.len 0 (by rw [hf.read_length]; omega) (by rw [hf.read_length, hg.read_length, hp])
  simp only [List.drop_zero] at e
  rw [e]
  refine Gives.fill (fun s => mulBody W s f g) _ 1 f.len f.len m (by omega) (fun i l h => ?_) (fun s hs ho hl i hi A hA => ?_)
  · simp only [Go.bind_eq_ok, Go.pure_eq, Go.ok.injEq] at h
    obtain ⟨_, _, _, _, _, _, rfl⟩ := h
    rfl
  · have o0 : Off s.id f := hf.off (by omega)
    have o1 : Off s.id g := hg.off (by omega)
    simp only [mulBody, bind_apply, run_apply, load_off o0, load_off o1, hf.read (ext_push m _), hg.read (ext_push m _), bind_assoc', Go.ok_bind,
      Go.pure_eq, Nat.one_mul, store_whole ho (m.push _) _ _ _ (show i < s.len by omega) (show m.base ≤ s.id from base_le_of (by omega)), set_one _ _ _ (show i < A.length by omega)]

theorem mulZq_gives (W : Int → Go Int) (m : Mem) (f g : Slice) (hf : Valid m f) (hg : Valid m g) :
    Gives m (MulZq W f g m) (Falcon.MulZq W (read m f) (read m g)) := by
  refine Ref.bind' (ntt_gives W _ m f hf (by omega)) ?_
  rintro s m1 _ e1 ⟨n1, rfl⟩
  rw [← hg.read e1]
  refine Ref.bind' (Ref.older e1 (ntt_gives W _ m1 g (hg.ext e1) (by omega))) ?_
  rintro t m2 _ e2 ⟨⟨n2, rfl⟩, e2'⟩
  rw [← n1.valid.read e2']
  refine Ref.bind' (Ref.older e2 (mulNTT_gives W m2 s t (n1.valid.ext e2') n2.valid)) ?_
  rintro p m3 _ e3 ⟨⟨n3, rfl⟩, -⟩
  exact Gives.older e3 (intt_gives W _ m3 p n3.valid (by omega))

theorem div_chunks (W : Int → Go Int) (f g : List Int16) (j i : Nat) (h : i + j = f.length) (hg : f.length = g.length) :
    divLoop W (f.drop i) (g.drop i) = chunks (fun i => do
      let x ← idx f i
      let y ← idx g i
      let inv ← (if y.toInt < 0 then .panic else idx inv_mod_q y.toInt.toNat : Go Nat)
      let z ← W (x.toInt * (inv : Int))
      pure [reduceQ z]) j i := by
  induction j generalizing i with
  | zero =>
    rw [List.drop_of_length_le (show f.length ≤ i by omega)]
    simp [divLoop, chunks]
  | succ j ih =>
    have hi : i < f.length := by omega
    have hi' : i < g.length := by omega
    rw [chunks, ← ih (i + 1) (by omega), List.drop_eq_getElem_cons hi, List.drop_eq_getElem_cons hi', divLoop]
    simp only [idx_lt hi, idx_lt hi', Go.ok_bind, bind_assoc', Go.pure_eq]
    split <;> rfl

theorem hasZero_eq (g : Slice) (m : Mem) (j i : Nat) (h : i + j = (read m g).length) :
    hasZero g j i m = .ok (((read m g).drop i).any (· == 0), m) := by
  induction j generalizing i with
  | zero =>
    rw [List.drop_of_length_le (show _ ≤ i by omega)]
    rfl
  | succ j ih =>
    have hi : i < (read m g).length := by omega
    rw [hasZero, List.drop_eq_getElem_cons hi]
    simp only [bind_apply, load_apply, idx_lt hi, Go.ok_bind]
    by_cases hz : (read m g)[i] = 0
    · rw [if_pos hz]
      simp [hz, pure_apply]
    · rw [if_neg hz, ih (i + 1) (by omega), List.any_cons, beq_false_of_ne hz, Bool.false_or]

/-- Result of a function that returns an error or a new slice. -/
abbrev GivesE (m : Mem) (x : Go (Except NttErr Slice × Mem)) (y : Go (Except NttErr (List Int16))) : Prop :=
  Ref m x y fun s m' l => match s, l with
    | .ok s, .ok l => New m m' s ∧ read m' s = l
    | .error e, .error e' => e = e'
    | _, _ => False

theorem divNTT_gives (W : Int → Go Int) (m : Mem) (f g : Slice) (hf : Valid m f) (hg : Valid m g) :
    GivesE m (divNTT W f g m) (Falcon.divNTT W (read m f) (read m g)) := by
  unfold divNTT Falcon.divNTT
  rw [hf.read_length, hg.read_length]
  by_cases hp : f.len ≠ g.len
  · rw [if_pos hp, if_pos hp]
    trivial
  rw [if_neg hp, if_neg hp]
  have hp : f.len = g.len := not_not.1 hp
  have hx := ext_push m (List.replicate f.len 0)
  have hz := hasZero_eq g (m.push (List.replicate f.len 0)) g.len 0 (by rw [(hg.ext hx).read_length]; omega)
  rw [hg.read hx, List.drop_zero] at hz
  simp only [bind_apply, make_apply, Go.ok_bind, hz]
  by_cases hy : (read m g).any (· == 0) = true
  · rw [if_pos hy]
    simp only [hy, if_true]
    exact ⟨hx, rfl⟩
  · rw [if_neg hy]
    simp only [hy]
    have e := div_chunks W (read m f) (read m g) f.len 0 (by rw [hf.read_length]; omega) (by rw [hf.read_length, hg.read_length, hp])
    simp only [List.drop_zero] at e
    rw [e]
    have key := Gives.fill (fun s => divBody W s f g) (fun i => do
      let x ← idx (read m f) i
      let y ← idx (read m g) i
      let inv ← (if y.toInt < 0 then .panic else idx inv_mod_q y.toInt.toNat : Go Nat)
      let z ← W (x.toInt * (inv : Int))
      pure [reduceQ z]) 1 f.len f.len m (by omega) (fun i l h => ?_) (fun s hs ho hl i hi A hA => ?_)
    · simp only [bind_apply, make_apply, Go.ok_bind] at key
      simp only [if_false, Bool.false_eq_true, bind_apply]
      revert key
      generalize forLoop _ _ _ _ = x
      generalize chunks _ _ _ = y
      rcases x with ⟨_, m'⟩ | _ | _ <;> rcases y with l | _ | _ <;> simp [Ref, pure_apply]
    · simp only [Go.bind_eq_ok, Go.pure_eq, Go.ok.injEq] at h
      obtain ⟨_, _, _, _, _, _, _, _, rfl⟩ := h
      rfl
    · have o0 : Off s.id f := hf.off (by omega)
      have o1 : Off s.id g := hg.off (by omega)
      simp only [divBody, bind_apply, run_apply, lookup_apply, invAt, load_off o0, load_off o1, hf.read (ext_push m _), hg.read (ext_push m _), bind_assoc',
        Go.ok_bind, Go.pure_eq, Nat.one_mul, store_whole ho (m.push _) _ _ _ (show i < s.len by omega) (show m.base ≤ s.id from base_le_of (by omega)), set_one _ _ _ (show i < A.length by omega)]

theorem divZq_gives (W : Int → Go Int) (m : Mem) (f g : Slice) (hf : Valid m f) (hg : Valid m g) :
    GivesE m (DivZq W f g m) (Falcon.DivZq W (read m f) (read m g)) := by
  refine Ref.bind' (ntt_gives W _ m f hf (by omega)) ?_
  rintro s m1 _ e1 ⟨n1, rfl⟩
  rw [← hg.read e1]
  refine Ref.bind' (Ref.older e1 (ntt_gives W _ m1 g (hg.ext e1) (by omega))) ?_
  rintro t m2 _ e2 ⟨⟨n2, rfl⟩, e2'⟩
  rw [← n1.valid.read e2']
  refine Ref.bind' (Ref.older e2 (divNTT_gives W m2 s t (n1.valid.ext e2') n2.valid)) ?_
  rintro (x | p) m3 (y | l) e3 ⟨h3, -⟩
  · exact ⟨e3, h3⟩
  · exact h3.elim
  · exact h3.elim
  · obtain ⟨n3, rfl⟩ := h3
    refine Ref.bind' (Gives.older e3 (intt_gives W _ m3 p n3.valid (by omega))) ?_
    rintro r m4 _ e4 h4
    exact ⟨e4, h4⟩

/-! ### Hashing and verification -/

theorem hashLoop_length {s : Nat → UInt8} {fuel pos need : Nat} {l : List Int16} (h : Falcon.hashLoop s fuel pos need = .ok l) :
    l.length = need := by
  induction fuel generalizing pos need l with
  | zero =>
    match need, h with
    | 0, h => simp [Falcon.hashLoop] at h; subst h; rfl
    | n + 1, h => simp [Falcon.hashLoop] at h
  | succ fuel ih =>
    match need, h with
    | 0, h => simp [Falcon.hashLoop] at h; subst h; rfl
    | n + 1, h =>
      rw [Falcon.hashLoop] at h
      cases e : hashSample (s pos) (s (pos + 1)) with
      | none =>
        rw [e] at h
        exact ih h
      | some c =>
        rw [e] at h
        simp only [Go.bind_eq_ok, Go.pure_eq, Go.ok.injEq] at h
        obtain ⟨r, hr, rfl⟩ := h
        simp [ih hr]

theorem hashLoop_eq (s : Nat → UInt8) (t : Slice) (ho : t.off = 0) (m : Mem) (fuel pos i need : Nat) (A : List Int16) (hA : A.length = i + need)
    (ht : t.len = i + need) (hb : m.base ≤ t.id) : hashLoop s t fuel pos i need (m.setArr t.id A) =
      (Falcon.hashLoop s fuel pos need >>= fun l => .ok ((), m.setArr t.id (A.take i ++ l))) := by
  induction fuel generalizing pos i need A with
  | zero =>
    match need with
    | 0 =>
      simp only [hashLoop, Falcon.hashLoop, pure_apply, Go.ok_bind, List.append_nil]
      rw [List.take_of_length_le (by omega)]
    | n + 1 => rfl
  | succ fuel ih =>
    match need with
    | 0 =>
      simp only [hashLoop, Falcon.hashLoop, pure_apply, Go.ok_bind, List.append_nil]
      rw [List.take_of_length_le (by omega)]
    | n + 1 =>
      rw [hashLoop, Falcon.hashLoop]
      cases hashSample (s pos) (s (pos + 1)) with
      | none => exact ih (pos + 2) i (n + 1) A hA ht
      | some c =>
        simp only [bind_apply, store_whole ho m _ _ _ (show i < t.len by omega) hb, Go.ok_bind, bind_assoc', Go.pure_eq]
        rw [ih (pos + 2) (i + 1) n _ (by simp; omega) (by omega)]
        have k : (A.set i c).take (i + 1) = A.take i ++ [c] := by
          rw [List.take_add_one, List.take_set_of_le (Nat.le_refl i), List.getElem?_set_self (by omega)]
          rfl
        rw [k]
        simp only [List.append_assoc, List.singleton_append]

theorem hash_gives (xof : Xof) (fuel : Nat) (message salt : List UInt8) (m : Mem) :
    Gives m (hashToPoint xof fuel message salt m) (Falcon.hashToPoint xof fuel message salt) := by
  unfold hashToPoint Falcon.hashToPoint
  simp only [bind_apply, make_apply, Go.ok_bind]
  have := hashLoop_eq (xof (salt ++ message)) ⟨m.next, 0, 512, 512⟩ rfl (m.push (List.replicate 512 0)) fuel 0 0 512 (List.replicate 512 0)
    (List.length_replicate ..) rfl (base_le m)
  rw [push_setArr] at this
  rw [this, bind_assoc']
  cases e : Falcon.hashLoop (xof (salt ++ message)) fuel 0 512 with
  | panic => trivial
  | diverge => trivial
  | ok l =>
    have hl := hashLoop_length e
    simp only [Go.ok_bind, pure_apply, push_setArr, List.take_zero, List.nil_append]
    refine ⟨ext_push m l, .inr ⟨Nat.le_refl _, by simp [push_next], rfl, rfl, by simpa [Mem.push] using hl⟩, ?_⟩
    simp only [Sl.read, Mem.push, if_true, List.drop_zero]
    exact List.take_of_length_le (by omega)

/-- A slice at the start of an array made since `m0`, or nil; its capacity is the length of the array. -/
def Own (m0 m : Mem) (s : Slice) : Prop :=
  s = nil ∨ (m0.next ≤ s.id ∧ s.id < m.next ∧ s.off = 0 ∧ (m.arr s.id).length = s.cap ∧ s.len ≤ s.cap)

theorem Own.valid {m0 m : Mem} {s : Slice} (h : Own m0 m s) : Valid m s := by
  rcases h with rfl | ⟨_, h1, h2, h3, h4⟩
  · exact ⟨Nat.le_refl _, .inl rfl⟩
  · exact ⟨h4, .inr ⟨h1, by omega⟩⟩

theorem append_gives (grow : Nat → Nat) (m0 m : Mem) (s : Slice) (v : Int16) (e : Ext m0 m) (hs : Own m0 m s) :
    Ref m0 (append grow s v m) (.ok (read m s ++ [v])) fun t m' l => Own m0 m' t ∧ read m' t = l := by
  unfold append
  split
  · rename_i hc
    rcases hs with rfl | ⟨h0, h1, h2, h3, h4⟩
    · simp [nil] at hc
    · show Ref m0 (if s.id < m.base then _ else _) _ _
      rw [if_neg (Nat.not_lt.2 (e.base ▸ base_le_of h0))]
      refine ⟨e.setArr h0 _, .inr ⟨h0, h1, h2, ?_, hc⟩, ?_⟩
      · simp only [Mem.setArr, if_true, List.length_set]
        exact h3
      · simp only [Sl.read, Mem.setArr, if_true, h2, Nat.zero_add, List.drop_zero]
        rw [List.take_add_one, List.take_set_of_le (Nat.le_refl _), List.getElem?_set_self (by omega)]
        rfl
  · have hl := hs.valid.read_length
    simp only [bind_apply, loadAll_apply s m (by omega) s.len 0 (by omega), Go.ok_bind, List.drop_zero]
    refine ⟨e.trans (ext_push m _), .inr ⟨e.1, by simp [push_next], rfl, ?_, Nat.le_max_left _ _⟩, ?_⟩
    · simp only [Mem.push, if_true, List.length_append, List.length_cons, List.length_replicate, hl]
      omega
    · generalize Sl.read m s = R at hl ⊢
      simp only [Sl.read, Mem.push, if_true, List.drop_zero]
      have hq : (R ++ [v]).length = s.len + 1 := by simp [hl]
      rw [show R ++ v :: List.replicate (max (s.len + 1) (grow s.len) - (s.len + 1)) 0 =
        (R ++ [v]) ++ List.replicate (max (s.len + 1) (grow s.len) - (s.len + 1)) 0 by simp]
      exact List.take_left' hq

theorem appendAll_gives (grow : Nat → Nat) (m0 m : Mem) (s : Slice) (ss : List Int) (e : Ext m0 m) (hs : Own m0 m s) :
    Ref m0 (appendAll grow ss s m) (.ok (read m s ++ ss.map Int16.ofInt)) fun t m' l => Own m0 m' t ∧ read m' t = l := by
  induction ss generalizing m s with
  | nil => exact ⟨e, hs, by simp⟩
  | cons v ss ih =>
    have : (Go.ok (read m s ++ (v :: ss).map Int16.ofInt) : Go (List Int16)) =
        (Go.ok (read m s ++ [Int16.ofInt v]) >>= fun l => .ok (l ++ ss.map Int16.ofInt)) := by simp
    rw [this]
    refine Ref.bind' (append_gives grow m0 m s (Int16.ofInt v) e hs) ?_
    rintro t m1 _ e1 ⟨h1, rfl⟩
    exact ih m1 t e1 h1

theorem centre_chunks (f : List Int16) (j i : Nat) (h : i + j = f.length) :
    .ok ((f.drop i).map centre) = chunks (fun i => do let x ← idx f i; pure [centre x]) j i := by
  induction j generalizing i with
  | zero =>
    rw [List.drop_of_length_le (show f.length ≤ i by omega)]
    simp [chunks]
  | succ j ih =>
    have hi : i < f.length := by omega
    rw [chunks, ← ih (i + 1) (by omega), List.drop_eq_getElem_cons hi]
    simp only [idx_lt hi, List.map_cons, Go.ok_bind, Go.pure_eq, List.singleton_append]

/-- The loop that overwrites `s0`, an array made since `m0`. -/
theorem centre_gives (m0 m : Mem) (e : Ext m0 m) (s : Slice) (hs : New m0 m s) :
    Ref m0 (forLoop (centreBody s) s.len 0 m) (.ok ((read m s).map centre)) fun _ m' l =>
      New m0 m' s ∧ read m' s = l ∧ ∀ t, Off s.id t → read m' t = read m t := by
  rcases hs with rfl | ⟨h0, h1, h2, h3, h4⟩
  · exact ⟨e, .inl rfl, by simp [Sl.read, nil], fun _ _ => rfl⟩
  have hr : read m s = m.arr s.id := by
    unfold Sl.read
    rw [h2, List.drop_zero, List.take_of_length_le (by omega)]
  have hc := centre_chunks (m.arr s.id) s.len 0 (by omega)
  rw [List.drop_zero] at hc
  rw [forLoop_fill (centreBody s) (fun i => do let x ← idx (m.arr s.id) i; pure [centre x]) 1 s.len m s.id (by omega) (fun i l h => ?_)
    (fun i hi A hA hd => ?_), ← hc, hr]
  · refine ⟨e.setArr h0 _, .inr ⟨h0, h1, h2, h3, by simp [Mem.setArr, h4]⟩, ?_, fun t ht => ht.read m _⟩
    simp only [Sl.read, Mem.setArr, if_true, h2, List.drop_zero]
    exact List.take_of_length_le (by simp; omega)
  · simp only [Go.bind_eq_ok, Go.pure_eq, Go.ok.injEq] at h
    obtain ⟨_, _, rfl⟩ := h
    rfl
  · rw [Nat.one_mul] at hd
    have hl : idx (read (m.setArr s.id A) s) i = idx (m.arr s.id) i := by
      have : read (m.setArr s.id A) s = A := by
        unfold Sl.read
        rw [setArr_arr, h2, List.drop_zero, List.take_of_length_le (by omega)]
      rw [this, show idx A i = idx (A.drop i) 0 by rw [idx_drop]; rfl, hd, idx_drop]
      rfl
    simp only [centreBody, bind_apply, load_apply, hl, bind_assoc', Go.ok_bind, Go.pure_eq, Nat.one_mul,
      store_whole h2 m _ _ _ hi (show m.base ≤ s.id from e.base ▸ base_le_of h0), set_one _ _ _ (show i < A.length by omega)]

theorem verifyBody_gives (grow : Nat → Nat) (xof : Xof) (fuel : Nat) (key : Slice) (message salt encS : List UInt8) (m : Mem) (hk : Valid m key) :
    Ref m (verifyBody grow xof fuel key message salt encS m) (Falcon.verifyBody xof fuel (read m key) message salt encS) fun b _ b' => b = b' := by
  unfold verifyBody Falcon.verifyBody
  refine Ref.bind' (Ref.run _ _) ?_
  rintro r m _ e0 ⟨rfl, rfl⟩
  rcases r with _ | ss1
  · exact ⟨e0, rfl⟩
  have ha := appendAll_gives grow m m nil ss1 e0 (.inl rfl)
  rw [show read m nil = [] by simp [Sl.read, nil], List.nil_append] at ha
  change Ref m _ (Go.ok (ss1.map Int16.ofInt) >>= fun s1 => Falcon.hashToPoint xof fuel message salt >>= fun hashed =>
    Falcon.MulZq wrap64 s1 (read m key) >>= fun p => Falcon.SubZq hashed p >>= fun s0 => Go.ok (s0.map centre) >>= fun s0 =>
    pure (!decide (Falcon.addSquares (Falcon.addSquares 0 s0) s1 > (GetParamSet 512).sigbound))) _
  refine Ref.bind' ha ?_
  rintro s1 m1 _ e1 ⟨n1, rfl⟩
  refine Ref.bind' (Ref.older e1 (hash_gives xof fuel message salt m1)) ?_
  rintro hs m2 _ e2 ⟨⟨n2, rfl⟩, e2'⟩
  rw [← n1.valid.read e2', ← hk.read e2]
  refine Ref.bind' (Ref.older e2 (mulZq_gives wrap64 m2 s1 key (n1.valid.ext e2') (hk.ext e2))) ?_
  rintro p m3 _ e3 ⟨⟨n3, rfl⟩, e3'⟩
  rw [← n2.valid.read e3', ← (n1.valid.ext e2').read e3']
  refine Ref.bind' (Ref.older e3 (sub_gives m3 hs p (n2.valid.ext e3') n3.valid)) ?_
  rintro s0 m4 _ e4 ⟨⟨n4, rfl⟩, e4'⟩
  have v1 := (n1.valid.ext e2').ext e3'
  have hm := centre_gives m3 m4 e4' s0 n4
  refine Ref.bind' (Ref.older e3 hm) ?_
  rintro _ m5 _ e5 ⟨⟨n5, rfl, ht⟩, e5'⟩
  have h1 : read m5 s1 = read m3 s1 := v1.read e5'
  simp only [addSquares, bind_apply, loadAll_apply s0 m5 (by rw [n5.valid.read_length]) s0.len 0 (by omega),
    loadAll_apply s1 m5 (by rw [(v1.ext e5').read_length]) s1.len 0 (by omega), Go.ok_bind, List.drop_zero, pure_apply]
  rw [h1]
  exact ⟨e5, rfl⟩

theorem verify_gives (grow : Nat → Nat) (xof : Xof) (fuel : Nat) (key : Slice) (message signature : List UInt8) (m : Mem) (hk : Valid m key) :
    Ref m (Verify grow xof fuel key message signature m) (Falcon.Verify xof fuel (read m key) message signature) fun b _ b' => b = b' := by
  unfold Verify Falcon.Verify
  refine Ref.bind' (Ref.run m _) ?_
  rintro salt _ _ e0 ⟨rfl, rfl⟩
  refine Ref.bind' (Ref.run _ _) ?_
  rintro encS _ _ e0 ⟨rfl, rfl⟩
  exact verifyBody_gives grow xof fuel key message _ _ _ hk

theorem readKey_gives (grow : Nat → Nat) (b : List UInt8) (m0 m : Mem) (s : Slice) (n i : Nat) (e : Ext m0 m) (hs : Own m0 m s) :
    Ref m0 (readKey grow b n i s m) (Falcon.readKey b n i >>= fun l => .ok (read m s ++ l)) fun t m' l => Own m0 m' t ∧ read m' t = l := by
  induction n generalizing m s i with
  | zero => exact ⟨e, hs, by simp⟩
  | succ n ih =>
    unfold readKey Falcon.readKey
    rw [bind_apply, run_apply]
    rcases sumWord16 b (i * 32) 32 0 0 with t1 | _ | _ <;> simp only [Go.ok_bind, Go.panic_bind, Go.diverge_bind]
    · rw [bind_apply, run_apply]
      rcases sumWord16 b ((i + 1) * 32) 32 0 (t1 <<< 8) with t2 | _ | _ <;> simp only [Go.ok_bind, Go.panic_bind, Go.diverge_bind]
      · have : ((Falcon.readKey b n (i + 2) >>= fun r => pure (t2 :: r)) >>= fun l => .ok (read m s ++ l)) =
            (Go.ok (read m s ++ [t2]) >>= fun k => Falcon.readKey b n (i + 2) >>= fun l => .ok (k ++ l)) := by
          cases Falcon.readKey b n (i + 2) <;> simp
        rw [this]
        refine Ref.bind' (append_gives grow m0 m s t2 e hs) ?_
        rintro t m1 _ e1 ⟨h1, rfl⟩
        exact ih m1 t (i + 2) e1 h1
      · trivial
      · trivial
    · trivial
    · trivial

theorem verifyBytes_gives (grow : Nat → Nat) (xof : Xof) (fuel : Nat) (b : List UInt8) (m : Mem) :
    Ref m (VerifyBytes grow xof fuel b m) (Falcon.VerifyBytes xof fuel b) fun r _ r' => r = r' := by
  unfold VerifyBytes Falcon.VerifyBytes
  have hk := readKey_gives grow b m m nil 512 0 (Ext.refl _) (.inl rfl)
  rw [show read m nil = [] by simp [Sl.read, nil]] at hk
  have h0 : (Falcon.readKey b 512 0 >>= fun l => Go.ok ([] ++ l)) = Falcon.readKey b 512 0 := by
    cases Falcon.readKey b 512 0 <;> rfl
  rw [h0] at hk
  refine Ref.bind' hk ?_
  rintro h m1 _ e1 ⟨n1, rfl⟩
  refine Ref.bind' (Ref.older e1 (Ref.run m1 _)) ?_
  rintro msg _ _ - ⟨⟨rfl, rfl⟩, -⟩
  refine Ref.bind' (Ref.older e1 (Ref.run _ _)) ?_
  rintro sig _ _ - ⟨⟨rfl, rfl⟩, -⟩
  refine Ref.bind' (Ref.older e1 (Ref.run _ _)) ?_
  rintro r _ _ - ⟨⟨rfl, rfl⟩, -⟩
  refine Ref.bind' (Ref.older e1 (Ref.run _ _)) ?_
  rintro s m1 _ - ⟨⟨rfl, rfl⟩, -⟩
  have := Ref.older e1 (verifyBody_gives grow xof fuel h msg r s m1 n1.valid)
  exact this.mono fun _ _ _ _ h => h.1

/-- The public key is new, and that of the list model. -/
theorem publicKey_gives (m : Mem) (k : PrivateKey) (hf : Valid m k.f) (hg : Valid m k.g) :
    Ref m (GetPublicKey k m) (Falcon.GetPublicKey (k.value m)) fun p m' v => New m m' p.h ∧ p.value m' = v := by
  refine Ref.bind' (divZq_gives wrap64 m k.g k.f hg hf) ?_
  rintro (x | s) m1 (y | l) e1 h1
  · exact ⟨e1, .inl rfl, by simp [PublicKey.value, Sl.read, Sl.nil, PrivateKey.value]⟩
  · exact h1.elim
  · exact h1.elim
  · exact ⟨e1, h1.1, by simp [PublicKey.value, PrivateKey.value, h1.2]⟩

end Falcon.Sl
