import Verif.Lemmas.Storage
/-! The functions of the storage model compute what the list model computes and change nothing that existed. -/

set_option linter.unusedSectionVars false

namespace Falcon.St
open Sl (bind_assoc' idx_drop idx_cases idx_lt)
open LawfulElem

variable {O : FloatOps} {E E' : Type} [Elem O E] [LawfulElem O E] [Elem O E'] [LawfulElem O E']

/-! ### Element-wise operations -/

theorem map_chunks (op : E → E) (f : List E) (j i : Nat) (h : i + j = f.length) :
    .ok ((f.drop i).map op) = chunks (fun i => do let x ← idx f i; pure [op x]) j i := by
  induction j generalizing i with
  | zero =>
    rw [List.drop_of_length_le (by omega)]
    rfl
  | succ j ih =>
    have hi : i < f.length := by omega
    rw [chunks, ← ih (i + 1) (by omega), List.drop_eq_getElem_cons hi]
    simp only [idx_lt hi, Go.ok_bind, Go.pure_eq, List.map_cons, List.singleton_append]

theorem mapAll_gives (op : E → E) (m : Mem O) (f : Slice E) (hf : Valid m f) : Gives m (mapAll op f m) (.ok ((read m f).map op)) := by
  have e := map_chunks op (read m f) f.len 0 (by rw [hf.read_length]; omega)
  rw [List.drop_zero] at e
  rw [e]
  refine Gives.fill (fun s => mapBody op f s) _ 1 f.len f.len m (by omega) (fun i l h => ?_) (fun s hs ho hl i hi A hA M hM => ?_)
  · simp only [Go.bind_eq_ok, Go.pure_eq, Go.ok.injEq] at h
    obtain ⟨_, _, rfl⟩ := h
    rfl
  · have o0 : Off s.id f := hf.off (by omega)
    simp only [mapBody, bind_apply, load_off o0, hf.read hM, bind_assoc', Go.ok_bind, Go.pure_eq, Nat.one_mul,
      store_whole ho M _ _ _ (show i < s.len by omega), set_one _ _ _ (show i < A.length by omega)]

theorem zip_chunks (op : E → E → E) (f g : List E) (j i : Nat) (h : i + j = f.length) :
    (if g.length < f.length ∧ 0 < j then Go.panic else .ok (List.zipWith op (f.drop i) (g.drop i))) =
      chunks (fun i => do let x ← idx f i; let y ← idx g i; pure [op x y]) j i := by
  induction j generalizing i with
  | zero =>
    rw [List.drop_of_length_le (show f.length ≤ i by omega), if_neg (by omega)]
    rfl
  | succ j ih =>
    have hi : i < f.length := by omega
    rw [chunks, ← ih (i + 1) (by omega), List.drop_eq_getElem_cons hi]
    simp only [idx_lt hi, Go.ok_bind]
    by_cases hg : i < g.length
    · rw [List.drop_eq_getElem_cons hg, idx_lt hg]
      by_cases h' : g.length < f.length
      · rw [if_pos (by omega), if_pos (by omega)]
        rfl
      · rw [if_neg (by omega), if_neg (by omega)]
        rfl
    · rw [if_pos (by omega)]
      have : idx g i = .panic := by
        unfold idx
        rw [List.getElem?_eq_none (by omega)]
      rw [this]
      rfl

/-- The loop shared by all operations on two slices. -/
theorem zipLoop_gives (op : E → E → E) (m : Mem O) (f g : Slice E) (hf : Valid m f) (hg : Valid m g) :
    Gives m ((do let res ← make f.len; forLoop (zipBody op f g res) f.len 0; pure res : H O (Slice E)) m)
      (if g.len < f.len then .panic else .ok (List.zipWith op (read m f) (read m g))) := by
  have e := zip_chunks op (read m f) (read m g) f.len 0 (by rw [hf.read_length]; omega)
  rw [List.drop_zero, List.drop_zero, hf.read_length, hg.read_length] at e
  have e' : (if g.len < f.len then Go.panic else .ok (List.zipWith op (read m f) (read m g))) =
      (if g.len < f.len ∧ 0 < f.len then Go.panic else .ok (List.zipWith op (read m f) (read m g))) := by
    by_cases h : g.len < f.len
    · rw [if_pos h, if_pos ⟨h, by omega⟩]
    · rw [if_neg h, if_neg (by omega)]
  rw [e', e]
  refine Gives.fill (fun s => zipBody op f g s) _ 1 f.len f.len m (by omega) (fun i l h => ?_) (fun s hs ho hl i hi A hA M hM => ?_)
  · simp only [Go.bind_eq_ok, Go.pure_eq, Go.ok.injEq] at h
    obtain ⟨_, _, _, _, rfl⟩ := h
    rfl
  · have o0 : Off s.id f := hf.off (by omega)
    have o1 : Off s.id g := hg.off (by omega)
    simp only [zipBody, bind_apply, load_off o0, load_off o1, hf.read hM, hg.read hM, bind_assoc', Go.ok_bind, Go.pure_eq, Nat.one_mul,
      store_whole ho M _ _ _ (show i < s.len by omega), set_one _ _ _ (show i < A.length by omega)]

theorem zipSame_gives (op : E → E → E) (m : Mem O) (f g : Slice E) (hf : Valid m f) (hg : Valid m g) :
    Gives m (zipSame op f g m) (if (read m f).length ≠ (read m g).length then .panic else .ok (List.zipWith op (read m f) (read m g))) := by
  rw [hf.read_length, hg.read_length]
  by_cases h : f.len = g.len
  · have := zipLoop_gives op m f g hf hg
    rw [if_neg (by omega)] at this
    rw [if_neg (by omega)]
    unfold zipSame
    simp only [show ¬ (f.len ≠ g.len) by omega, if_false]
    exact this
  · rw [if_pos h]
    unfold zipSame
    simp only [show f.len ≠ g.len from h, ne_eq, not_false_eq_true, if_true]
    trivial

theorem add_gives (m : Mem O) (f g : Slice O.F) (hf : Valid m f) (hg : Valid m g) : Gives m (Add f g m) (Falcon.Add O (read m f) (read m g)) :=
  zipSame_gives O.add m f g hf hg

theorem addFFT_gives (m : Mem O) (f g : Slice O.C) (hf : Valid m f) (hg : Valid m g) :
    Gives m (AddFFT f g m) (Falcon.AddFFT O (read m f) (read m g)) := zipSame_gives O.cadd m f g hf hg

theorem divFFT_gives (m : Mem O) (f g : Slice O.C) (hf : Valid m f) (hg : Valid m g) :
    Gives m (DivFFT f g m) (Falcon.DivFFT O (read m f) (read m g)) := zipSame_gives O.cdiv m f g hf hg

theorem mulFFT_gives (m : Mem O) (f g : Slice O.C) (hf : Valid m f) (hg : Valid m g) :
    Gives m (MulFFT f g m) (Falcon.MulFFT O (read m f) (read m g)) := by
  unfold Falcon.MulFFT
  rw [hf.read_length, hg.read_length]
  exact zipLoop_gives O.cmul m f g hf hg

theorem adjFFT_gives (m : Mem O) (f : Slice O.C) (hf : Valid m f) : Gives m (AdjFFT f m) (.ok (Falcon.AdjFFT O (read m f))) :=
  mapAll_gives O.conj m f hf

theorem neg_gives (m : Mem O) (f : Slice O.F) (hf : Valid m f) : Gives m (Neg f m) (.ok (Falcon.Neg O (read m f))) :=
  mapAll_gives O.neg m f hf

theorem negFFT_gives (m : Mem O) (f : Slice O.C) (hf : Valid m f) : Gives m (NegFFT f m) (.ok (Falcon.NegFFT O (read m f))) :=
  mapAll_gives O.cneg m f hf

theorem sub_gives (m : Mem O) (f g : Slice O.F) (hf : Valid m f) (hg : Valid m g) : Gives m (Sub f g m) (Falcon.Sub O (read m f) (read m g)) := by
  change Gives m _ (Go.ok (Falcon.Neg O (read m g)) >>= fun g => Falcon.Add O (read m f) g)
  refine Ref.bind (neg_gives m g hg) ?_
  rintro s m1 _ e1 ⟨n1, rfl⟩
  rw [← hf.read e1]
  exact (add_gives m1 f s (hf.ext e1) n1.valid).older e1

theorem subFFT_gives (m : Mem O) (f g : Slice O.C) (hf : Valid m f) (hg : Valid m g) :
    Gives m (SubFFT f g m) (Falcon.SubFFT O (read m f) (read m g)) := by
  change Gives m _ (Go.ok (Falcon.NegFFT O (read m g)) >>= fun g => Falcon.AddFFT O (read m f) g)
  refine Ref.bind (negFFT_gives m g hg) ?_
  rintro s m1 _ e1 ⟨n1, rfl⟩
  rw [← hf.read e1]
  exact (addFFT_gives m1 f s (hf.ext e1) n1.valid).older e1

/-! ### Splitting and merging -/

theorem splitPolys_chunks (f : List E) (j i : Nat) (h : i + j = f.length / 2) :
    .ok (splitPolys (f.drop (2 * i))) =
      chunks2 (fun i => do let x ← idx f (2 * i); let y ← idx f (2 * i + 1); pure (x, y)) j i := by
  induction j generalizing i with
  | zero =>
    have : (f.drop (2 * i)).length ≤ 1 := by simp; omega
    match e : f.drop (2 * i), this with
    | [], _ => rfl
    | [_], _ => rfl
  | succ j ih =>
    have h0 : 2 * i < f.length := by omega
    have h1 : 2 * i + 1 < f.length := by omega
    rw [chunks2, ← ih (i + 1) (by omega), List.drop_eq_getElem_cons h0, List.drop_eq_getElem_cons h1, splitPolys]
    simp only [idx_lt h0, idx_lt h1, Go.ok_bind, Go.pure_eq]
    rfl

theorem splitPolys_gives (m : Mem O) (f : Slice O.F) (hf : Valid m f) : Gives2 m (SplitPolysFloat64 f m) (.ok (splitPolys (read m f))) := by
  have e := splitPolys_chunks (read m f) (f.len / 2) 0 (by rw [hf.read_length]; omega)
  simp only [Nat.mul_zero, List.drop_zero] at e
  rw [e]
  refine Gives2.fill (splitPolysBody f) _ (f.len / 2) m (fun s t hs ho hl ht ho' hl' i hi A B hA hB M hM => ?_)
  have o0 : Off s.id f := hf.off (by omega)
  have o1 : Off t.id f := hf.off (by omega)
  simp only [splitPolysBody, bind_apply, load_off2 o0 o1, hf.read hM, bind_assoc', Go.ok_bind, Go.pure_eq,
    store_first ho (show s.id ≠ t.id by omega) M _ _ _ _ (show i < s.len by omega),
    store_whole ho' (Elem.set M _ _) _ _ _ (show i < t.len by omega)]

theorem mergePolys_chunks (f0 f1 : List E) (j i : Nat) (h : i + j = f0.length) :
    mergePolys (f0.drop i) (f1.drop i) = chunks (fun i => do let x ← idx f0 i; let y ← idx f1 i; pure [x, y]) j i := by
  induction j generalizing i with
  | zero =>
    rw [List.drop_of_length_le (show f0.length ≤ i by omega)]
    simp [mergePolys, chunks]
  | succ j ih =>
    have hi : i < f0.length := by omega
    rw [List.drop_eq_getElem_cons hi, chunks, ← ih (i + 1) (by omega)]
    simp only [idx_lt hi, bind_assoc', Go.ok_bind, Go.pure_eq]
    by_cases h1 : i < f1.length
    · rw [List.drop_eq_getElem_cons h1, mergePolys, idx_lt h1]
      rfl
    · rw [List.drop_of_length_le (show f1.length ≤ i by omega), mergePolys]
      simp [idx, show f1[i]? = none by simpa using h1]

theorem mergePolys_gives (m : Mem O) (f0 f1 : Slice O.F) (h0 : Valid m f0) (h1 : Valid m f1) :
    Gives m (MergePolysfloat64 f0 f1 m) (mergePolys (read m f0) (read m f1)) := by
  have e := mergePolys_chunks (read m f0) (read m f1) f0.len 0 (by rw [h0.read_length]; omega)
  simp only [List.drop_zero] at e
  rw [e]
  refine Gives.fill (fun s => mergePolysBody f0 f1 s) _ 2 f0.len (2 * f0.len) m rfl (fun i l h => ?_) (fun s hs ho hl i hi A hA M hM => ?_)
  · simp only [Go.bind_eq_ok, Go.pure_eq, Go.ok.injEq] at h
    obtain ⟨_, _, _, _, rfl⟩ := h
    rfl
  · have o0 : Off s.id f0 := h0.off (by omega)
    have o1 : Off s.id f1 := h1.off (by omega)
    simp only [mergePolysBody, bind_apply, load_off o0, load_off o1, h0.read hM, h1.read hM, bind_assoc', Go.ok_bind, Go.pure_eq,
      store_whole ho M _ _ _ (show 2 * i < s.len by omega), store_whole ho M _ _ _ (show 2 * i + 1 < s.len by omega),
      set_two _ _ _ _ (show 2 * i + 1 < A.length by omega)]

/-- One iteration of `SplitFFT` on lists. -/
def splitC (n : Nat) (f : List O.C) (i : Nat) : Go (O.C × O.C) := do
  let x ← idx f (2 * i)
  let y ← idx f (2 * i + 1)
  let w ← O.rootAt n (2 * i)
  pure (O.cmul (O.cadd x y) O.half, O.cmul (O.cmul (O.csub x y) O.half) (O.conj w))

theorem splitLoop_chunks (n : Nat) (f : List O.C) (j i : Nat) (h : i + j = f.length / 2) :
    splitFFTLoop O n i (f.drop (2 * i)) = chunks2 (splitC n f) j i := by
  induction j generalizing i with
  | zero =>
    have : (f.drop (2 * i)).length ≤ 1 := by simp; omega
    match e : f.drop (2 * i), this with
    | [], _ => simp [splitFFTLoop, chunks2]
    | [_], _ => simp [splitFFTLoop, chunks2]
  | succ j ih =>
    have h0 : 2 * i < f.length := by omega
    have h1 : 2 * i + 1 < f.length := by omega
    rw [List.drop_eq_getElem_cons h0, List.drop_eq_getElem_cons h1, splitFFTLoop, chunks2, ← ih (i + 1) (by omega)]
    simp only [splitC, idx_lt h0, idx_lt h1, Go.ok_bind, Go.pure_eq, bind_assoc', Nat.mul_add, Nat.mul_one]

theorem splitFFT_gives (m : Mem O) (f : Slice O.C) (hf : Valid m f) : Gives2 m (SplitFFT f m) (Falcon.SplitFFT O (read m f)) := by
  have e : Falcon.SplitFFT O (read m f) = chunks2 (splitC f.len (read m f)) (f.len / 2) 0 := by
    have := splitLoop_chunks f.len (read m f) (f.len / 2) 0 (by rw [hf.read_length]; omega)
    simp only [Nat.mul_zero, List.drop_zero] at this
    rw [← this, Falcon.SplitFFT, hf.read_length]
  rw [e]
  refine Gives2.fill (splitFFTBody f) _ (f.len / 2) m (fun s t hs ho hl ht ho' hl' i hi A B hA hB M hM => ?_)
  have o0 : Off s.id f := hf.off (by omega)
  have o1 : Off t.id f := hf.off (by omega)
  have h0 : 2 * i < (read m f).length := by rw [hf.read_length]; omega
  have h1 : 2 * i + 1 < (read m f).length := by rw [hf.read_length]; omega
  simp only [splitFFTBody, splitC, bind_apply, run_apply, load_off2 o0 o1, hf.read hM, bind_assoc', Go.ok_bind, Go.pure_eq, idx_lt h0, idx_lt h1,
    store_first ho (show s.id ≠ t.id by omega) M _ _ _ _ (show i < s.len by omega),
    store_whole ho' (Elem.set M _ _) _ _ _ (show i < t.len by omega)]

/-- One iteration of `MergeFFT` on lists. -/
def mergeC (n : Nat) (f0 f1 : List O.C) (i : Nat) : Go (List O.C) := do
  let x ← idx f0 i
  let y ← idx f1 i
  let w ← O.rootAt n (2 * i)
  pure [O.cadd (O.cmul w y) x, O.csub x (O.cmul w y)]

theorem mergeLoop_chunks (n : Nat) (f0 f1 : List O.C) (j i : Nat) (h : i + j = f0.length) :
    mergeFFTLoop O n i (f0.drop i) (f1.drop i) = chunks (mergeC n f0 f1) j i := by
  induction j generalizing i with
  | zero =>
    rw [List.drop_of_length_le (show f0.length ≤ i by omega)]
    simp [mergeFFTLoop, chunks]
  | succ j ih =>
    have hi : i < f0.length := by omega
    rw [List.drop_eq_getElem_cons hi, chunks, ← ih (i + 1) (by omega)]
    simp only [mergeC, idx_lt hi, bind_assoc', Go.ok_bind, Go.pure_eq]
    by_cases h1 : i < f1.length
    · rw [List.drop_eq_getElem_cons h1, mergeFFTLoop, idx_lt h1]
      rfl
    · rw [List.drop_of_length_le (show f1.length ≤ i by omega), mergeFFTLoop]
      simp [idx, show f1[i]? = none by simpa using h1]

theorem rootAt_twice {α : Type} (n i : Nat) (k : O.C → O.C → Go α) :
    (O.rootAt n i >>= fun w => O.rootAt n i >>= fun w' => k w w') = (O.rootAt n i >>= fun w => k w w) := by
  cases O.rootAt n i <;> rfl

theorem mergeFFT_gives (m : Mem O) (f0 f1 : Slice O.C) (h0 : Valid m f0) (h1 : Valid m f1) :
    Gives m (MergeFFT (f0, f1) m) (Falcon.MergeFFT O (read m f0, read m f1)) := by
  have e : Falcon.MergeFFT O (read m f0, read m f1) = chunks (mergeC (2 * f0.len) (read m f0) (read m f1)) f0.len 0 := by
    have := mergeLoop_chunks (2 * f0.len) (read m f0) (read m f1) f0.len 0 (by rw [h0.read_length]; omega)
    simp only [List.drop_zero] at this
    rw [← this, Falcon.MergeFFT, h0.read_length]
  rw [e]
  refine Gives.fill (fun s => mergeFFTBody f0 f1 s) _ 2 f0.len (2 * f0.len) m rfl (fun i l h => ?_) (fun s hs ho hl i hi A hA M hM => ?_)
  · simp only [mergeC, Go.bind_eq_ok, Go.pure_eq, Go.ok.injEq] at h
    obtain ⟨_, _, _, _, _, _, rfl⟩ := h
    rfl
  · have o0 : Off s.id f0 := h0.off (by omega)
    have o1 : Off s.id f1 := h1.off (by omega)
    simp only [mergeFFTBody, mergeC, bind_apply, run_apply, load_off o0, load_off o1, h0.read hM, h1.read hM, bind_assoc', Go.ok_bind, Go.pure_eq,
      store_whole ho M _ _ _ (show 2 * i < s.len by omega), store_whole ho M _ _ _ (show 2 * i + 1 < s.len by omega),
      set_two _ _ _ _ (show 2 * i + 1 < A.length by omega), rootAt_twice]

/-! ### The transforms -/

/-- A new array of two elements, written one after the other. -/
theorem pair_gives (m : Mem O) (x y : E) :
    Gives m ((do store ⟨m.next, 0, 2⟩ 0 x; store ⟨m.next, 0, 2⟩ 1 y; pure ⟨m.next, 0, 2⟩ : H O (Slice E))
      (m.push (List.replicate 2 (Elem.zero O : E)))) (.ok [x, y]) := by
  have e : (do store ⟨m.next, 0, 2⟩ 0 x; store ⟨m.next, 0, 2⟩ 1 y; pure ⟨m.next, 0, 2⟩ : H O (Slice E))
      (m.push (List.replicate 2 (Elem.zero O : E))) = .ok (⟨m.next, 0, 2⟩, m.push [x, y]) := by
    rw [← push_set m ([] : List E) (List.replicate 2 (Elem.zero O)), bind_apply,
      store_whole (s := ⟨m.next, 0, 2⟩) rfl (m.push ([] : List E)) _ 0 x (by simp)]
    simp only [Go.ok_bind, bind_apply]
    rw [store_whole (s := ⟨m.next, 0, 2⟩) rfl (m.push ([] : List E)) _ 1 y (by simp)]
    simp only [Go.ok_bind, push_set, pure_apply]
    rfl
  rw [e]
  exact ⟨ext_push m _, new_push m [x, y]⟩

theorem two_elements {m : Mem O} {f : Slice E} (hf : Valid m f) (h : f.len = 2) : ∃ a b, read m f = [a, b] := by
  have := hf.read_length
  rw [h] at this
  match e : read m f, this with
  | [a, b], _ => exact ⟨a, b, rfl⟩

theorem fft_big (l : List O.F) (h : 2 < l.length) : Falcon.FFT O l =
    (Go.ok (splitPolys l) >>= fun s => Falcon.FFT O s.1 >>= fun a => Falcon.FFT O s.2 >>= fun b => Falcon.MergeFFT O (a, b)) := by
  rw [Falcon.FFT, dif_pos h]
  rfl

theorem fft_small (l : List O.F) (h : l.length < 2) : Falcon.FFT O l = .ok [] := by
  rw [Falcon.FFT, dif_neg (by omega)]
  match l, h with
  | [], _ => rfl
  | [_], _ => rfl

theorem nil_gives (m : Mem O) : Gives m ((pure nil : H O (Slice E)) m) (.ok []) := by
  refine ⟨Ext.refl m, .inl rfl, ?_⟩
  simp [read, nil]

theorem fftAux_gives (fuel : Nat) (m : Mem O) (f : Slice O.F) (hf : Valid m f) (hl : f.len < fuel) :
    Gives m (fftAux fuel f m) (Falcon.FFT O (read m f)) := by
  induction fuel generalizing m f with
  | zero => omega
  | succ fuel ih =>
    unfold fftAux
    by_cases h : f.len > 2
    · rw [if_pos h, fft_big _ (by rw [hf.read_length]; exact h)]
      refine Ref.bind (splitPolys_gives m f hf).keepOk ?_
      rintro ⟨s0, s1⟩ m1 p e1 ⟨hp, ⟨n0, r0⟩, n1, r1⟩
      cases hp
      have l0 : s0.len < fuel := by
        have := congrArg List.length r0
        simp only [n0.valid.read_length, splitPolys_length1, hf.read_length] at this
        omega
      have l1 : s1.len < fuel := by
        have := congrArg List.length r1
        simp only [n1.valid.read_length, splitPolys_length2, hf.read_length] at this
        omega
      dsimp only at r0 r1 n0 n1 ⊢
      rw [← r0, ← r1]
      refine Ref.bind (Ref.older e1 (ih m1 s0 n0.valid l0)) ?_
      rintro a m2 _ e2 ⟨⟨na, rfl⟩, x2⟩
      rw [← n1.valid.read x2]
      refine Ref.bind (Ref.older e2 (ih m2 s1 (n1.valid.ext x2) l1)) ?_
      rintro b m3 _ e3 ⟨⟨nb, rfl⟩, x3⟩
      rw [← na.valid.read x3]
      exact (mergeFFT_gives m3 a b (na.valid.ext x3) nb.valid).older e3
    · rw [if_neg h]
      by_cases h2 : f.len = 2
      · rw [if_pos h2]
        obtain ⟨x, y, e⟩ := two_elements hf h2
        have e' : read (m.push (List.replicate 2 (Elem.zero O : O.C))) f = [x, y] := by rw [hf.read (ext_push m _), e]
        rw [e, Falcon.FFT, dif_neg (by simp)]
        simp only [bind_apply, make_apply, Go.ok_bind, load_apply, e', idx, List.getElem?_cons_zero, List.getElem?_cons_succ]
        exact pair_gives m _ _
      · rw [if_neg h2, fft_small _ (by rw [hf.read_length]; omega)]
        exact nil_gives m

theorem fft_gives (m : Mem O) (f : Slice O.F) (hf : Valid m f) : Gives m (FFT f m) (Falcon.FFT O (read m f)) :=
  fftAux_gives _ m f hf (Nat.lt_succ_self _)

theorem ifftAux_gives (fuel : Nat) (m : Mem O) (f : Slice O.C) (hf : Valid m f) :
    Gives m (ifftAux fuel f m) (Falcon.ifftAux O fuel (read m f)) := by
  induction fuel generalizing m f with
  | zero => trivial
  | succ fuel ih =>
    unfold ifftAux Falcon.ifftAux
    rw [hf.read_length]
    by_cases h : f.len > 2
    · rw [if_pos h, if_pos h]
      refine Ref.bind (splitFFT_gives m f hf) ?_
      rintro ⟨s0, s1⟩ m1 ⟨_, _⟩ e1 ⟨⟨n0, rfl⟩, n1, rfl⟩
      refine Ref.bind (Ref.older e1 (ih m1 s0 n0.valid)) ?_
      rintro a m2 _ e2 ⟨⟨na, rfl⟩, x2⟩
      dsimp only at n1 ⊢
      rw [← n1.valid.read x2]
      refine Ref.bind (Ref.older e2 (ih m2 s1 (n1.valid.ext x2))) ?_
      rintro b m3 _ e3 ⟨⟨nb, rfl⟩, x3⟩
      rw [← na.valid.read x3]
      exact (mergePolys_gives m3 a b (na.valid.ext x3) nb.valid).older e3
    · rw [if_neg h, if_neg h]
      by_cases h2 : f.len = 2
      · rw [if_pos h2]
        obtain ⟨x, y, e⟩ := two_elements hf h2
        have e' : read (m.push (List.replicate 2 (Elem.zero O : O.F))) f = [x, y] := by rw [hf.read (ext_push m _), e]
        have o : Off m.next f := hf.off (Nat.le_refl _)
        rw [e, h2]
        simp only [bind_apply, make_apply, Go.ok_bind, load_apply, e', idx, List.getElem?_cons_zero]
        have e0 := push_set m ([] : List O.F) (List.replicate 2 (Elem.zero O))
        rw [← e0, store_whole (s := (⟨m.next, 0, 2⟩ : Slice O.F)) rfl (m.push ([] : List O.F)) _ 0 _ (by simp)]
        simp only [Go.ok_bind]
        rw [o.read, hf.read (ext_push m _), e]
        simp only [List.getElem?_cons_zero, Go.ok_bind]
        have := pair_gives m (O.re x) (O.im x)
        rw [bind_apply, ← e0, store_whole (s := (⟨m.next, 0, 2⟩ : Slice O.F)) rfl (m.push ([] : List O.F)) _ 0 _ (by simp)] at this
        exact this
      · rw [if_neg h2]
        have hl := hf.read_length
        match e : read m f, hl with
        | [], _ => exact nil_gives m
        | [_], _ => exact nil_gives m
        | [_, _], hl => simp at hl; omega
        | _ :: _ :: _ :: _, hl => simp at hl; omega

theorem ifft_gives (m : Mem O) (f : Slice O.C) (hf : Valid m f) : Gives m (IFFT f m) (Falcon.IFFT O (read m f)) := by
  unfold IFFT Falcon.IFFT
  rw [hf.read_length]
  exact ifftAux_gives _ m f hf

theorem adj_gives (m : Mem O) (f : Slice O.F) (hf : Valid m f) : Gives m (Adj f m) (Falcon.Adj O (read m f)) := by
  change Gives m _ (Falcon.FFT O (read m f) >>= fun a => Go.ok (Falcon.AdjFFT O a) >>= fun a => Falcon.IFFT O a)
  refine Ref.bind (fft_gives m f hf) ?_
  rintro a m1 _ e1 ⟨n1, rfl⟩
  refine Ref.bind (Ref.older e1 (adjFFT_gives m1 a n1.valid)) ?_
  rintro b m2 _ e2 ⟨⟨n2, rfl⟩, -⟩
  exact (ifft_gives m2 b n2.valid).older e2

theorem mul_gives (m : Mem O) (f g : Slice O.F) (hf : Valid m f) (hg : Valid m g) : Gives m (Mul f g m) (Falcon.Mul O (read m f) (read m g)) := by
  refine Ref.bind (fft_gives m f hf) ?_
  rintro a m1 _ e1 ⟨n1, rfl⟩
  rw [← hg.read e1]
  refine Ref.bind (Ref.older e1 (fft_gives m1 g (hg.ext e1))) ?_
  rintro b m2 _ e2 ⟨⟨n2, rfl⟩, x2⟩
  rw [← n1.valid.read x2]
  refine Ref.bind (Ref.older e2 (mulFFT_gives m2 a b (n1.valid.ext x2) n2.valid)) ?_
  rintro c m3 _ e3 ⟨⟨n3, rfl⟩, -⟩
  exact (ifft_gives m3 c n3.valid).older e3

theorem div_gives (m : Mem O) (f g : Slice O.F) (hf : Valid m f) (hg : Valid m g) : Gives m (Div f g m) (Falcon.Div O (read m f) (read m g)) := by
  refine Ref.bind (fft_gives m f hf) ?_
  rintro a m1 _ e1 ⟨n1, rfl⟩
  rw [← hg.read e1]
  refine Ref.bind (Ref.older e1 (fft_gives m1 g (hg.ext e1))) ?_
  rintro b m2 _ e2 ⟨⟨n2, rfl⟩, x2⟩
  rw [← n1.valid.read x2]
  refine Ref.bind (Ref.older e2 (divFFT_gives m2 a b (n1.valid.ext x2) n2.valid)) ?_
  rintro c m3 _ e3 ⟨⟨n3, rfl⟩, -⟩
  exact (ifft_gives m3 c n3.valid).older e3

end Falcon.St
