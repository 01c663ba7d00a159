import Verif.Lemmas.Slice3
/-!
# C79, C80: slices that share storage

`Model/Slice.lean` models `[]int16` as references to arrays. The theorems say that the ring operations and `Verify` never change an array that
existed before the call, whatever parts of arrays their arguments share, that their results are new arrays, and that they compute what the models
on lists compute, to which C08-C30 refer. `GetPrivateKey` keeps the caller's slices.
-/

namespace Falcon
open Sl

/-- `MulZq` and `SubZq` on any two slices, which may overlap or be the same: the outcome is that of the list model on their elements; no existing
array changes; the result, unless it is nil, is the whole of a new array. -/
theorem C79_ring (m : Mem) (f g : Slice) (hf : Valid m f) (hg : Valid m g) :
    (∀ l, MulZq wrap64 (read m f) (read m g) = .ok l → ∃ s m', Sl.MulZq wrap64 f g m = .ok (s, m') ∧ read m' s = l ∧
      (∀ a < m.next, m'.arr a = m.arr a) ∧ (s = Sl.nil ∨ m.next ≤ s.id)) ∧
    (MulZq wrap64 (read m f) (read m g) = .panic ↔ Sl.MulZq wrap64 f g m = .panic) ∧
    (∀ l, SubZq (read m f) (read m g) = .ok l → ∃ s m', Sl.SubZq f g m = .ok (s, m') ∧ read m' s = l ∧
      (∀ a < m.next, m'.arr a = m.arr a) ∧ (s = Sl.nil ∨ m.next ≤ s.id)) ∧
    (SubZq (read m f) (read m g) = .panic ↔ Sl.SubZq f g m = .panic) := by
  obtain ⟨h1, h2, -⟩ := (mulZq_gives wrap64 m f g hf hg).iff
  obtain ⟨k1, k2, -⟩ := (sub_gives m f g hf hg).iff
  refine ⟨fun l hl => ?_, h2, fun l hl => ?_, k2⟩
  · obtain ⟨s, m', e, x, n, r⟩ := h1 l hl
    exact ⟨s, m', e, r, x.2, n.imp id And.left⟩
  · obtain ⟨s, m', e, x, n, r⟩ := k1 l hl
    exact ⟨s, m', e, r, x.2, n.imp id And.left⟩

/-- The same for `DivZq`, which returns a slice or an error. -/
theorem C79_div (m : Mem) (f g : Slice) (hf : Valid m f) (hg : Valid m g) :
    (∀ l, DivZq wrap64 (read m f) (read m g) = .ok (.ok l) → ∃ s m', Sl.DivZq wrap64 f g m = .ok (.ok s, m') ∧ read m' s = l ∧
      (∀ a < m.next, m'.arr a = m.arr a) ∧ (s = Sl.nil ∨ m.next ≤ s.id)) ∧
    (∀ e, DivZq wrap64 (read m f) (read m g) = .ok (.error e) → ∃ m', Sl.DivZq wrap64 f g m = .ok (.error e, m') ∧
      ∀ a < m.next, m'.arr a = m.arr a) ∧
    (DivZq wrap64 (read m f) (read m g) = .panic ↔ Sl.DivZq wrap64 f g m = .panic) := by
  obtain ⟨h1, h2, -⟩ := (divZq_gives wrap64 m f g hf hg).iff
  refine ⟨fun l hl => ?_, fun e he => ?_, h2⟩
  · obtain ⟨s, m', e, x, h⟩ := h1 _ hl
    match s, h with
    | .ok s, h => exact ⟨s, m', e, h.2, x.2, h.1.imp id And.left⟩
  · obtain ⟨s, m', e', x, h⟩ := h1 _ he
    match s, h with
    | .error _, rfl => exact ⟨m', e', x.2⟩

/-- `Verify` decides what the list model decides for the elements of the key, for every growth of `append`, and changes no existing array:
neither the key nor anything that shares storage with it. -/
theorem C79_verify (grow : Nat → Nat) (xof : Xof) (fuel : Nat) (m : Mem) (key : Slice) (hk : Valid m key) (message signature : List UInt8) :
    (∀ b, Verify xof fuel (read m key) message signature = .ok b → ∃ m', Sl.Verify grow xof fuel key message signature m = .ok (b, m') ∧
      ∀ a < m.next, m'.arr a = m.arr a) ∧
    (Verify xof fuel (read m key) message signature = .panic ↔ Sl.Verify grow xof fuel key message signature m = .panic) ∧
    (Verify xof fuel (read m key) message signature = .diverge ↔ Sl.Verify grow xof fuel key message signature m = .diverge) := by
  obtain ⟨h1, h2, h3⟩ := (verify_gives grow xof fuel key message signature m hk).iff
  refine ⟨fun b hb => ?_, h2, h3⟩
  obtain ⟨b', m', e, x, rfl⟩ := h1 b hb
  exact ⟨m', e, x.2⟩

/-- `VerifyBytes`, which makes the key out of the input: the decision is that of the list model, for every growth of `append`, and no existing array
changes. -/
theorem C79_verify_bytes (grow : Nat → Nat) (xof : Xof) (fuel : Nat) (m : Mem) (b : List UInt8) :
    (∀ r, VerifyBytes xof fuel b = .ok r → ∃ m', Sl.VerifyBytes grow xof fuel b m = .ok (r, m') ∧ ∀ a < m.next, m'.arr a = m.arr a) ∧
    (VerifyBytes xof fuel b = .panic ↔ Sl.VerifyBytes grow xof fuel b m = .panic) ∧
    (VerifyBytes xof fuel b = .diverge ↔ Sl.VerifyBytes grow xof fuel b m = .diverge) := by
  obtain ⟨h1, h2, h3⟩ := (verifyBytes_gives grow xof fuel b m).iff
  refine ⟨fun r hr => ?_, h2, h3⟩
  obtain ⟨r', m', e, x, rfl⟩ := h1 r hr
  exact ⟨m', e, x.2⟩

/-- Any number of verifications with one key, in any order, give the results of the list model for the elements the key had at the start. -/
theorem C79_repeat (grow : Nat → Nat) (xof : Xof) (fuel : Nat) (key : Slice) (inputs : List (List UInt8 × List UInt8)) (m : Mem)
    (hk : Valid m key) : ∀ bs, inputs.mapM (fun p => Verify xof fuel (read m key) p.1 p.2) = .ok bs →
      ∃ m', (inputs.mapM fun p => Sl.Verify grow xof fuel key p.1 p.2 : MM (List Bool)) m = .ok (bs, m') ∧ ∀ a < m.next, m'.arr a = m.arr a := by
  induction inputs generalizing m with
  | nil =>
    intro bs h
    cases h
    exact ⟨m, rfl, fun _ _ => rfl⟩
  | cons p ps ih =>
    intro bs h
    rw [List.mapM_cons] at h
    simp only [Go.bind_eq_ok, Go.pure_eq, Go.ok.injEq] at h
    obtain ⟨b, hb, r, hr, rfl⟩ := h
    obtain ⟨h1, -⟩ := (verify_gives grow xof fuel key p.1 p.2 m hk).iff
    obtain ⟨b', m1, e1, x1, rfl⟩ := h1 b hb
    rw [← hk.read x1] at hr
    obtain ⟨m2, e2, x2⟩ := ih m1 (hk.ext x1) r hr
    refine ⟨m2, ?_, fun a ha => (x2 a (Nat.lt_of_lt_of_le ha x1.1)).trans (x1.2 a ha)⟩
    rw [List.mapM_cons, bind_apply, e1]
    simp only [Go.ok_bind]
    rw [bind_apply, e2]
    rfl

/-- Overlapping arguments: `f` and `g` are the elements 0-3 and 2-5 of one array; `f*g`, and `f` again, are computed without changing it. -/
example : let m : Mem := ⟨1, 0, true, fun a => if a = 0 then [1, 2, 3, 4, 5, 6] else []⟩
    let f : Slice := ⟨0, 0, 4, 6⟩
    let g : Slice := ⟨0, 2, 4, 4⟩
    Valid m f ∧ Valid m g ∧ read m f = [1, 2, 3, 4] ∧ read m g = [3, 4, 5, 6] ∧
    ∃ s m', Sl.MulZq wrap64 f g m = .ok (s, m') ∧ read m' s = [12249, 12261, 12287, 40] ∧ m'.arr 0 = [1, 2, 3, 4, 5, 6] := by
  refine ⟨by decide, by decide, by decide, by decide, ?_⟩
  have : (Sl.MulZq wrap64 ⟨0, 0, 4, 6⟩ ⟨0, 2, 4, 4⟩ ⟨1, 0, true, fun a => if a = 0 then [1, 2, 3, 4, 5, 6] else []⟩ >>= fun r =>
      Go.ok (read r.2 r.1, r.2.arr 0)) = .ok ([12249, 12261, 12287, 40], [1, 2, 3, 4, 5, 6]) := by decide +kernel
  rw [Go.bind_eq_ok] at this
  obtain ⟨⟨s, m'⟩, e, h⟩ := this
  simp only [Go.ok.injEq, Prod.mk.injEq] at h
  exact ⟨s, m', e, h.1, h.2⟩

/-- `Verify` with a key that is a part of a larger array, and a signature that is too long: rejected, and the array is unchanged. -/
example (grow : Nat → Nat) (xof : Xof) (fuel : Nat) : let m : Mem := ⟨1, 0, true, fun a => if a = 0 then List.replicate 600 7 else []⟩
    let key : Slice := ⟨0, 50, 512, 550⟩
    Valid m key ∧ Verify xof fuel (read m key) [] (List.replicate 700 0) = .ok false ∧
    ∃ m', Sl.Verify grow xof fuel key [] (List.replicate 700 0) m = .ok (false, m') ∧ m'.arr 0 = List.replicate 600 7 := by
  intro m key
  have hk : Valid m key := by decide +kernel
  have hv : Verify xof fuel (read m key) [] (List.replicate 700 0) = .ok false := by
    have h1 : slice (List.replicate 700 (0 : UInt8)) HeadLen (HeadLen + SaltLen) = .ok (List.replicate 40 0) := by decide +kernel
    have h2 : slice (List.replicate 700 (0 : UInt8)) (HeadLen + SaltLen) (List.replicate 700 (0 : UInt8)).length = .ok (List.replicate 659 0) := by
      decide +kernel
    have h3 : Decompress (List.replicate 659 0)
        ((((GetParamSet 512).sigbytelen - UInt16.ofNat HeadLen - UInt16.ofNat SaltLen).toNat : Nat) : Int) 512 = .ok (.error .invalid) := by
      decide +kernel
    rw [Verify, h1, h2]
    simp only [Go.ok_bind, verifyBody, h3]
    rfl
  obtain ⟨m', e, x⟩ := (C79_verify grow xof fuel m key hk [] (List.replicate 700 0)).1 false hv
  exact ⟨hk, hv, m', e, x 0 (by decide)⟩

/-- `VerifyBytes` panics on the empty input, in both models. -/
example (grow : Nat → Nat) (xof : Xof) (fuel : Nat) (m : Mem) : VerifyBytes xof fuel [] = .panic ∧ Sl.VerifyBytes grow xof fuel [] m = .panic :=
  ⟨rfl, (C79_verify_bytes grow xof fuel m []).2.1.1 rfl⟩

/-! ### C80: the slices of a key -/

/-- `GetPrivateKey` reads and changes nothing; it accepts the same inputs as the list model, and the key it returns consists of the caller's slices.
So at any later time the key has the elements these slices have at that time. -/
theorem C80_shares (n : UInt16) (f g F G : Slice) (m : Mem) (hf : Valid m f) (hg : Valid m g) (hF : Valid m F) (hG : Valid m G) :
    (∀ v, GetPrivateKey n (read m f) (read m g) (read m F) (read m G) = .ok (.ok v) →
      ∃ k : Sl.PrivateKey, Sl.GetPrivateKey n f g F G m = .ok (.ok k, m) ∧ k.value m = v ∧
        ∀ m', k.value m' = ⟨n, read m' f, read m' g, read m' F, read m' G⟩) ∧
    (∀ e, GetPrivateKey n (read m f) (read m g) (read m F) (read m G) = .ok (.error e) →
      Sl.GetPrivateKey n f g F G m = .ok (.error e, m)) := by
  unfold GetPrivateKey Sl.GetPrivateKey isValidPolysLength Sl.isValidPolysLength
  rw [hf.read_length, hg.read_length, hF.read_length, hG.read_length]
  by_cases hn : isValidDegree n
  · simp only [hn, Bool.not_true, Bool.false_eq_true, if_false]
    by_cases h4 : 4 * n = 0
    · simp [h4]
    · simp only [h4, if_false, Go.ok_bind, bind_apply, run_apply]
      by_cases hs : UInt16.ofNat (f.len + g.len + F.len + G.len) % (4 * n) == 0
      · simp only [hs, Bool.not_true, Bool.false_eq_true, if_false, Go.pure_eq, pure_apply]
        refine ⟨fun v hv => ⟨⟨n, f, g, F, G⟩, rfl, ?_, fun _ => rfl⟩, by simp⟩
        simp only [Go.ok.injEq, Except.ok.injEq] at hv
        exact hv
      · simp only [hs, Bool.not_false, if_true, Go.pure_eq, pure_apply]
        refine ⟨by simp, fun e he => ?_⟩
        simp only [Go.ok.injEq, Except.error.injEq] at he
        rw [he]
  · simp only [hn, Bool.not_false, if_true, pure_apply]
    refine ⟨by simp, fun e he => ?_⟩
    simp only [Go.ok.injEq, Except.error.injEq] at he
    rw [he]

/-- Exactly when a later state of the memory changes the key: when it changes an element of one of the caller's slices. -/
theorem C80_changes (n : UInt16) (f g F G : Slice) (m m' : Mem) (k : Sl.PrivateKey) (h : Sl.GetPrivateKey n f g F G m = .ok (.ok k, m)) :
    k.value m' = k.value m ↔ read m' f = read m f ∧ read m' g = read m g ∧ read m' F = read m F ∧ read m' G = read m G := by
  unfold Sl.GetPrivateKey at h
  by_cases hn : isValidDegree n
  · simp only [hn, Bool.not_true, Bool.false_eq_true, if_false, bind_apply, run_apply] at h
    rcases he : Sl.isValidPolysLength n f g F G with b | _ | _ <;> rw [he] at h <;> simp only [Go.ok_bind, Go.panic_bind, Go.diverge_bind] at h
    · cases b
      · simp [pure_apply] at h
      · simp only [Bool.not_true, Bool.false_eq_true, if_false, pure_apply, Go.ok.injEq, Prod.mk.injEq, Except.ok.injEq, and_true] at h
        subst h
        simp [PrivateKey.value]
    · simp at h
    · simp at h
  · simp [hn, pure_apply] at h

/-- The public key computed from a private key does not share storage with anything: it is that of the list model for the present elements, no existing
array changes, and a later write through any slice that existed before leaves it unchanged. -/
theorem C80_public (m : Mem) (k : Sl.PrivateKey) (hf : Valid m k.f) (hg : Valid m k.g) (v : PublicKey)
    (hv : GetPublicKey (k.value m) = .ok v) :
    ∃ p m', Sl.GetPublicKey k m = .ok (p, m') ∧ p.value m' = v ∧ (∀ a < m.next, m'.arr a = m.arr a) ∧
      ∀ s, Valid m s → ∀ i < s.len, ∀ x, p.value (m'.setArr s.id ((m'.arr s.id).set (s.off + i) x)) = v := by
  obtain ⟨p, m', e, x, hn, rfl⟩ := (publicKey_gives m k hf hg).iff.1 v hv
  refine ⟨p, m', e, rfl, x.2, fun s hs i hi y => ?_⟩
  simp only [PublicKey.value, PublicKey.mk.injEq, true_and]
  refine Off.read ?_ m' _
  rcases hn with h | h
  · exact .inr (by rw [h]; rfl)
  · rcases hs.2 with h' | h'
    · have := hs.1
      omega
    · exact .inl (by omega)

/-- Four arrays with the polynomials `1`, `3`, `0`, `5` of degree 2. -/
def keyMem : Mem := ⟨0, 4, true, fun a => if a = 0 then [1, 0] else if a = 1 then [3, 0] else if a = 2 then [0, 0] else if a = 3 then [5, 0] else []⟩

/-- A key is made from four slices; its public key is `3`. After the caller writes 7 to `g[0]` the public key of the same key is `7`, and after the
caller writes 0 to `f[0]` it is nil. -/
theorem C80_violated_write : ∃ k : Sl.PrivateKey,
    Sl.GetPrivateKey 2 ⟨0, 0, 2, 2⟩ ⟨1, 0, 2, 2⟩ ⟨2, 0, 2, 2⟩ ⟨3, 0, 2, 2⟩ keyMem = .ok (.ok k, keyMem) ∧
    (Sl.GetPublicKey k keyMem >>= fun r => Go.ok (r.1.value r.2)) = .ok ⟨2, [3, 0]⟩ ∧
    (store ⟨1, 0, 2, 2⟩ 0 7 keyMem >>= fun m => Sl.GetPublicKey k m.2 >>= fun r => Go.ok (r.1.value r.2)) = .ok ⟨2, [7, 0]⟩ ∧
    (store ⟨0, 0, 2, 2⟩ 0 0 keyMem >>= fun m => Sl.GetPublicKey k m.2 >>= fun r => Go.ok (r.1.value r.2)) = .ok ⟨2, []⟩ :=
  ⟨⟨2, ⟨0, 0, 2, 2⟩, ⟨1, 0, 2, 2⟩, ⟨2, 0, 2, 2⟩, ⟨3, 0, 2, 2⟩⟩, by rfl, by decide +kernel, by decide +kernel, by decide +kernel⟩

/-- The hypotheses of `C80_shares` and `C80_public` for these slices. -/
example : Valid keyMem ⟨0, 0, 2, 2⟩ ∧ Valid keyMem ⟨1, 0, 2, 2⟩ ∧ Valid keyMem ⟨2, 0, 2, 2⟩ ∧ Valid keyMem ⟨3, 0, 2, 2⟩ ∧
    GetPrivateKey 2 [1, 0] [3, 0] [0, 0] [5, 0] = .ok (.ok ⟨2, [1, 0], [3, 0], [0, 0], [5, 0]⟩) := by
  refine ⟨by decide, by decide, by decide, by decide, by rfl⟩

end Falcon
