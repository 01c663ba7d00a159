import Verif.Lemmas.Concurrent
/-!
# C81: concurrent calls

Any number of goroutines call `MulZq`, `SubZq`, `DivZq`, `GetPublicKey`, `Verify` and `VerifyBytes` on slices that may be the same or overlap. Their accesses to
memory are interleaved in an arbitrary order (`Model/Concurrent.lean`). There is no data race, no shared array changes, and every call returns
what the model on lists returns.
-/

namespace Falcon
open Sl

/-- The arguments are slices of existing arrays. -/
def Sl.Call.valid (m : Mem) : Call → Prop
  | .mul f g => Valid m f ∧ Valid m g
  | .sub f g => Valid m f ∧ Valid m g
  | .div f g => Valid m f ∧ Valid m g
  | .publicKey k => Valid m k.f ∧ Valid m k.g
  | .verify _ _ _ key _ _ => Valid m key
  | .verifyBytes .. => True

/-- The outcome according to the model on lists, for the elements of the arguments in the memory `m`. -/
def Sl.Call.outcome (m : Mem) : Call → Go Res
  | .mul f g => do
    let l ← Falcon.MulZq wrap64 (read m f) (read m g)
    pure (.ints l)
  | .sub f g => do
    let l ← Falcon.SubZq (read m f) (read m g)
    pure (.ints l)
  | .div f g => do
    match ← Falcon.DivZq wrap64 (read m f) (read m g) with
    | .error e => pure (.error e)
    | .ok l => pure (.ints l)
  | .publicKey k => do
    let p ← Falcon.GetPublicKey (k.value m)
    pure (.key p)
  | .verify _ xof fuel key message signature => do
    let b ← Falcon.Verify xof fuel (read m key) message signature
    pure (.bool b)
  | .verifyBytes _ xof fuel inputBytes => do
    let b ← Falcon.VerifyBytes xof fuel inputBytes
    pure (.bool b)

/-- Reading the result of a call. -/
theorem readAll_gives {m m' : Mem} {s : Slice} (h : New m m' s) : loadAll s s.len 0 m' = .ok (read m' s, m') := by
  rw [loadAll_apply s m' (by rw [h.valid.read_length]) s.len 0 (by omega), List.drop_zero]

theorem call_gives (m : Mem) (c : Call) (h : c.valid m) : Ref m (exec c.code m) (c.outcome m) fun a _ b => a = b := by
  match c, h with
  | .mul f g, ⟨hf, hg⟩ =>
    refine Ref.bind (mulZq_gives wrap64 m f g hf hg) ?_
    rintro s m1 _ e1 ⟨n1, rfl⟩
    simp only [bind_apply, readAll_gives n1, Go.ok_bind, pure_apply, Go.pure_eq]
    exact ⟨Ext.refl _, rfl⟩
  | .sub f g, ⟨hf, hg⟩ =>
    refine Ref.bind (sub_gives m f g hf hg) ?_
    rintro s m1 _ e1 ⟨n1, rfl⟩
    simp only [bind_apply, readAll_gives n1, Go.ok_bind, pure_apply, Go.pure_eq]
    exact ⟨Ext.refl _, rfl⟩
  | .div f g, ⟨hf, hg⟩ =>
    refine Ref.bind (divZq_gives wrap64 m f g hf hg) ?_
    rintro (x | s) m1 (y | l) e1 h1
    · obtain rfl : x = y := h1
      exact ⟨Ext.refl _, rfl⟩
    · exact h1.elim
    · exact h1.elim
    · obtain ⟨n1, rfl⟩ := h1
      simp only [bind_apply, readAll_gives n1, Go.ok_bind, pure_apply, Go.pure_eq]
      exact ⟨Ext.refl _, rfl⟩
  | .publicKey k, ⟨hf, hg⟩ =>
    refine Ref.bind (publicKey_gives m k hf hg) ?_
    rintro p m1 _ e1 ⟨n1, rfl⟩
    simp only [bind_apply, readAll_gives n1, Go.ok_bind, pure_apply, Go.pure_eq]
    exact ⟨Ext.refl _, rfl⟩
  | .verify grow xof fuel key message signature, h =>
    refine Ref.bind (verify_gives grow xof fuel key message signature m h) ?_
    rintro b m1 _ e1 rfl
    exact ⟨Ext.refl _, rfl⟩
  | .verifyBytes grow xof fuel inputBytes, _ =>
    refine Ref.bind (verifyBytes_gives grow xof fuel inputBytes m) ?_
    rintro b m1 _ e1 rfl
    exact ⟨Ext.refl _, rfl⟩

theorem call_clean (m : Mem) (c : Call) (h : c.valid m) : Clean c.code m.settle :=
  clean_of_ref (y := c.outcome m) (R := fun _ a _ b => a = b) fun b =>
    call_gives { m.settle with fault := b } c (by cases c <;> exact h)

theorem calls_inv (m : Mem) (calls : List Call) (hv : ∀ c ∈ calls, c.valid m) (order : List Nat) :
    Inv m.settle (calls.map Call.code) order ((start m (calls.map Call.code)).run order) := by
  refine Inv.run m _ (fun c hc => ?_) order
  obtain ⟨c, hm, rfl⟩ := List.mem_map.1 hc
  exact call_clean m c (hv c hm)

/-- Whatever calls run at the same time and in whatever order their accesses happen: the shared arrays are at every moment as they were at the start,
and no goroutine is ever about to store into one of them (so that two accesses to the same array by different goroutines are both loads). -/
theorem C81_race_free (m : Mem) (calls : List Call) (hv : ∀ c ∈ calls, c.valid m) (order : List Nat) :
    ((start m (calls.map Call.code)).run order).shared = m.arr ∧
    ∀ th ∈ ((start m (calls.map Call.code)).run order).threads, ∀ a i v k, th.code = .store a i v k → m.next ≤ a := by
  have inv := calls_inv m calls hv order
  refine ⟨inv.shared, fun th hth a i v k e => ?_⟩
  obtain ⟨t, ht, rfl⟩ := List.mem_iff_getElem.1 hth
  have hlt : t < (calls.map Call.code).length := inv.count ▸ ht
  have al := inv.alone t _ _ (List.getElem?_eq_getElem ht) (List.getElem?_eq_getElem hlt)
  have hc : Clean (calls.map Call.code)[t] m.settle := by
    rw [List.getElem_map]
    exact call_clean m _ (hv _ (List.getElem_mem _))
  have := (iter_clean (hc.fault true) (order.count t)).1
  rw [← al, e] at this
  have h1 : (Sys.view _ _).base ≤ a := this.1
  rwa [Sys.view, inv.base] at h1

/-- A call that has finished, at any moment of any execution, has the outcome of the model on lists for the elements its arguments had at the start. -/
theorem C81_results (m : Mem) (calls : List Call) (hv : ∀ c ∈ calls, c.valid m) (order : List Nat) (t : Nat) (c : Call) (hc : calls[t]? = some c)
    (th : Thread Res) (ht : ((start m (calls.map Call.code)).run order).threads[t]? = some th) (r : Go Res) (hr : th.code = .done r) :
    r = c.outcome m := by
  have inv := calls_inv m calls hv order
  have al := inv.alone t th c.code ht (by simp [hc])
  have hval := hv c (List.mem_of_getElem? hc)
  have := (iter_clean ((call_clean m c hval).fault true) (order.count t)).2
  rw [← al, hr] at this
  have ref := call_gives { m.settle with fault := true } c (by cases c <;> exact hval)
  rw [← this] at ref
  have e : c.outcome { m.settle with fault := true } = c.outcome m := by cases c <;> rfl
  rw [e] at ref
  rcases r with a | _ | _ <;> cases ho : c.outcome m <;> rw [ho] at ref <;> simp only [exec, Go.ok_bind, Go.panic_bind, Go.diverge_bind, Ref] at ref
  rw [ref.2]

/-- A call has finished as soon as it had a certain number of turns; the number depends on the call and the memory at the start, not on the other calls or
the order. -/
theorem C81_progress (m : Mem) (c : Call) : ∃ N, ∀ calls : List Call, (∀ c ∈ calls, c.valid m) → ∀ t, calls[t]? = some c →
    ∀ order : List Nat, N ≤ order.count t →
      ∃ th, ((start m (calls.map Call.code)).run order).threads[t]? = some th ∧ th.code = .done (c.outcome m) := by
  obtain ⟨N, h⟩ := finishes c.code { m.settle with fault := true }
  refine ⟨N, fun calls hv t hc order hN => ?_⟩
  have inv := calls_inv m calls hv order
  have hlt : t < ((start m (calls.map Call.code)).run order).threads.length := by
    rw [inv.count, List.length_map]
    exact (List.getElem?_eq_some_iff.1 hc).1
  have ht := List.getElem?_eq_getElem hlt
  have al := inv.alone t _ c.code ht (by simp [hc])
  obtain ⟨r, hr⟩ := h _ hN
  rw [← al] at hr
  exact ⟨_, ht, by rw [← C81_results m calls hv order t c hc _ ht r hr]; exact hr⟩

/-- Two goroutines multiply overlapping parts of one array and divide by one of them; a third verifies with the array as its key, a fourth verifies
an input of bytes. The hypotheses hold. -/
example (xof : Xof) : let m : Mem := ⟨1, 0, true, fun a => if a = 0 then [1, 2, 3, 4, 5, 6] else []⟩
    ∀ c ∈ [Call.mul ⟨0, 0, 4, 6⟩ ⟨0, 2, 4, 4⟩, .div ⟨0, 0, 4, 6⟩ ⟨0, 2, 4, 4⟩, .verify (2 * ·) xof 10 ⟨0, 0, 6, 6⟩ [] [],
      .verifyBytes (2 * ·) xof 10 (List.replicate 55104 1)], c.valid m := by
  intro m c hc
  simp only [List.mem_cons, List.not_mem_nil, or_false] at hc
  rcases hc with rfl | rfl | rfl | rfl
  · exact ⟨by decide, by decide⟩
  · exact ⟨by decide, by decide⟩
  · exact (by decide : Valid m ⟨0, 0, 6, 6⟩)
  · trivial

/-- The outcomes of the goroutines, as far as they have finished. -/
def finished (st : Sys Res) : List (Option (Go Res)) := st.threads.map fun th => match th.code with | .done r => some r | _ => none

/-- Two goroutines that take turns: none has finished after 12 turns each, both have after 100. -/
example : let m : Mem := ⟨1, 0, true, fun a => if a = 0 then [1, 2, 3, 4] else []⟩
    let calls := [Call.mul ⟨0, 0, 2, 4⟩ ⟨0, 1, 2, 3⟩, .sub ⟨0, 0, 4, 4⟩ ⟨0, 0, 4, 4⟩]
    finished ((start m (calls.map Call.code)).run (List.replicate 12 [0, 1]).flatten) = [none, none] ∧
    finished ((start m (calls.map Call.code)).run (List.replicate 100 [0, 1]).flatten) =
      [some (.ok (.ints [12285, 7])), some (.ok (.ints [0, 0, 0, 0]))] := by
  decide +kernel

/-- Freedom from stores into shared arrays is needed: with a goroutine that writes 9 into the array while the product is computed, the result depends
on the order. -/
example : let m : Mem := ⟨1, 0, true, fun a => if a = 0 then [1, 2, 3, 4] else []⟩
    let writer : MM Res := .store 0 0 9 (.done (.ok (.bool true)))
    let st := start m [Call.code (.mul ⟨0, 0, 2, 4⟩ ⟨0, 1, 2, 3⟩), writer]
    finished (st.run (List.replicate 100 0 ++ [1])) = [some (.ok (.ints [12285, 7])), some (.ok (.bool true))] ∧
    finished (st.run (1 :: List.replicate 100 0)) = [some (.ok (.ints [12, 31])), some (.ok (.bool true))] := by
  decide +kernel

end Falcon
