import Verif.Model.Concurrent
import Verif.Lemmas.Slice3
import Mathlib.Logic.Function.Iterate
/-! Interleaved executions of code that does not store into shared arrays. -/

namespace Falcon.Sl

/-- One access, when the code runs alone. -/
def sstep {α : Type} : MM α × Mem → MM α × Mem
  | (.done r, m) => (.done r, m)
  | (.make l k, m) => (k m.next, m.push l)
  | (.load a i k, m) => match (m.arr a)[i]? with
    | some v => (k v, m)
    | none => (.done .panic, m)
  | (.store a i v k, m) => (k, m.setArr a ((m.arr a).set i v))
  | (.look i k, m) => match invAt i with
    | .ok v => (k v, m)
    | _ => (.done .panic, m)

/-- Alone, the code never stores into an array below `base`. -/
def Clean {α : Type} : MM α → Mem → Prop
  | .done _, _ => True
  | .make l k, m => Clean (k m.next) (m.push l)
  | .load a i k, m => ∀ v, (m.arr a)[i]? = some v → Clean (k v) m
  | .store a i v k, m => m.base ≤ a ∧ Clean k (m.setArr a ((m.arr a).set i v))
  | .look i k, m => ∀ v, invAt i = .ok v → Clean (k v) m

theorem clean_of_panic {α : Type} (p : MM α) (m : Mem) (hm : m.fault = true) (h : exec p m ≠ .panic) : Clean p m := by
  induction p generalizing m with
  | done r => trivial
  | make l k ih => exact ih _ _ hm h
  | load a i k ih =>
    intro v hv
    refine ih v m hm fun hp => h ?_
    simp [exec, idx, hv, hp]
  | store a i v k ih =>
    simp only [exec] at h
    split at h
    · simp [hm] at h
    · exact ⟨by omega, ih _ hm h⟩
  | look i k ih =>
    intro v hv
    refine ih v m hm fun hp => h ?_
    simp [exec, hv, hp]

theorem clean_of_diverge {α : Type} (p : MM α) (m : Mem) (hm : m.fault = false) (h : exec p m ≠ .diverge) : Clean p m := by
  induction p generalizing m with
  | done r => trivial
  | make l k ih => exact ih _ _ hm h
  | load a i k ih =>
    intro v hv
    refine ih v m hm fun hp => h ?_
    simp [exec, idx, hv, hp]
  | store a i v k ih =>
    simp only [exec] at h
    split at h
    · simp [hm] at h
    · exact ⟨by omega, ih _ hm h⟩
  | look i k ih =>
    intro v hv
    refine ih v m hm fun hp => h ?_
    simp [exec, hv, hp]

theorem Clean.fault {α : Type} {p : MM α} {m : Mem} (h : Clean p m) (b : Bool) : Clean p { m with fault := b } := by
  induction p generalizing m with
  | done r => trivial
  | make l k ih => exact ih _ h
  | load a i k ih => exact fun v hv => ih v (h v hv)
  | store a i v k ih => exact ⟨h.1, ih h.2⟩
  | look i k ih => exact fun v hv => ih v (h v hv)

/-- Code whose outcome is that of the list model, whatever the outcome of a fault, is clean. -/
theorem clean_of_ref {α β : Type} {p : MM α} {m : Mem} {y : Go β} {R : Bool → α → Mem → β → Prop}
    (h : ∀ b, Ref { m with fault := b } (exec p { m with fault := b }) y (R b)) : Clean p m := by
  by_cases hy : y = .panic
  · have : exec p { m with fault := false } = .panic := (h false).iff.2.1.1 hy
    exact (clean_of_diverge p { m with fault := false } rfl (by rw [this]; simp)).fault m.fault
  · have : exec p { m with fault := true } ≠ .panic := fun e => hy ((h true).iff.2.1.2 e)
    exact (clean_of_panic p { m with fault := true } rfl this).fault m.fault

theorem Clean.sstep {α : Type} {p : MM α} {m : Mem} (h : Clean p m) : Clean (sstep (p, m)).1 (sstep (p, m)).2 := by
  cases p with
  | done r => trivial
  | make l k => exact h
  | load a i k =>
    simp only [Sl.sstep]
    split
    · exact h _ ‹_›
    · trivial
  | store a i v k => exact h.2
  | look i k =>
    simp only [Sl.sstep]
    split
    · exact h _ ‹_›
    · trivial

theorem invAt_ne (i : Int) : invAt i ≠ .diverge := by
  unfold invAt idx
  split
  · simp
  · split <;> simp

theorem exec_sstep {α : Type} {p : MM α} {m : Mem} (h : Clean p m) : exec (sstep (p, m)).1 (sstep (p, m)).2 = exec p m := by
  cases p with
  | done r => rfl
  | make l k => rfl
  | load a i k =>
    simp only [sstep, exec, idx]
    split <;> simp_all [exec]
  | store a i v k =>
    simp only [sstep, exec]
    rw [if_neg (by have := h.1; omega)]
  | look i k =>
    have := invAt_ne i
    simp only [sstep, exec]
    rcases e : invAt i with v | _ | _ <;> simp_all [exec]

theorem iter_clean {α : Type} {p : MM α} {m : Mem} (h : Clean p m) (n : Nat) :
    Clean (sstep^[n] (p, m)).1 (sstep^[n] (p, m)).2 ∧ exec (sstep^[n] (p, m)).1 (sstep^[n] (p, m)).2 = exec p m := by
  induction n with
  | zero => exact ⟨h, rfl⟩
  | succ n ih =>
    rw [Function.iterate_succ_apply']
    exact ⟨ih.1.sstep, (exec_sstep ih.1).trans ih.2⟩

theorem iter_done {α : Type} (r : Go α) (m : Mem) (n : Nat) : sstep^[n] (.done r, m) = (.done r, m) := by
  induction n with
  | zero => rfl
  | succ n ih => rw [Function.iterate_succ_apply', ih]; rfl

/-- Alone, the code is finished after finitely many accesses. -/
theorem finishes {α : Type} (p : MM α) (m : Mem) : ∃ N, ∀ n, N ≤ n → ∃ r, (sstep^[n] (p, m)).1 = .done r := by
  have next : ∀ p m, (∃ N, ∀ n, N ≤ n → ∃ r, (sstep^[n] (sstep (p, m))).1 = .done (α := α) r) →
      ∃ N, ∀ n, N ≤ n → ∃ r, (sstep^[n] (p, m)).1 = .done (α := α) r := by
    rintro p m ⟨N, h⟩
    refine ⟨N + 1, fun n hn => ?_⟩
    obtain ⟨n, rfl⟩ : ∃ k, n = k + 1 := ⟨n - 1, by omega⟩
    rw [Function.iterate_succ_apply]
    exact h n (by omega)
  induction p generalizing m with
  | done r => exact ⟨0, fun n _ => ⟨r, by rw [iter_done]⟩⟩
  | make l k ih => exact next _ _ (ih _ _)
  | load a i k ih =>
    refine next _ _ ?_
    simp only [sstep]
    split
    · exact ih _ _
    · exact ⟨0, fun n _ => ⟨.panic, by rw [iter_done]⟩⟩
  | store a i v k ih => exact next _ _ (ih _)
  | look i k ih =>
    refine next _ _ ?_
    simp only [sstep]
    split
    · exact ih _ _
    · exact ⟨0, fun n _ => ⟨.panic, by rw [iter_done]⟩⟩

/-- What a goroutine sees. -/
def Sys.view {α : Type} (st : Sys α) (th : Thread α) : Mem := ⟨st.base, th.made, true, st.sees th⟩

/-- The state after the accesses `order`, when every goroutine is clean: the shared arrays are unchanged, and each goroutine is where it would be alone. -/
structure Inv {α : Type} (m : Mem) (code : List (MM α)) (order : List Nat) (st : Sys α) : Prop where
  base : st.base = m.base
  shared : st.shared = m.arr
  count : st.threads.length = code.length
  alone : ∀ t th c, st.threads[t]? = some th → code[t]? = some c →
    (th.code, st.view th) = sstep^[order.count t] (c, { m with fault := true })

/-- All arrays of `m` as arrays that existed before. -/
def Mem.settle (m : Mem) : Mem := ⟨m.next, 0, true, m.arr⟩

theorem Inv.start {α : Type} (m : Mem) (code : List (MM α)) : Inv m.settle code [] (Sl.start m code) where
  base := rfl
  shared := rfl
  count := by simp [Sl.start]
  alone t th c h hc := by
    simp only [Sl.start, List.getElem?_map, hc, Option.map_some, Option.some.injEq] at h
    subst h
    simp only [List.count_nil, Function.iterate_zero, id_eq, Prod.mk.injEq, true_and, Sys.view, Sl.start, Mem.settle, Mem.mk.injEq]
    funext a
    simp [Sys.sees]

theorem set_cases {β : Type} {l : List β} {t u : Nat} {x y : β} (h : (l.set t x)[u]? = some y) :
    (u = t ∧ y = x) ∨ (u ≠ t ∧ l[u]? = some y) := by
  rw [List.getElem?_set] at h
  split at h
  · split at h
    · exact .inl ⟨by omega, by simpa using h.symm⟩
    · simp at h
  · exact .inr ⟨by omega, h⟩

theorem sstep_fault {α : Type} (x : MM α × Mem) : (sstep x).2.base = x.2.base ∧ (sstep x).2.fault = x.2.fault := by
  obtain ⟨p, m⟩ := x
  cases p <;> simp only [sstep]
  · exact ⟨trivial, trivial⟩
  · exact ⟨rfl, rfl⟩
  · split <;> exact ⟨rfl, rfl⟩
  · exact ⟨rfl, rfl⟩
  · split <;> exact ⟨rfl, rfl⟩

/-- One access of goroutine `t`. -/
theorem Inv.step {α : Type} {m : Mem} {code : List (MM α)} {order : List Nat} {st : Sys α} (h : Inv m code order st)
    (hc : ∀ c ∈ code, Clean c m) (t : Nat) : Inv m code (order ++ [t]) (st.step t) := by
  -- it is enough to say what happens to goroutine `t`
  have key : ∀ th', st.threads[t]? ≠ none → (∀ th, st.threads[t]? = some th → (th'.code, st.view th') = sstep (th.code, st.view th)) →
      Inv m code (order ++ [t]) { st with threads := st.threads.set t th' } := by
    intro th' hn ht
    refine ⟨h.base, h.shared, by simp [h.count], fun u x c hx hcu => ?_⟩
    have hv : ∀ y : Thread α, Sys.view { st with threads := st.threads.set t th' } y = st.view y := fun y => rfl
    rw [hv, List.count_append, List.count_singleton]
    rcases set_cases hx with ⟨rfl, rfl⟩ | ⟨hu, hx⟩
    · obtain ⟨th, hth⟩ := Option.ne_none_iff_exists'.1 hn
      rw [ht th hth, h.alone u th c hth hcu, beq_self_eq_true, if_pos rfl, Function.iterate_succ_apply']
    · rw [if_neg (by simpa using fun e => hu e.symm), Nat.add_zero]
      exact h.alone u x c hx hcu
  have stay : (∀ th, st.threads[t]? = some th → ∃ r, th.code = .done r) → Inv m code (order ++ [t]) st := by
    intro hd
    refine ⟨h.base, h.shared, h.count, fun u x c hx hcu => ?_⟩
    rw [List.count_append, List.count_singleton]
    by_cases hu : t = u
    · subst hu
      obtain ⟨r, hr⟩ := hd x hx
      rw [beq_self_eq_true, if_pos rfl, Function.iterate_succ_apply', ← h.alone t x c hx hcu, hr]
      rfl
    · rw [if_neg (by simpa using hu), Nat.add_zero]
      exact h.alone u x c hx hcu
  unfold Sys.step
  cases e : st.threads[t]? with
  | none => exact stay fun th hth => by rw [e] at hth; cases hth
  | some th =>
    have hlt : t < code.length := by
      rw [← h.count]
      exact (List.getElem?_eq_some_iff.1 e).1
    have hct : code[t]? = some code[t] := List.getElem?_eq_getElem hlt
    have hcl := ((hc _ (List.getElem_mem hlt)).fault true)
    have al := h.alone t th _ e hct
    have hcl := (iter_clean hcl (order.count t)).1
    rw [← al] at hcl
    simp only at hcl ⊢
    have one : ∀ {th' th'' : Thread α}, st.threads[t]? = some th'' → th'' = th := fun h' => by rw [e] at h'; exact (Option.some.inj h').symm
    cases hcode : th.code with
    | done r => exact stay fun th' h' => ⟨r, by rw [one (th' := th) h']; exact hcode⟩
    | make l k =>
      refine key _ (by simp [e]) fun th' h' => ?_
      obtain rfl := one (th' := th) h'
      rw [hcode]
      simp only [sstep, Prod.mk.injEq, Sys.view, Mem.push, Mem.next, Mem.mk.injEq, true_and]
      funext a
      unfold Sys.sees updArr
      by_cases ha : a < st.base
      · simp only [ha, if_true]
        rw [if_neg (by omega)]
      · simp only [ha, if_false]
    | load a i k =>
      simp only
      have hs : (st.view th).arr a = st.sees th a := rfl
      cases hv : (st.sees th a)[i]? with
      | none =>
        refine key _ (by simp [e]) fun th' h' => ?_
        obtain rfl := one (th' := th) h'
        rw [hcode]
        simp only [sstep, hs, hv]
        rfl
      | some v =>
        refine key _ (by simp [e]) fun th' h' => ?_
        obtain rfl := one (th' := th) h'
        rw [hcode]
        simp only [sstep, hs, hv]
        rfl
    | store a i v k =>
      rw [hcode] at hcl
      have hb : ¬ a < st.base := by
        have := hcl.1
        exact Nat.not_lt.2 this
      simp only
      rw [if_neg hb]
      refine key _ (by simp [e]) fun th' h' => ?_
      obtain rfl := one (th' := th) h'
      rw [hcode]
      simp only [sstep, Prod.mk.injEq, Sys.view, Mem.setArr, Mem.mk.injEq, true_and]
      funext b
      unfold Sys.sees updArr
      by_cases hbb : b < st.base
      · simp only [hbb, if_true]
        rw [if_neg (by omega)]
      · simp only [hbb, if_false, hb]
    | look i k =>
      simp only
      cases hv : invAt i with
      | ok v =>
        refine key _ (by simp [e]) fun th' h' => ?_
        obtain rfl := one (th' := th) h'
        rw [hcode]
        simp only [sstep, hv]
        rfl
      | panic =>
        refine key _ (by simp [e]) fun th' h' => ?_
        obtain rfl := one (th' := th) h'
        rw [hcode]
        simp only [sstep, hv]
        rfl
      | diverge => exact (invAt_ne i hv).elim

theorem Inv.run {α : Type} (m : Mem) (code : List (MM α)) (hc : ∀ c ∈ code, Clean c m.settle) (order : List Nat) :
    Inv m.settle code order ((Sl.start m code).run order) := by
  induction order using List.reverseRecOn with
  | nil => exact Inv.start m code
  | append_singleton l t ih =>
    unfold Sys.run at *
    rw [List.foldl_append]
    exact ih.step hc t

end Falcon.Sl
