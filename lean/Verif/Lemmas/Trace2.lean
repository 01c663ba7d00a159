import Verif.Lemmas.Trace
import Verif.Lemmas.Ntt2
/-! The accesses of `DivZq`: what they depend on, and what they reveal. -/

namespace Falcon.Sl
open Falcon.Spec

theorem Valid.shape {m m' : Mem} {s : Slice} (h : Valid m s) (hm : Shape m m') : Valid m' s :=
  ⟨h.1, h.2.imp id fun h => ⟨hm.next ▸ h.1, hm.len _ ▸ h.2⟩⟩

/-- A load of an element that is the same in both memories. -/
theorem SameAt.load {m m' : Mem} {s : Slice} (hr : read m s = read m' s) (i : Nat) :
    SameAt (fun a m1 b m1' => a = b ∧ m1 = m ∧ m1' = m') (load s i) m (load s i) m' := by
  unfold Sl.load
  split
  · rename_i hi
    have e : (m.arr s.id)[s.off + i]? = (m'.arr s.id)[s.off + i]? := by
      have := congrArg (fun l => l[i]?) hr
      simpa only [Sl.read, List.getElem?_take_of_lt hi, List.getElem?_drop] using this
    refine ⟨rfl, rfl, by rw [e], fun v v' hv hv' => ?_⟩
    rw [e, hv'] at hv
    cases hv
    exact ⟨rfl, rfl, rfl⟩
  · trivial

theorem SameAt.loadAny {m m' : Mem} (hm : Shape m m') (s : Slice) (i : Nat) :
    SameAt (fun _ m1 _ m1' => m1 = m ∧ m1' = m') (Sl.load s i) m (Sl.load s i) m' := by
  unfold Sl.load
  split
  · refine ⟨rfl, rfl, ?_, fun v v' _ _ => ⟨rfl, rfl⟩⟩
    rw [List.getElem?_eq_none_iff, List.getElem?_eq_none_iff, hm.len]
  · trivial

theorem SameAt.hasZero {m m' : Mem} {g : Slice} (hr : read m g = read m' g) (j i : Nat) :
    SameAt (fun a m1 b m1' => a = b ∧ m1 = m ∧ m1' = m') (hasZero g j i) m (hasZero g j i) m' := by
  induction j generalizing i with
  | zero => exact ⟨rfl, rfl, rfl⟩
  | succ j ih =>
    refine (SameAt.load hr i).bind ?_
    rintro a _ _ _ ⟨rfl, rfl, rfl⟩
    split
    · exact ⟨rfl, rfl, rfl⟩
    · exact ih _

theorem SameAt.divLoop {res f g : Slice} (ho : Off res.id g) (j i : Nat) {m m' : Mem} (hm : Shape m m') (hr : read m g = read m' g) :
    SameAt (fun _ m1 _ m1' => Shape m1 m1') (forLoop (divBody wrap64 res f g) j i) m (forLoop (divBody wrap64 res f g) j i) m' := by
  induction j generalizing i m m' with
  | zero => exact hm
  | succ j ih =>
    refine SameAt.bind (R := fun _ m1 _ m1' => Shape m1 m1' ∧ read m1 g = read m1' g) ?_ fun _ _ _ _ h => ih _ h.1 h.2
    refine (SameAt.loadAny hm f i).bind ?_
    rintro x m1 x' m1' ⟨e, e'⟩
    subst e e'
    refine (SameAt.load hr i).bind ?_
    rintro y m1 y' m1' ⟨ey, e, e'⟩
    subst ey e e'
    refine SameAt.bind (R := fun a m2 b m2' => a = b ∧ m2 = m1 ∧ m2' = m1') ⟨rfl, fun v _ => ⟨rfl, rfl, rfl⟩⟩ ?_
    rintro v m2 _ m2' ⟨ey, e, e'⟩
    subst ey e e'
    refine SameAt.bind (R := fun _ m3 _ m3' => m3 = m2 ∧ m3' = m2') ⟨rfl, rfl⟩ ?_
    rintro z m3 z' m3' ⟨e, e'⟩
    subst e e'
    unfold Sl.store
    split
    · refine ⟨rfl, rfl, hm.set _ _ _ _, ?_⟩
      rw [ho.read, ho.read, hr]
    · trivial

theorem SameAt.divNTT {m m' : Mem} {f g : Slice} (hm : Shape m m') (hg : Valid m g) (hr : read m g = read m' g) :
    SameAt (fun a m1 b m1' => a = b ∧ Shape m1 m1') (divNTT wrap64 f g) m (divNTT wrap64 f g) m' := by
  unfold Sl.divNTT
  split
  · trivial
  · refine SameAt.bind (R := fun s m1 s' m1' => s = ⟨m.next, 0, f.len, f.len⟩ ∧ s' = s ∧ m1 = m.push (List.replicate f.len 0) ∧
      m1' = m'.push (List.replicate f.len 0)) ⟨rfl, rfl, ?_, rfl, rfl⟩ ?_
    · rw [hm.next]
    rintro s m1 s' m1' ⟨es, es', e, e'⟩
    subst es es' e e'
    have hm1 := hm.push (l := List.replicate f.len 0) rfl
    have hr1 : read (m.push (List.replicate f.len 0)) g = read (m'.push (List.replicate f.len 0)) g := by
      rw [hg.read (ext_push _ _), (hg.shape hm).read (ext_push _ _), hr]
    refine (SameAt.hasZero hr1 _ _).bind ?_
    rintro b m1 b' m1' ⟨eb, e, e'⟩
    subst eb e e'
    split
    · exact ⟨rfl, hm1⟩
    · exact (SameAt.divLoop (hg.off (Nat.le_refl _)) _ _ hm1 hr1).bind fun _ _ _ _ h => ⟨rfl, h⟩

/-- The two transforms of `DivZq`. -/
theorem ntt_runs {m : Mem} {f : Slice} (hf : Valid m f) {k : Nat} (h1 : 1 ≤ k) (h : k ≤ 10) (hl : f.len = 2 ^ k) :
    ∃ s m1 r, exec (NTT wrap64 (f.len + 1) f) m = .ok (s, m1) ∧ Ext m m1 ∧ Valid m1 s ∧ s.len = 2 ^ k ∧ read m1 s = r ∧
      Falcon.NTT wrap64 (read m f) = .ok r ∧ r.length = 2 ^ k ∧ Reduced r := by
  obtain ⟨r, er, lr, rr, -⟩ := NTT_spec wrap64_good k h1 h (read m f) (by rw [hf.read_length, hl])
  obtain ⟨s, m1, e, x, n, rd⟩ := (ntt_gives wrap64 _ m f hf (Nat.lt_succ_self _)).iff.1 r er
  exact ⟨s, m1, r, e, x, n.valid, by rw [← n.valid.read_length, rd, lr], rd, er, lr, rr⟩

/-- The accesses of `DivZq(f, g)` depend on the elements of `g` only. -/
theorem SameAt.divZq {m m' : Mem} {f g : Slice} (hm : Shape m m') (hf : Valid m f) (hg : Valid m g) (hr : read m g = read m' g)
    {k : Nat} (h1 : 1 ≤ k) (h : k ≤ 10) (lf : f.len = 2 ^ k) (lg : g.len = 2 ^ k) :
    SameAt (fun a m1 b m1' => a = b ∧ Shape m1 m1') (DivZq wrap64 f g) m (DivZq wrap64 f g) m' := by
  obtain ⟨s, m1, r, e1, x1, v1, l1, -, -, -, -⟩ := ntt_runs hf h1 h lf
  obtain ⟨s', m1', r', e1', x1', v1', l1', -, -, -, -⟩ := ntt_runs (hf.shape hm) h1 h lf
  obtain ⟨⟨rfl, hm1⟩, p1⟩ := (same_ntt _ f m m' hm).post e1 e1'
  refine p1.bind ?_
  rintro _ _ _ _ ⟨rfl, rfl, rfl, rfl⟩
  rename_i n1 s n1'
  obtain ⟨t, m2, u, e2, x2, v2, l2, rd2, en, -, -⟩ := ntt_runs (hg.ext x1) h1 h lg
  obtain ⟨t', m2', u', e2', x2', v2', l2', rd2', en', -, -⟩ := ntt_runs ((hg.shape hm).ext x1') h1 h lg
  obtain ⟨⟨rfl, hm2⟩, p2⟩ := (same_ntt _ g _ _ hm1).post e2 e2'
  rw [hg.read x1, hr, ← (hg.shape hm).read x1', en'] at en
  cases en
  refine p2.bind ?_
  rintro _ _ _ _ ⟨rfl, rfl, rfl, rfl⟩
  refine (SameAt.divNTT hm2 v2 (by rw [rd2, rd2'])).bind ?_
  rintro a n3 _ n3' ⟨rfl, hm3⟩
  cases a with
  | error e => exact ⟨rfl, hm3⟩
  | ok d =>
    refine (same_intt _ d _ _ hm3).bind ?_
    rintro a n4 _ n4' ⟨rfl, hm4⟩
    exact ⟨rfl, hm4⟩

/-! ### What the accesses reveal -/

/-- The indices of the lookups in `inv_mod_q`. -/
def looks (t : List Access) : List Int := t.filterMap fun
  | .look i => some i
  | _ => none

theorem looks_append (s t : List Access) : looks (s ++ t) = looks s ++ looks t := List.filterMap_append ..

theorem trace_bind {α β : Type} {p : MM α} {f : α → MM β} {m : Mem} {a : α} {m1 : Mem} (e : exec p m = .ok (a, m1)) :
    trace (p >>= f) m = trace p m ++ trace (f a) m1 := by
  show trace (p.bind f) m = _
  induction p generalizing m with
  | done r =>
    cases r with
    | ok b =>
      simp only [exec, Go.ok_bind, Go.ok.injEq, Prod.mk.injEq] at e
      obtain ⟨rfl, rfl⟩ := e
      rfl
    | panic => cases e
    | diverge => cases e
  | make l k ih => simp only [MM.bind, trace, ih _ e, List.cons_append]
  | load a i k ih =>
    simp only [exec, idx] at e
    simp only [MM.bind, trace]
    cases hv : (m.arr a)[i]? with
    | none => rw [hv] at e; cases e
    | some v =>
      rw [hv] at e
      simp only [ih _ e, List.cons_append]
  | store a i v k ih =>
    simp only [exec] at e
    split at e
    · split at e <;> cases e
    · simp only [MM.bind, trace, ih e, List.cons_append]
  | look i k ih =>
    simp only [exec] at e
    simp only [MM.bind, trace]
    cases hv : invAt i with
    | panic => rw [hv] at e; cases e
    | diverge => rw [hv] at e; cases e
    | ok v =>
      rw [hv] at e
      simp only [ih _ e, List.cons_append]

theorem trace_pure {α β : Type} (p : MM α) (b : β) (m : Mem) : trace (p >>= fun _ => pure b) m = trace p m := by
  show trace (p.bind _) m = _
  induction p generalizing m with
  | done r => cases r <;> rfl
  | make l k ih => simp only [MM.bind, trace, ih]
  | load a i k ih => simp only [MM.bind, trace, ih]
  | store a i v k ih => simp only [MM.bind, trace, ih]
  | look i k ih => simp only [MM.bind, trace, ih]

theorem trace_load {β : Type} {s : Slice} {i : Nat} {m : Mem} (h : i < (read m s).length) (k : Int16 → MM β) :
    trace (load s i >>= k) m = .load s.id (s.off + i) :: trace (k (read m s)[i]) m := by
  have hi : i < s.len := by
    have : (read m s).length ≤ s.len := by simp only [read, List.length_take]; omega
    omega
  have hv : (m.arr s.id)[s.off + i]? = some (read m s)[i] := by
    rw [← List.getElem?_eq_getElem h]
    simp only [read, List.getElem?_take_of_lt hi, List.getElem?_drop]
  unfold load
  rw [if_pos hi]
  show trace (MM.load _ _ _) m = _
  simp only [trace, hv]
  rfl

theorem trace_hasZero (g : Slice) (m : Mem) (j i : Nat) : looks (trace (hasZero g j i) m) = [] := by
  induction j generalizing i with
  | zero => rfl
  | succ j ih =>
    by_cases h : i < (read m g).length
    · rw [hasZero, trace_load h]
      split
      · rfl
      · simpa [looks] using ih (i + 1)
    · rw [hasZero]
      unfold load
      split
      · rename_i hi
        have hn : (m.arr g.id)[g.off + i]? = none := by
          have := List.getElem?_eq_none (l := read m g) (i := i) (by omega)
          simpa only [read, List.getElem?_take_of_lt hi, List.getElem?_drop] using this
        show looks (trace (MM.load _ _ _) m) = _
        simp only [trace, hn]
        rfl
      · rfl

theorem invAt_ok {y : Int} (h0 : 0 ≤ y) (h1 : y < 12289) : ∃ v, invAt y = .ok v := by
  obtain ⟨n, rfl⟩ := Int.eq_ofNat_of_zero_le h0
  have hl : inv_mod_q.length = 12289 := by decide +kernel
  have hn : n < inv_mod_q.length := by omega
  exact ⟨inv_mod_q[n], by rw [invAt_nat, idx_lt hn]⟩

/-- The loop of `divNTT` looks up the elements of the divisor. -/
theorem looks_divLoop {res f g : Slice} (of : Off res.id f) (og : Off res.id g) (j i : Nat) (m : Mem) (hf : (read m f).length = i + j)
    (hg : (read m g).length = i + j) (hr : Reduced (read m g)) (hl : res.len = i + j) :
    looks (trace (forLoop (divBody wrap64 res f g) j i) m) = ((read m g).drop i).map Int16.toInt := by
  induction j generalizing i m with
  | zero =>
    rw [List.drop_of_length_le (by omega)]
    rfl
  | succ j ih =>
    have hi : i < (read m g).length := by omega
    obtain ⟨v, hv⟩ := invAt_ok (hr _ (List.getElem_mem hi)).1 (hr _ (List.getElem_mem hi)).2
    rw [forLoop, divBody, bind_assoc, trace_load (by omega), bind_assoc, trace_load hi]
    show looks (_ :: _ :: trace (MM.look _ _) m) = _
    simp only [trace, hv]
    show looks (_ :: _ :: _ :: trace (store res i _ >>= _) m) = _
    unfold store
    rw [if_pos (by omega)]
    show looks (_ :: _ :: _ :: trace (MM.store _ _ _ (forLoop _ _ _)) m) = _
    simp only [trace]
    rw [List.drop_eq_getElem_cons hi]
    have := ih (i + 1) (m.setArr res.id ((m.arr res.id).set (res.off + i) (reduceQ (i64 ((read m f)[i].toInt * (v : Int))))))
      (by rw [of.read]; omega) (by rw [og.read]; omega) (by rw [og.read]; exact hr) (by omega)
    rw [og.read] at this
    simp only [looks, List.filterMap_cons, List.map_cons] at this ⊢
    rw [← this]

theorem looks_divNTT {m : Mem} {f g : Slice} (hf : Valid m f) (hg : Valid m g) (hl : f.len = g.len) (hr : Reduced (read m g))
    (hz : ∀ y ∈ read m g, y ≠ 0) : looks (trace (divNTT wrap64 f g) m) = (read m g).map Int16.toInt := by
  have e : (read (m.push (List.replicate f.len 0)) g) = read m g := hg.read (ext_push _ _)
  have e' : (read (m.push (List.replicate f.len 0)) f) = read m f := hf.read (ext_push _ _)
  unfold divNTT
  rw [if_neg (by omega)]
  show looks (_ :: trace (hasZero g g.len 0 >>= _) (m.push (List.replicate f.len 0))) = _
  have hz' : exec (hasZero g g.len 0) (m.push (List.replicate f.len 0)) = .ok (false, m.push (List.replicate f.len 0)) := by
    rw [hasZero_eq g _ g.len 0 (by rw [e, hg.read_length]; omega), e, List.drop_zero]
    have : (read m g).any (· == 0) = false := by
      rw [List.any_eq_false]
      intro y hy
      simpa using hz y hy
    rw [this]
  rw [trace_bind hz']
  simp only [Bool.false_eq_true, if_false, trace_pure]
  have := looks_divLoop (res := ⟨m.next, 0, f.len, f.len⟩) (f := f) (g := g) (hf.off (Nat.le_refl _)) (hg.off (Nat.le_refl _)) f.len 0
    (m.push (List.replicate f.len 0)) (by rw [e', hf.read_length]; omega) (by rw [e, hg.read_length]; omega) (by rw [e]; exact hr) (by simp)
  rw [e, List.drop_zero] at this
  rw [← this, show ∀ (a : Nat) (l : List Access), looks (.make a :: l) = looks l from fun _ _ => rfl, looks_append, trace_hasZero]
  rfl

end Falcon.Sl
