import Verif.Lemmas.Heap3
import Verif.Spec.Ieee
/-!
# C78: the NTRU solver on pointers

`Model/Heap.lean` models `*big.Int` as addresses. The theorems say what the functions overwrite and that the numbers they return are those of
the model on numbers, to which C34-C43, C57, C67, C70 refer.
-/

namespace Falcon
open Ptr

/-- `NtruSolve` overwrites no number that existed before the call, whatever numbers `f` and `g` share; the slices it returns consist of new
numbers, all different; the values, errors, panics and non-termination are those of the model on numbers. -/
theorem C78_solve (O : FloatOps) (fuel : Nat) (f g : List Nat) (h : Heap) (hf : Below h f) (hg : Below h g) :
    (∀ v, NtruSolve O fuel (vals h f) (vals h g) = .ok v → ∃ r h', Ptr.NtruSolve O fuel f g h = .ok (r, h') ∧
      (∀ p < h.next, h'.mem p = h.mem p) ∧ r.map (fun s => (vals h' s.1, vals h' s.2)) = v ∧
      ∀ s, r = some s → (s.1 ++ s.2).Nodup ∧ ∀ p ∈ s.1 ++ s.2, h.next ≤ p) ∧
    (NtruSolve O fuel (vals h f) (vals h g) = .panic ↔ Ptr.NtruSolve O fuel f g h = .panic) ∧
    (NtruSolve O fuel (vals h f) (vals h g) = .diverge ↔ Ptr.NtruSolve O fuel f g h = .diverge) := by
  obtain ⟨h1, h2, h3⟩ := (Ref.ntruSolve O fuel f g h hf hg).iff
  refine ⟨fun v hv => ?_, h2, h3⟩
  obtain ⟨r, h', e, x, hr⟩ := h1 v hv
  refine ⟨r, h', e, fun p hp => x.2 p hp id, ?_⟩
  match r, v, hr with
  | none, none, _ => exact ⟨rfl, by simp⟩
  | some s, some w, ⟨e, fr⟩ =>
    subst e
    refine ⟨rfl, fun t ht => ?_⟩
    obtain rfl := Option.some.inj ht
    exact ⟨fr.1, fun p hp => (fr.2 p hp).1⟩

/-- `reduce` returns the slices `F`, `G` it was given and overwrites their numbers and no others, provided that these are all different and none
of them belongs to `f` or `g`. -/
theorem C78_reduce (O : FloatOps) (fuel : Nat) (f g F G : List Nat) (h : Heap) (hf : Below h f) (hg : Below h g)
    (hFG : Below h (F ++ G)) (nd : (F ++ G).Nodup) (d : ∀ p ∈ F ++ G, p ∉ f ∧ p ∉ g) :
    (∀ v, reduce O fuel (vals h f) (vals h g) (vals h F) (vals h G) = .ok v → ∃ h', Ptr.reduce O fuel f g F G h = .ok ((F, G), h') ∧
      v = (vals h' F, vals h' G) ∧ ∀ p < h.next, p ∉ F → p ∉ G → h'.mem p = h.mem p) ∧
    (reduce O fuel (vals h f) (vals h g) (vals h F) (vals h G) = .panic ↔ Ptr.reduce O fuel f g F G h = .panic) ∧
    (reduce O fuel (vals h f) (vals h g) (vals h F) (vals h G) = .diverge ↔ Ptr.reduce O fuel f g F G h = .diverge) := by
  obtain ⟨h1, h2, h3⟩ := (Ref.reduce O fuel f g F G h hf hg hFG nd d).iff
  refine ⟨fun v hv => ?_, h2, h3⟩
  obtain ⟨r, h', e, rfl, e', x⟩ := h1 v hv
  exact ⟨h', e, e', fun p hp n1 n2 => x.2 p hp fun hm => (List.mem_append.1 hm).elim n1 n2⟩

/-- `karamul`, `fieldNorm` and `galoisConjugate` return new numbers, all different, and overwrite nothing, even when their arguments share
numbers. -/
theorem C78_products (a b : List Nat) (h : Heap) (ha : Below h a) (hb : Below h b) :
    (∀ v, karamul (vals h a) (vals h b) = .ok v → ∃ r h', Ptr.karamul a b h = .ok (r, h') ∧ vals h' r = v ∧
      r.Nodup ∧ (∀ p ∈ r, h.next ≤ p) ∧ ∀ p < h.next, h'.mem p = h.mem p) ∧
    (∀ v, fieldNorm (vals h a) = .ok v → ∃ r h', Ptr.fieldNorm a h = .ok (r, h') ∧ vals h' r = v ∧
      r.Nodup ∧ (∀ p ∈ r, h.next ≤ p) ∧ ∀ p < h.next, h'.mem p = h.mem p) ∧
    ∃ r h', Ptr.galoisConjugate a h = .ok (r, h') ∧ vals h' r = galoisConjugate (vals h a) ∧
      r.Nodup ∧ (∀ p ∈ r, h.next ≤ p) ∧ ∀ p < h.next, h'.mem p = h.mem p := by
  refine ⟨fun v hv => ?_, fun v hv => ?_, ?_⟩
  · obtain ⟨r, h', e, ⟨e', x, f⟩, -⟩ := (Ref.karamul a b h ha hb).iff.1 v hv
    exact ⟨r, h', e, e'.symm, f.1, fun p hp => (f.2 p hp).1, fun p hp => x.2 p hp id⟩
  · obtain ⟨r, h', e, ⟨e', x, f⟩, -⟩ := (Ref.fieldNorm a h ha).iff.1 v hv
    exact ⟨r, h', e, e'.symm, f.1, fun p hp => (f.2 p hp).1, fun p hp => x.2 p hp id⟩
  · obtain ⟨r, h', e, ⟨e', x, f⟩, -⟩ := (Ref.galoisConjugate a h ha).iff.1 _ rfl
    exact ⟨r, h', e, e'.symm, f.1, fun p hp => (f.2 p hp).1, fun p hp => x.2 p hp id⟩

/-- `lift` returns a slice that shares its even elements with its argument; the odd ones are new zeros. -/
theorem C78_lift (a : List Nat) (h : Heap) (ha : Below h a) :
    ∃ r h', Ptr.lift a h = .ok (r, h') ∧ vals h' r = lift (vals h a) ∧ (∀ i, i < a.length → r[2 * i]? = a[i]?) ∧
      (∀ i, i < a.length → ∃ p, r[2 * i + 1]? = some p ∧ h.next ≤ p) ∧ ∀ p < h.next, h'.mem p = h.mem p := by
  obtain ⟨r, h', e, e', x, -⟩ := (Ref.lift a h ha).iff.1 _ rfl
  refine ⟨r, h', e, e'.symm, ?_⟩
  obtain ⟨al, h1, e1, l1, v1, x1, f1, n1⟩ := fill_ok (2 * a.length) h
  obtain ⟨r', e2, l, hr⟩ := liftLoop_ok a a.length 0 al (by omega) (by omega)
  have e3 : Ptr.lift a h = .ok (r', h1) := by
    change fill _ h >>= _ = _
    rw [e1]
    simp [run, e2]
  rw [e3] at e
  obtain ⟨rfl, rfl⟩ := Prod.mk.inj (Go.ok.inj e)
  refine ⟨fun i hi => ?_, fun i hi => ?_, fun p hp => x.2 p hp id⟩
  · rw [hr, if_pos ⟨by omega, by omega⟩]
    congr 1
    omega
  · rw [hr, if_neg (by omega), List.getElem?_eq_getElem (by omega)]
    exact ⟨_, rfl, (f1.2 _ (List.getElem_mem _)).1⟩

/-- A heap with given numbers. -/
def heapOf (l : List Int) : Heap := ⟨l.length, fun p => l.getD p 0⟩

/-- The first hypothesis of `C78_reduce` is needed: if `F` and `G` share one number, `reduce` computes something else than on numbers.
`f = [10,0]`, `g = [1,0]`, `F = G = [30,0]`, where `F[0]` and `G[0]` are the same number. -/
theorem C78_alias :
    (Ptr.reduce ieeeOps 5 [0, 1] [2, 3] [4, 5] [4, 6] (heapOf [10, 0, 1, 0, 30, 0, 0]) >>= fun r =>
      Go.ok (vals r.2 r.1.1, vals r.2 r.1.2)) = .ok ([-3, 0], [-3, 0]) ∧
    reduce ieeeOps 5 [10, 0] [1, 0] [30, 0] [30, 0] = .ok ([0, 0], [27, 0]) := by decide +kernel

/-- The hypotheses of `C78_reduce` are met by numbers that are not shared. -/
example : let h := heapOf [10, 0, 1, 0, 30, 0, 30, 0]
    Below h [0, 1] ∧ Below h [2, 3] ∧ Below h ([4, 5] ++ [6, 7]) ∧ ([4, 5] ++ [6, 7] : List Nat).Nodup ∧
      ∀ p ∈ ([4, 5] ++ [6, 7] : List Nat), p ∉ ([0, 1] : List Nat) ∧ p ∉ ([2, 3] : List Nat) := by
  refine ⟨?_, ?_, ?_, by decide, by decide⟩ <;> (intro p hp; simp [heapOf] at *; omega)

/-- `NtruSolve` where `f = [3, 1]` and `g = [1, 4]` share a number: the three numbers are unchanged and the result is that of the model on
numbers. -/
example : ∃ F G h', Ptr.NtruSolve ieeeOps 8 [0, 1] [1, 2] (heapOf [3, 1, 4]) = .ok (some (F, G), h') ∧
    vals h' F = [-455, 1822] ∧ vals h' G = [1364, -454] ∧ vals h' [0, 1, 2] = [3, 1, 4] := by
  have e : NtruSolve ieeeOps 8 (vals (heapOf [3, 1, 4]) [0, 1]) (vals (heapOf [3, 1, 4]) [1, 2]) =
      .ok (some ([-455, 1822], [1364, -454])) := by decide +kernel
  obtain ⟨r, h', e1, e2, e3, -⟩ := (C78_solve ieeeOps 8 [0, 1] [1, 2] (heapOf [3, 1, 4])
    (by intro p hp; simp [heapOf] at *; omega) (by intro p hp; simp [heapOf] at *; omega)).1 _ e
  match r, e3 with
  | some (F, G), e3 =>
    simp only [Option.map_some, Option.some.injEq, Prod.mk.injEq] at e3
    refine ⟨F, G, h', e1, e3.1, e3.2, ?_⟩
    simp only [vals, List.map_cons, List.map_nil]
    rw [e2 0 (by decide), e2 1 (by decide), e2 2 (by decide)]
    rfl

end Falcon
