import Verif.Lemmas.Trace2
import Verif.Props.Ntt
/-!
# C82: memory accesses and secret values

The accesses of a call in the slice model (`Model/Trace.lean`) for two memories that differ only in the values of the elements (`Shape`).
`MulZq` and `SubZq` access the same places in both. `GetPublicKey` does not: it looks up the NTT of the secret polynomial `f` in a table, element by
element, and an observer of these lookups knows `f`.
-/

namespace Falcon
open Spec Sl

/-- The accesses of `MulZq` and `SubZq` do not depend on the elements of any array, for all slices, also where they panic. -/
theorem C82_ring (f g : Slice) (m m' : Mem) (h : Shape m m') :
    trace (Sl.MulZq wrap64 f g) m = trace (Sl.MulZq wrap64 f g) m' ∧ trace (Sl.SubZq f g) m = trace (Sl.SubZq f g) m' :=
  ⟨(same_mul f g m m' h).trace, (same_sub f g m m' h).trace⟩

/-- The accesses of `GetPublicKey` at the degrees 2, 4, ..., 1024 depend on the elements of `f` only, not on those of `g`, `F`, `G` or other arrays. -/
theorem C82_public_key (key : Sl.PrivateKey) (m m' : Mem) (hm : Shape m m') (hf : Valid m key.f) (hg : Valid m key.g)
    (k : Nat) (h1 : 1 ≤ k) (h : k ≤ 10) (lf : key.f.len = 2 ^ k) (lg : key.g.len = 2 ^ k) (hr : read m key.f = read m' key.f) :
    trace (Sl.GetPublicKey key) m = trace (Sl.GetPublicKey key) m' := by
  refine SameAt.trace (R := fun _ _ _ _ => True) ?_
  refine (SameAt.divZq hm hg hf hr h1 h lg lf).bind ?_
  rintro (e | s) m1 _ m1' ⟨rfl, -⟩ <;> trivial

/-- The lookups of `GetPublicKey` are, after those of the two forward transforms, the NTT of `f`. -/
theorem looks_publicKey (key : Sl.PrivateKey) (m : Mem) (hf : Valid m key.f) (hg : Valid m key.g)
    (k : Nat) (h1 : 1 ≤ k) (h : k ≤ 10) (lf : key.f.len = 2 ^ k) (lg : key.g.len = 2 ^ k) (q : List Int16)
    (hq : DivZq wrap64 (read m key.g) (read m key.f) = .ok (.ok q)) :
    ∃ s m1 u rest, exec (Sl.NTT wrap64 (key.g.len + 1) key.g) m = .ok (s, m1) ∧ NTT wrap64 (read m key.f) = .ok u ∧ u.length = 2 ^ k ∧
      looks (trace (Sl.GetPublicKey key) m) = looks (trace (Sl.NTT wrap64 (key.g.len + 1) key.g) m) ++
        (looks (trace (Sl.NTT wrap64 (key.f.len + 1) key.f) m1) ++ (u.map Int16.toInt ++ rest)) := by
  obtain ⟨s, m1, r, e1, x1, v1, l1, rd1, en1, -, -⟩ := ntt_runs hg h1 h lg
  obtain ⟨t, m2, u, e2, x2, v2, l2, rd2, en2, lu, ru⟩ := ntt_runs (hf.ext x1) h1 h lf
  rw [hf.read x1] at en2
  have hz : ∀ y ∈ u, y ≠ 0 := by
    intro y hy h0
    have hany : u.any (· == 0) = true := List.any_eq_true.2 ⟨y, hy, by simp [h0]⟩
    have hlen : r.length = u.length := by rw [← rd1, v1.read_length, l1, lu]
    unfold DivZq divNTT at hq
    rw [en1, en2] at hq
    rw [Go.ok_bind, Go.ok_bind, if_neg (by omega), if_pos hany] at hq
    simp at hq
  obtain ⟨d, m3, e3, -⟩ := (divZq_gives wrap64 m key.g key.f hg hf).iff.1 _ hq
  have e3' := e3
  unfold Sl.DivZq at e3'
  rw [bind_apply, e1, Go.ok_bind, bind_apply] at e3'
  simp only [e2, Go.ok_bind] at e3'
  rw [bind_apply, Go.bind_eq_ok] at e3'
  obtain ⟨⟨a, m4⟩, e4, -⟩ := e3'
  refine ⟨s, m1, u, ?rest, e1, en2, lu, ?_⟩
  rotate_left
  unfold Sl.GetPublicKey
  rw [trace_bind e3, looks_append]
  unfold Sl.DivZq
  rw [trace_bind e1, trace_bind e2, trace_bind e4]
  simp only [looks_append, List.append_assoc]
  rw [looks_divNTT (v1.ext x2) v2 (by rw [l1, l2]) (by rw [rd2]; exact ru) (by rw [rd2]; exact hz), rd2]

/-- The accesses of `GetPublicKey` reveal `f`: if they are the same for two states of memory in which `f` is invertible, then `f` is the same modulo `q`. -/
theorem C82_violated_reveals (key : Sl.PrivateKey) (m m' : Mem) (hm : Shape m m') (hf : Valid m key.f) (hg : Valid m key.g)
    (k : Nat) (h1 : 1 ≤ k) (h : k ≤ 10) (lf : key.f.len = 2 ^ k) (lg : key.g.len = 2 ^ k) (q q' : List Int16)
    (hq : DivZq wrap64 (read m key.g) (read m key.f) = .ok (.ok q)) (hq' : DivZq wrap64 (read m' key.g) (read m' key.f) = .ok (.ok q'))
    (ht : trace (Sl.GetPublicKey key) m = trace (Sl.GetPublicKey key) m') :
    (read m key.f).map (fun x => x.toInt % 12289) = (read m' key.f).map (fun x => x.toInt % 12289) := by
  obtain ⟨s, m1, u, rest, e1, en, lu, el⟩ := looks_publicKey key m hf hg k h1 h lf lg q hq
  obtain ⟨s', m1', u', rest', e1', en', lu', el'⟩ := looks_publicKey key m' (hf.shape hm) (hg.shape hm) k h1 h lf lg q' hq'
  have hA := same_ntt (key.g.len + 1) key.g m m' hm
  obtain ⟨⟨-, hm1⟩, -⟩ := hA.post e1 e1'
  have hB := (same_ntt (key.f.len + 1) key.f m1 m1' hm1).trace
  rw [ht, el', hA.trace, hB] at el
  have el := List.append_cancel_left (List.append_cancel_left el)
  have hu : u'.map Int16.toInt = u.map Int16.toInt := (List.append_inj el (by simp [lu, lu'])).1
  have hu : u' = u := List.map_injective_iff.2 (fun a b h => Int16.toInt_inj.1 h) hu
  subst hu
  have c := (C08_ntt_intt_inverse k h1 h (read m key.f) (by rw [hf.read_length, lf])).1
  have c' := (C08_ntt_intt_inverse k h1 h (read m' key.f) (by rw [(hf.shape hm).read_length, lf])).1
  rw [en] at c
  rw [en', c] at c'
  have c' := Go.ok.inj c'
  have := congrArg (List.map Int16.toInt) c'
  simp only [List.map_map] at this
  refine (List.map_congr_left fun x _ => ?_).trans (this.trans (List.map_congr_left fun x _ => ?_))
  · rw [Function.comp_apply, redQ_elem, reduceQ_toInt]
  · rw [Function.comp_apply, redQ_elem, reduceQ_toInt]

/-- For keys with coefficients between -6144 and 6144, as key generation makes them, the accesses determine `f`. -/
theorem C82_violated_key (key : Sl.PrivateKey) (m m' : Mem) (hm : Shape m m') (hf : Valid m key.f) (hg : Valid m key.g)
    (k : Nat) (h1 : 1 ≤ k) (h : k ≤ 10) (lf : key.f.len = 2 ^ k) (lg : key.g.len = 2 ^ k) (q q' : List Int16)
    (hq : DivZq wrap64 (read m key.g) (read m key.f) = .ok (.ok q)) (hq' : DivZq wrap64 (read m' key.g) (read m' key.f) = .ok (.ok q'))
    (hs : ∀ x ∈ read m key.f, -6144 ≤ x.toInt ∧ x.toInt ≤ 6144) (hs' : ∀ x ∈ read m' key.f, -6144 ≤ x.toInt ∧ x.toInt ≤ 6144) :
    trace (Sl.GetPublicKey key) m = trace (Sl.GetPublicKey key) m' ↔ read m key.f = read m' key.f := by
  refine ⟨fun ht => ?_, fun hr => C82_public_key key m m' hm hf hg k h1 h lf lg hr⟩
  have := C82_violated_reveals key m m' hm hf hg k h1 h lf lg q q' hq hq' ht
  refine List.ext_getElem (by rw [hf.read_length, (hf.shape hm).read_length]) fun i hi hi' => ?_
  have e := congrArg (fun l => l[i]?) this
  simp only [List.getElem?_map, List.getElem?_eq_getElem hi, List.getElem?_eq_getElem hi', Option.map_some, Option.some.injEq] at e
  have b := hs _ (List.getElem_mem hi)
  have b' := hs' _ (List.getElem_mem hi')
  apply Int16.toInt_inj.1
  omega

/-- Four arrays with a private key of degree 2; `f` is `x` and `g` is 3. -/
def traceMem (x : Int16) : Mem := ⟨4, 0, true, fun a => if a = 0 then [x, 0] else if a = 1 then [3, 0] else if a = 2 then [0, 0] else if a = 3 then [5, 0] else []⟩

/-- The hypotheses hold for `f = 1` and `f = 2`; the lookups after the transforms are `f(w)` for the two roots `w`, and `f` can be read off. -/
example : let key : Sl.PrivateKey := ⟨2, ⟨0, 0, 2, 2⟩, ⟨1, 0, 2, 2⟩, ⟨2, 0, 2, 2⟩, ⟨3, 0, 2, 2⟩⟩
    Shape (traceMem 1) (traceMem 2) ∧ Valid (traceMem 1) key.f ∧ Valid (traceMem 1) key.g ∧
    DivZq wrap64 (read (traceMem 1) key.g) (read (traceMem 1) key.f) = .ok (.ok [3, 0]) ∧
    DivZq wrap64 (read (traceMem 2) key.g) (read (traceMem 2) key.f) = .ok (.ok [6146, 0]) ∧
    looks (trace (Sl.GetPublicKey key) (traceMem 1)) = [1, 1, 1479] ∧ looks (trace (Sl.GetPublicKey key) (traceMem 2)) = [2, 2, 1479] := by
  refine ⟨⟨rfl, rfl, rfl, fun a => ?_⟩, by decide, by decide, by decide +kernel, by decide +kernel, by decide +kernel, by decide +kernel⟩
  simp only [traceMem]
  split_ifs <;> rfl

/-- A product of two polynomials makes accesses, the same for all values. -/
example : trace (Sl.MulZq wrap64 ⟨0, 0, 2, 2⟩ ⟨1, 0, 2, 2⟩) (traceMem 1) = trace (Sl.MulZq wrap64 ⟨0, 0, 2, 2⟩ ⟨1, 0, 2, 2⟩) (traceMem 7) ∧
    (trace (Sl.MulZq wrap64 ⟨0, 0, 2, 2⟩ ⟨1, 0, 2, 2⟩) (traceMem 1)).length = 27 := by
  decide +kernel

end Falcon
