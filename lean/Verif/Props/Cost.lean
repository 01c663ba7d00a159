import Verif.Lemmas.Cost2
import Verif.Props.Slices
import Verif.Props.Ntt
import Verif.Props.Vectors
import Verif.Props.Verify2
/-!
# C83: the work of the ring operations and of verification

Counted are the accesses of `Model/Trace.lean`: every load and store of an element of a `[]int16`, every lookup in `inv_mod_q`, and every array made.
-/

namespace Falcon
open Spec Sl

/-- The number of elements of all arrays made in a run. -/
def allocated (t : List Access) : Nat := (t.map fun a => match a with | .make n => n | _ => 0).sum

theorem allocated_eq (t : List Access) : allocated t = cost elements.of t := by
  unfold allocated cost
  congr 1
  refine List.map_congr_left fun a _ => ?_
  cases a <;> rfl

/-- A product of two polynomials of degree `n = 2^k` takes exactly `(31 k + 4) n / 2 - 8` accesses and makes arrays of `(6 k - 2) n` elements
in total, whatever the values are. -/
theorem C83_mul (m : Mem) (f g : Slice) (hf : Valid m f) (hg : Valid m g) (k : Nat) (h1 : 1 ≤ k) (h : k ≤ 10) (lf : f.len = 2 ^ k)
    (lg : g.len = 2 ^ k) : (∃ s m', Sl.MulZq wrap64 f g m = .ok (s, m')) ∧
      2 * ((trace (Sl.MulZq wrap64 f g) m).length + 8) = (31 * k + 4) * 2 ^ k ∧
      allocated (trace (Sl.MulZq wrap64 f g) m) + 2 * 2 ^ k = 6 * k * 2 ^ k := by
  obtain ⟨l, -, hl, -⟩ := (C14_no_overflow k h1 h (read m f) (read m g) (by rw [hf.read_length, lf]) (by rw [hg.read_length, lg])).2.2.1
  obtain ⟨s, m', e, -⟩ := (C79_ring m f g hf hg).1 l hl
  obtain ⟨k, rfl⟩ : ∃ j, k = j + 1 := ⟨k - 1, by omega⟩
  have c1 := ((cost_mul each wrap64 k f g lf lg).sound e).1
  have c2 := ((cost_mul elements wrap64 k f g lf lg).sound e).1
  refine ⟨⟨s, m', e⟩, ?_, ?_⟩
  · rw [← cost_each, c1, mul_each, pow_succ]
    ring
  · rw [allocated_eq, c2, (mul_elements k).1]
    ring

/-- A difference takes `5 n + 2` accesses and `2 n` new elements, for every `n`. -/
theorem C83_sub (m : Mem) (f g : Slice) (hf : Valid m f) (hg : Valid m g) (h : f.len = g.len) :
    (∃ s m', Sl.SubZq f g m = .ok (s, m')) ∧ (trace (Sl.SubZq f g) m).length = 5 * f.len + 2 ∧
      allocated (trace (Sl.SubZq f g) m) = 2 * f.len := by
  have hl : ∃ l, SubZq (read m f) (read m g) = .ok l := by
    unfold SubZq addZq
    rw [if_neg (by simp [negZq, hf.read_length, hg.read_length, h])]
    exact ⟨_, rfl⟩
  obtain ⟨l, hl⟩ := hl
  obtain ⟨s, m', e, -⟩ := (C79_ring m f g hf hg).2.2.1 l hl
  have c1 := ((cost_sub each f g h).sound e).1
  have c2 := ((cost_sub elements f g h).sound e).1
  refine ⟨⟨s, m', e⟩, ?_, ?_⟩
  · rw [← cost_each, c1]
    simp only [each]
    ring
  · rw [allocated_eq, c2]
    simp [elements]

/-- A division of polynomials of degree `n = 2^k` takes exactly `(31 k + 8) n / 2 - 8` accesses when it succeeds, and at most as many when the
divisor is not invertible. -/
theorem C83_div (m : Mem) (f g : Slice) (hf : Valid m f) (hg : Valid m g) (k : Nat) (h1 : 1 ≤ k) (h : k ≤ 10) (lf : f.len = 2 ^ k)
    (lg : g.len = 2 ^ k) : ∃ r m', Sl.DivZq wrap64 f g m = .ok (r, m') ∧
      2 * ((trace (Sl.DivZq wrap64 f g) m).length + 8) ≤ (31 * k + 8) * 2 ^ k ∧
      ∀ s, r = .ok s → 2 * ((trace (Sl.DivZq wrap64 f g) m).length + 8) = (31 * k + 8) * 2 ^ k ∧
        allocated (trace (Sl.DivZq wrap64 f g) m) + 2 * 2 ^ k = 6 * k * 2 ^ k := by
  obtain ⟨l, -, hl, -⟩ := (C14_no_overflow k h1 h (read m f) (read m g) (by rw [hf.read_length, lf]) (by rw [hg.read_length, lg])).2.2.2
  obtain ⟨r, m', e⟩ : ∃ r m', Sl.DivZq wrap64 f g m = .ok (r, m') := by
    cases l with
    | error x =>
      obtain ⟨m', e, -⟩ := (C79_div m f g hf hg).2.1 x hl
      exact ⟨_, m', e⟩
    | ok l =>
      obtain ⟨s, m', e, -⟩ := (C79_div m f g hf hg).1 l hl
      exact ⟨_, m', e⟩
  obtain ⟨k, rfl⟩ : ∃ j, k = j + 1 := ⟨k - 1, by omega⟩
  have c1 := (cost_div each wrap64 k f g lf lg).sound e
  have c2 := (cost_div elements wrap64 k f g lf lg).sound e
  have hd := div_each k
  rw [cost_each] at c1
  have hx : (31 * (k + 1) + 8) * 2 ^ (k + 1) = 2 * ((31 * k + 39) * 2 ^ k) := by rw [pow_succ]; ring
  refine ⟨r, m', e, by rw [hx, ← hd]; omega, fun s hs => ⟨by rw [c1.2 s hs, hd, hx], ?_⟩⟩
  rw [allocated_eq, c2.2 s hs, (mul_elements k).2]
  ring

/-- Every call of `Verify` with a key of 512 coefficients that returns has made at most 208891 accesses, whatever the message and the signature
are, and whatever capacity `append` chooses. -/
theorem C83_verify (grow : Nat → Nat) (xof : Xof) (fuel : Nat) (m : Mem) (key : Slice) (hk : Valid m key) (lk : key.len = 512)
    (message signature : List UInt8) (b : Bool) (h : Verify xof fuel (read m key) message signature = .ok b) :
    ∃ m', Sl.Verify grow xof fuel key message signature m = .ok (b, m') ∧
      (trace (Sl.Verify grow xof fuel key message signature) m).length ≤ 208891 := by
  obtain ⟨m', e, -⟩ := (C79_verify grow xof fuel m key hk message signature).1 b h
  exact ⟨m', e, by rw [← cost_each]; exact (cost_verify grow xof fuel key lk message signature).sound e⟩

/-- Every call of `VerifyBytes` that returns has made at most 340219 accesses, whatever the input is. -/
theorem C83_verify_bytes (grow : Nat → Nat) (xof : Xof) (fuel : Nat) (m : Mem) (b : List UInt8) (r : Bool) (h : VerifyBytes xof fuel b = .ok r) :
    ∃ m', Sl.VerifyBytes grow xof fuel b m = .ok (r, m') ∧ (trace (Sl.VerifyBytes grow xof fuel b) m).length ≤ 340219 := by
  obtain ⟨m', e, -⟩ := (C79_verify_bytes grow xof fuel m b).1 r h
  exact ⟨m', e, by rw [← cost_each]; exact (cost_verifyBytes grow xof fuel b).sound e⟩

/-- Two polynomials of degree 4. -/
def costMem : Mem := ⟨2, 0, true, fun a => if a = 0 then [1, 2, 3, 4] else if a = 1 then [5, 6, 7, 8] else []⟩

/-- The counts at degree 4: 124 accesses and 40 elements for a product, 22 and 8 for a difference, 132 and 40 for a quotient. -/
example : Valid costMem ⟨0, 0, 4, 4⟩ ∧ Valid costMem ⟨1, 0, 4, 4⟩ ∧
    (trace (Sl.MulZq wrap64 ⟨0, 0, 4, 4⟩ ⟨1, 0, 4, 4⟩) costMem).length = 124 ∧
    allocated (trace (Sl.MulZq wrap64 ⟨0, 0, 4, 4⟩ ⟨1, 0, 4, 4⟩) costMem) = 40 ∧
    (trace (Sl.SubZq ⟨0, 0, 4, 4⟩ ⟨1, 0, 4, 4⟩) costMem).length = 22 ∧
    allocated (trace (Sl.SubZq ⟨0, 0, 4, 4⟩ ⟨1, 0, 4, 4⟩) costMem) = 8 ∧
    (trace (Sl.DivZq wrap64 ⟨0, 0, 4, 4⟩ ⟨1, 0, 4, 4⟩) costMem).length = 132 ∧
    allocated (trace (Sl.DivZq wrap64 ⟨0, 0, 4, 4⟩ ⟨1, 0, 4, 4⟩) costMem) = 40 := by
  decide +kernel

/-- The accepted signature of `Props/Vectors.lean` is checked with at most that many accesses. -/
example (grow : Nat → Nat) : let m : Mem := ⟨1, 0, true, fun a => if a = 0 then Check.key0 else []⟩
    ∃ m', Sl.Verify grow Shake.shake256 612 ⟨0, 0, 512, 512⟩ Check.honestMsg Check.honestSig m = .ok (true, m') ∧
      (trace (Sl.Verify grow Shake.shake256 612 ⟨0, 0, 512, 512⟩ Check.honestMsg Check.honestSig) m).length ≤ 208891 := by
  intro m
  have hl : Check.key0.length = 512 := by decide +kernel
  have hr : read m ⟨0, 0, 512, 512⟩ = Check.key0 := by
    show (Check.key0.drop 0).take 512 = Check.key0
    rw [List.drop_zero, ← hl, List.take_length]
  refine C83_verify grow _ 612 m ⟨0, 0, 512, 512⟩ ?_ rfl Check.honestMsg Check.honestSig true (by rw [hr]; exact Check.honest_accepted)
  decide +kernel

/-- The same signature in the words of `VerifyBytes`. -/
example (grow : Nat → Nat) (m : Mem) : let b := packKey Check.key0 ++ packWords Check.honestMsg ++ packWords Check.honestSig ++ []
    ∃ m', Sl.VerifyBytes grow Shake.shake256 612 b m = .ok (true, m') ∧
      (trace (Sl.VerifyBytes grow Shake.shake256 612 b) m).length ≤ 340219 :=
  C83_verify_bytes grow _ 612 m _ true ((C27_verifybytes_is_verify _ 612 _ _ _ [] (by decide +kernel) (by decide +kernel) (by decide +kernel)).trans
    Check.honest_accepted)

end Falcon
