import Verif.Spec.Words
import Verif.Props.Verify2
import Verif.Props.Samplerz
/-!
# C86: the input format of `VerifyBytes`

C27 says what `VerifyBytes` does on the packed form of a key, a message and a signature. This file says what it does on every byte string,
and that the format is not unique: the bytes of a word are added, so that a byte of the message has 2^248 forms.
-/

namespace Falcon
open Spec

theorem idx_drop {α : Type*} (b : List α) (i : Nat) (h : i < b.length) : idx b i = .ok b[i] := by
  unfold idx
  rw [List.getElem?_eq_getElem h]

theorem sumWord8_drop (b : List UInt8) (off m k : Nat) (t : UInt8) (h : off + k + m ≤ b.length) :
    sumWord8 b off m k t = .ok (t + UInt8.ofNat (((b.drop (off + k)).take m).map UInt8.toNat).sum) := by
  induction m generalizing k t with
  | zero => simp [sumWord8]
  | succ m ih =>
    rw [sumWord8, idx_drop _ _ (by omega), Go.ok_bind, ih _ _ (by omega), List.drop_eq_getElem_cons (by omega : off + k < b.length),
      List.take_succ_cons, List.map_cons, List.sum_cons, UInt8.ofNat_add, UInt8.ofNat_toNat, UInt8.add_assoc]
    rfl

theorem sumWord16_drop (b : List UInt8) (off m k : Nat) (t : Int16) (h : off + k + m ≤ b.length) :
    sumWord16 b off m k t = .ok (t + Int16.ofNat (((b.drop (off + k)).take m).map UInt8.toNat).sum) := by
  induction m generalizing k t with
  | zero => simp [sumWord16]
  | succ m ih =>
    rw [sumWord16, idx_drop _ _ (by omega), Go.ok_bind, ih _ _ (by omega), List.drop_eq_getElem_cons (by omega : off + k < b.length),
      List.take_succ_cons, List.map_cons, List.sum_cons, Int16.ofNat_add, Int16.add_assoc]
    rfl

theorem readBytes_range (b : List UInt8) (m i : Nat) (h : 32 * (i + m) ≤ b.length) :
    readBytes b m i = .ok ((List.range m).map fun j => UInt8.ofNat (wordSum b (i + j))) := by
  induction m generalizing i with
  | zero => rfl
  | succ m ih =>
    rw [readBytes, sumWord8_drop _ _ _ _ _ (by omega), Go.ok_bind, ih _ (by omega), List.range_succ_eq_map, List.map_cons, List.map_map]
    simp only [Go.ok_bind, Go.pure_eq, Go.ok.injEq, List.cons.injEq]
    refine ⟨?_, ?_⟩
    · rw [UInt8.zero_add, Nat.add_zero, Nat.add_zero, wordSum, Nat.mul_comm]
    · apply List.map_congr_left
      intro j _
      show _ = UInt8.ofNat (wordSum b (i + (j + 1)))
      rw [show i + 1 + j = i + (j + 1) by omega]

theorem shift_eight (x : Nat) : (0 + Int16.ofNat x) <<< 8 = Int16.ofNat (256 * x) := by
  apply Int16.toBitVec.inj
  apply BitVec.eq_of_toNat_eq
  have h8 : (8 : Int16).toBitVec.smod 16 = 8 := by decide
  simp only [Int16.toBitVec_shiftLeft, h8]
  simp [Nat.shiftLeft_eq]
  omega

theorem readKey_range (b : List UInt8) (m i : Nat) (h : 32 * (i + 2 * m) ≤ b.length) :
    readKey b m i = .ok ((List.range m).map fun j => Int16.ofNat (256 * wordSum b (i + 2 * j) + wordSum b (i + 2 * j + 1))) := by
  induction m generalizing i with
  | zero => rfl
  | succ m ih =>
    rw [readKey, sumWord16_drop _ _ _ _ _ (by omega), Go.ok_bind, sumWord16_drop _ _ _ _ _ (by omega), Go.ok_bind, ih _ (by omega),
      List.range_succ_eq_map, List.map_cons, List.map_map]
    simp only [Go.ok_bind, Go.pure_eq, Go.ok.injEq, List.cons.injEq]
    refine ⟨?_, ?_⟩
    · rw [shift_eight, ← Int16.ofNat_add]
      simp only [Nat.add_zero, Nat.mul_zero, wordSum, Nat.mul_comm 32]
    · apply List.map_congr_left
      intro j _
      show _ = Int16.ofNat (256 * wordSum b (i + 2 * (j + 1)) + wordSum b (i + 2 * (j + 1) + 1))
      rw [show i + 2 + 2 * j = i + 2 * (j + 1) by omega]

/-- C86, exactly: on every input of at least 1722 words `VerifyBytes` is `Verify` on the key, message and signature that the word sums
denote. -/
theorem C86_exact (xof : Xof) (fuel : Nat) (b : List UInt8) (h : 55104 ≤ b.length) :
    VerifyBytes xof fuel b = Verify xof fuel (keyOf b) (msgOf b) (sigOf b) := by
  unfold VerifyBytes Verify
  have e : keyOf b = (List.range 512).map fun j => Int16.ofNat (256 * wordSum b (0 + 2 * j) + wordSum b (0 + 2 * j + 1)) := by
    unfold keyOf
    apply List.map_congr_left
    intro j _
    rw [Nat.zero_add]
    exact Int16.ofInt_eq_ofNat
  rw [readKey_range _ _ _ (by omega), Go.ok_bind, readBytes_range _ _ _ (by omega), Go.ok_bind, readBytes_range _ _ _ (by omega),
    Go.ok_bind, e]
  rfl

/-- C86 is violated: inputs with the same word sums are not distinguished. -/
theorem C86_violated_sums (xof : Xof) (fuel : Nat) (b b' : List UInt8) (h : 55104 ≤ b.length) (h' : 55104 ≤ b'.length)
    (hs : ∀ i < 1722, wordSum b i = wordSum b' i) : VerifyBytes xof fuel b = VerifyBytes xof fuel b' := by
  rw [C86_exact _ _ _ h, C86_exact _ _ _ h']
  have e1 : keyOf b = keyOf b' := List.map_congr_left fun j hj => by
    rw [List.mem_range] at hj; rw [hs _ (by omega), hs _ (by omega)]
  have e2 : msgOf b = msgOf b' := List.map_congr_left fun j hj => by
    rw [List.mem_range] at hj; rw [hs _ (by omega)]
  have e3 : sigOf b = sigOf b' := List.map_congr_left fun j hj => by
    rw [List.mem_range] at hj; rw [hs _ (by omega)]
  rw [e1, e2, e3]

theorem wordSum_append (p w q : List UInt8) (i : Nat) (hp : p.length = 32 * i) (hw : w.length = 32) :
    wordSum (p ++ (w ++ q)) i = (w.map UInt8.toNat).sum := by
  rw [wordSum, ← hp, List.drop_left, ← hw, List.take_left]

theorem wordSum_other (p w w' q : List UInt8) (i j : Nat) (hp : p.length = 32 * i) (hw : w.length = 32) (hw' : w'.length = 32)
    (hj : j ≠ i) : wordSum (p ++ (w ++ q)) j = wordSum (p ++ (w' ++ q)) j := by
  unfold wordSum
  rcases Nat.lt_or_gt_of_ne hj with h | h
  · have a : ∀ v : List UInt8, ((p ++ (v ++ q)).drop (32 * j)).take 32 = (p.drop (32 * j)).take 32 := by
      intro v
      rw [List.drop_append_of_le_length (by omega), List.take_append_of_le_length (by rw [List.length_drop]; omega)]
    rw [a, a]
  · have a : ∀ v : List UInt8, v.length = 32 → (p ++ (v ++ q)).drop (32 * j) = q.drop (32 * j - 32 * i - 32) := by
      intro v hv
      rw [List.drop_append, List.drop_eq_nil_of_le (by omega), List.nil_append, List.drop_append, List.drop_eq_nil_of_le (by omega),
        List.nil_append, hp, hv]
    rw [a w hw, a w' hw']

/-- C86 is violated: within a word of the message (or of the signature) any bytes with the same sum modulo 256 may be written. -/
theorem C86_violated_word (xof : Xof) (fuel : Nat) (p w w' q : List UInt8) (i : Nat) (hi : 1024 ≤ i) (hp : p.length = 32 * i)
    (hw : w.length = 32) (hw' : w'.length = 32) (hs : w.sum = w'.sum) (hl : 55104 ≤ (p ++ (w ++ q)).length) :
    VerifyBytes xof fuel (p ++ (w ++ q)) = VerifyBytes xof fuel (p ++ (w' ++ q)) := by
  have hl' : 55104 ≤ (p ++ (w' ++ q)).length := by
    rw [List.length_append, List.length_append] at hl ⊢; omega
  have sum8 : ∀ l : List UInt8, UInt8.ofNat (l.map UInt8.toNat).sum = l.sum := by
    intro l
    induction l with
    | nil => rfl
    | cons x l ih => rw [List.map_cons, List.sum_cons, List.sum_cons, UInt8.ofNat_add, UInt8.ofNat_toNat, ih]
  have e : ∀ j, UInt8.ofNat (wordSum (p ++ (w ++ q)) j) = UInt8.ofNat (wordSum (p ++ (w' ++ q)) j) := by
    intro j
    by_cases h : j = i
    · subst h
      rw [wordSum_append _ _ _ _ hp hw, wordSum_append _ _ _ _ hp hw', sum8, sum8, hs]
    · rw [wordSum_other _ _ _ _ _ _ hp hw hw' h]
  rw [C86_exact _ _ _ hl, C86_exact _ _ _ hl']
  have e1 : keyOf (p ++ (w ++ q)) = keyOf (p ++ (w' ++ q)) := List.map_congr_left fun j hj => by
    rw [List.mem_range] at hj
    rw [wordSum_other p w w' q i (2 * j) hp hw hw' (by omega), wordSum_other p w w' q i (2 * j + 1) hp hw hw' (by omega)]
  have e2 : msgOf (p ++ (w ++ q)) = msgOf (p ++ (w' ++ q)) := List.map_congr_left fun j _ => e _
  have e3 : sigOf (p ++ (w ++ q)) = sigOf (p ++ (w' ++ q)) := List.map_congr_left fun j _ => e _
  rw [e1, e2, e3]

/-- C86 is violated for every input: another byte string of the same length that differs in the message field has the same outcome. -/
theorem C86_violated_second (b : List UInt8) (h : 55104 ≤ b.length) : ∃ b' : List UInt8, b' ≠ b ∧ b'.length = b.length ∧
    ∀ (xof : Xof) (fuel : Nat), VerifyBytes xof fuel b' = VerifyBytes xof fuel b := by
  have eb : b = b.take 32768 ++ ((b.drop 32768).take 32 ++ b.drop 32800) := by
    rw [← List.drop_drop (i := 32) (j := 32768), List.take_append_drop, List.take_append_drop]
  have lp : (b.take 32768).length = 32 * 1024 := by rw [List.length_take]; omega
  have lw : ((b.drop 32768).take 32).length = 32 := by rw [List.length_take, List.length_drop]; omega
  generalize b.take 32768 = p at *
  generalize (b.drop 32768).take 32 = w at *
  generalize b.drop 32800 = q at *
  match w, lw with
  | x :: y :: r, lw =>
    refine ⟨p ++ ((x + 1) :: (y - 1) :: r ++ q), ?_, ?_, ?_⟩
    · rw [eb]
      intro he
      have := List.append_cancel_left he
      simp only [List.cons_append, List.cons.injEq] at this
      have h1 := this.1
      have : (1 : UInt8) = 0 := by
        have h2 : x + 1 = x + 0 := by rw [h1, UInt8.add_zero]
        exact (UInt8.add_right_inj x).1 h2
      exact absurd this (by decide)
    · rw [eb]; simp
    · intro xof fuel
      rw [eb] at h ⊢
      refine (C86_violated_word xof fuel p (x :: y :: r) ((x + 1) :: (y - 1) :: r) q 1024 (by decide) lp lw (by simpa using lw) ?_ h).symm
      simp only [List.sum_cons]
      rw [← UInt8.add_assoc, ← UInt8.add_assoc]
      congr 1
      rw [UInt8.add_assoc, UInt8.add_comm 1, UInt8.sub_add_cancel]

/-- C86, how ambiguous: every byte of the message or of the signature has exactly `2^248` forms. -/
theorem C86_forms (v : UInt8) : {w : List UInt8 | w.length = 32 ∧ w.sum = v}.ncard = 2 ^ 248 := by
  rw [← Set.InjOn.ncard_image (f := fun w : List UInt8 => setBytes w.tail)]
  · have : (fun w : List UInt8 => setBytes w.tail) '' {w : List UInt8 | w.length = 32 ∧ w.sum = v} = ↑(Finset.range (2 ^ 248)) := by
      ext u
      simp only [Set.mem_image, Set.mem_ofPred_eq, Finset.coe_range, Set.mem_Iio]
      constructor
      · rintro ⟨w, ⟨hw, _⟩, rfl⟩
        have := setBytes_lt w.tail
        rw [List.length_tail, hw] at this
        exact this.trans_eq (by norm_num)
      · intro hu
        obtain ⟨t, h1, h2⟩ := setBytes_surj 31 u (hu.trans_eq (by norm_num))
        refine ⟨(v - t.sum) :: t, ⟨by simp [h1], ?_⟩, h2⟩
        rw [List.sum_cons, UInt8.sub_add_cancel]
    rw [this, Set.ncard_coe_finset, Finset.card_range]
  · rintro a ⟨ha, sa⟩ b ⟨hb, sb⟩ h
    match a, ha, b, hb with
    | x :: a, ha, y :: b, hb =>
      have e : a = b := setBytes_inj a b (by simp at ha hb; omega) h
      subst e
      rw [List.sum_cons] at sa sb
      rw [(UInt8.add_left_inj a.sum).1 (sa.trans sb.symm)]

/-- The packed form of C27 denotes what was packed. -/
theorem C86_packed (h : List Int16) (m sig t : List UInt8) (hh : h.length = 512) (hm : m.length = 32) (hs : sig.length = 666) :
    keyOf (packKey h ++ packWords m ++ packWords sig ++ t) = h ∧ msgOf (packKey h ++ packWords m ++ packWords sig ++ t) = m ∧
      sigOf (packKey h ++ packWords m ++ packWords sig ++ t) = sig := by
  have lk := packKey_length h
  have lm := packWords_length m
  have lsig := packWords_length sig
  have len : (packKey h ++ packWords m ++ packWords sig ++ t).length = 55104 + t.length := by
    simp only [List.length_append]; omega
  refine ⟨?_, ?_, ?_⟩
  · have a := readKey_pack h [] (packWords m ++ packWords sig ++ t) 0 rfl
    rw [hh, List.nil_append, ← List.append_assoc, ← List.append_assoc, readKey_range _ _ _ (by omega)] at a
    refine Eq.trans ?_ (Go.ok.inj a)
    unfold keyOf
    apply List.map_congr_left
    intro j _
    rw [Nat.zero_add]
    exact Int16.ofInt_eq_ofNat
  · have a := readBytes_pack m (packKey h) (packWords sig ++ t) 1024 (by omega)
    rw [hm, ← List.append_assoc, ← List.append_assoc, readBytes_range _ _ _ (by omega)] at a
    exact Go.ok.inj a
  · have a := readBytes_pack sig (packKey h ++ packWords m) t 1056 (by rw [List.length_append]; omega)
    rw [hs, ← List.append_assoc, readBytes_range _ _ _ (by omega)] at a
    exact Go.ok.inj a

/-- Non-trivial words: the byte 7 written as 3 + 4 or as 250 + 13, and the key words 300 and 5 that denote 11269. -/
example : ([3, 4] : List UInt8).sum = 7 ∧ ([250, 13] : List UInt8).sum = 7 ∧
    Int16.ofInt (256 * wordSum ([200, 100] ++ List.replicate 30 0 ++ [5] ++ List.replicate 31 0) 0 +
      wordSum ([200, 100] ++ List.replicate 30 0 ++ [5] ++ List.replicate 31 0) 1 : Nat) = 11269 := by decide +kernel

end Falcon
