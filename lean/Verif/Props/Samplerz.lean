import Verif.Model.Keygen
import Verif.Spec.RatOps
import Mathlib.Data.Set.Card
import Mathlib.Tactic.Ring
import Mathlib.Tactic.Linarith
/-!
# Properties of the integer samplers (C44-C48)
-/

namespace Falcon
open Spec

/-! ### C44: BaseSampler -/

theorem setBytes_append (a : List UInt8) (x : UInt8) : setBytes (a ++ [x]) = setBytes a * 256 + x.toNat := by
  simp [setBytes]

theorem setBytes_lt (a : List UInt8) : setBytes a < 256 ^ a.length := by
  induction a using List.reverseRecOn with
  | nil => simp [setBytes]
  | append_singleton a x ih =>
    rw [setBytes_append, List.length_append, List.length_singleton, pow_succ]
    have := x.toNat_lt
    omega

theorem setBytes_inj (a b : List UInt8) (hl : a.length = b.length) (h : setBytes a = setBytes b) : a = b := by
  induction a using List.reverseRecOn generalizing b with
  | nil => exact (List.length_eq_zero_iff.1 hl.symm).symm
  | append_singleton a x ih =>
    rcases List.eq_nil_or_concat b with rfl | ⟨b', y, rfl⟩
    · simp at hl
    · rw [List.concat_eq_append] at *
      rw [setBytes_append, setBytes_append] at h
      have hx := x.toNat_lt
      have hy := y.toNat_lt
      rw [ih b' (by simpa using hl) (by omega), UInt8.toNat_inj.1 (by omega : x.toNat = y.toNat)]

theorem setBytes_surj (n u : Nat) (h : u < 256 ^ n) : ∃ a : List UInt8, a.length = n ∧ setBytes a = u := by
  induction n generalizing u with
  | zero => exact ⟨[], rfl, by simp at h; simp [setBytes, h]⟩
  | succ n ih =>
    obtain ⟨a, h1, h2⟩ := ih (u / 256) (by rw [pow_succ] at h; omega)
    refine ⟨a ++ [UInt8.ofNat (u % 256)], by simp [h1], ?_⟩
    rw [setBytes_append, h2]
    have : (UInt8.ofNat (u % 256)).toNat = u % 256 := by
      simp
    omega

theorem base_fold (u : Nat) (l : List Nat) (z : Nat) :
    l.foldl (fun z0 elt => if u < elt then z0 + 1 else z0) z = z + l.countP (fun e => decide (u < e)) := by
  induction l generalizing z with
  | nil => simp
  | cons a l ih =>
    rw [List.foldl_cons, ih, List.countP_cons]
    by_cases h : u < a <;> simp [h] <;> omega

/-- In a strictly decreasing table, at least `k+1` entries exceed `u` iff entry `k` does. -/
theorem countP_sorted (u : Nat) (l : List Nat) (hs : l.Pairwise (· > ·)) (k : Nat) (hk : k < l.length) :
    k + 1 ≤ l.countP (fun e => decide (u < e)) ↔ u < l[k] := by
  induction l generalizing k with
  | nil => simp at hk
  | cons a l ih =>
    rw [List.pairwise_cons] at hs
    rw [List.countP_cons]
    have hzero : ¬ u < a → l.countP (fun e => decide (u < e)) = 0 := by
      intro h
      rw [List.countP_eq_zero]
      intro b hb
      have := hs.1 b hb
      simp; omega
    cases k with
    | zero =>
      by_cases h : u < a
      · simp [h]
      · simp [h, hzero h]
    | succ k =>
      have := ih hs.2 k (by simpa using hk)
      by_cases h : u < a
      · simp only [h, decide_true, if_true, List.getElem_cons_succ]
        omega
      · simp only [h, List.getElem_cons_succ, hzero h]
        have hlt : l[k]'(by simpa using hk) < a := hs.1 _ (List.getElem_mem _)
        simp; omega

theorem RCDT_sorted : RCDT.Pairwise (· > ·) := by decide +kernel
theorem RCDT_length : RCDT.length = 18 := rfl
theorem RCDT_lt : ∀ e ∈ RCDT, e < 256 ^ 9 := by decide +kernel

/-- C44: `BaseSampler` takes values in {0..18}. -/
theorem C44_range (b : List UInt8) : BaseSampler b ≤ 18 := by
  unfold BaseSampler
  simp only
  rw [base_fold, Nat.zero_add]
  exact List.countP_le_length

/-- C44: the value is at least `k+1` iff the big-endian integer is below `RCDT[k]`. -/
theorem C44_threshold (b : List UInt8) (k : Nat) (hk : k < 18) : k + 1 ≤ BaseSampler b ↔ setBytes b < RCDT[k]'(by rw [RCDT_length]; exact hk) := by
  unfold BaseSampler
  simp only
  rw [base_fold, Nat.zero_add]
  exact countP_sorted _ _ RCDT_sorted k (by rw [RCDT_length]; exact hk)

/-- C44: non-increasing in the big-endian integer of the input. -/
theorem C44_antitone (a b : List UInt8) (h : setBytes a ≤ setBytes b) : BaseSampler b ≤ BaseSampler a := by
  by_contra hc
  push Not at hc
  have hb := C44_range b
  have h1 := (C44_threshold b (BaseSampler a) (by omega)).1 hc
  have h2 := (C44_threshold a (BaseSampler a) (by omega)).2 (by omega)
  omega

/-- C44: among the `2^72` inputs exactly `RCDT[k]` give a value of at least `k+1`. -/
theorem C44_count (k : Nat) (hk : k < 18) :
    {b : List UInt8 | b.length = 9 ∧ k + 1 ≤ BaseSampler b}.ncard = RCDT[k]'(by rw [RCDT_length]; exact hk) := by
  have e : {b : List UInt8 | b.length = 9 ∧ k + 1 ≤ BaseSampler b} =
      {b : List UInt8 | b.length = 9 ∧ setBytes b < RCDT[k]'(by rw [RCDT_length]; exact hk)} := by
    ext b
    simp only [Set.mem_ofPred_eq, C44_threshold b k hk]
  rw [e, ← Set.InjOn.ncard_image (f := setBytes)]
  · have : setBytes '' {b : List UInt8 | b.length = 9 ∧ setBytes b < RCDT[k]'(by rw [RCDT_length]; exact hk)} =
        ↑(Finset.range (RCDT[k]'(by rw [RCDT_length]; exact hk))) := by
      ext u
      simp only [Set.mem_image, Set.mem_ofPred_eq, Finset.coe_range, Set.mem_Iio]
      constructor
      · rintro ⟨b, ⟨_, h⟩, rfl⟩; exact h
      · intro hu
        have hlt := RCDT_lt _ (List.getElem_mem (by rw [RCDT_length]; exact hk))
        obtain ⟨b, h1, h2⟩ := setBytes_surj 9 u (lt_trans hu hlt)
        exact ⟨b, ⟨h1, by omega⟩, h2⟩
    rw [this, Set.ncard_coe_finset, Finset.card_range]
  · rintro a ⟨ha, _⟩ b ⟨hb, _⟩ h
    exact setBytes_inj a b (ha.trans hb.symm) h

example : BaseSampler [0, 0, 0, 0, 0, 0, 0, 0, 0] = 18 ∧ BaseSampler [0, 0, 0, 0, 0, 0, 0, 0, 1] = 17 ∧
    BaseSampler [255, 255, 255, 255, 255, 255, 255, 255, 255] = 0 := by decide +kernel

/-! ### C45: approxexp -/

theorem shr63_le (x : UInt64) : (x >>> 63).toNat ≤ 1 := by
  have h := x.toNat_lt
  rw [UInt64.toNat_shiftRight]
  rw [show (UInt64.toNat 63 % 64) = 63 from rfl, Nat.shiftRight_eq_div_pow]
  omega

/-- C45 is violated: whatever the arguments and the floating-point arithmetic, the result is 0 or 1, because the 128-bit products of the
specification are 64-bit products here. -/
theorem C45_violated (O : FloatOps) (x ccs : O.F) : approxexp O x ccs = 0 ∨ approxexp O x ccs = 1 := by
  have h : (approxexp O x ccs).toNat ≤ 1 := shr63_le _
  have : (approxexp O x ccs).toNat = 0 ∨ (approxexp O x ccs).toNat = 1 := by omega
  rcases this with h | h
  · exact Or.inl (UInt64.toNat_inj.1 (by rw [h]; rfl))
  · exact Or.inr (UInt64.toNat_inj.1 (by rw [h]; rfl))

/-- The polynomial part of `approxexp` also collapses: it gives `2^63` or `2^63-1`. -/
theorem poly_part (z : UInt64) :
    let y := expTable.tail.foldl (fun y elt => elt - ((z * y) >>> 63)) (expTable.headD 0)
    y.toNat = 2 ^ 63 ∨ y.toNat = 2 ^ 63 - 1 := by
  simp only [expTable, List.tail_cons, List.foldl_cons, List.foldl_nil, List.headD_cons]
  generalize (z * (0x7FFFFFFFFFFF4800 - _)) = w
  have h := shr63_le w
  rw [UInt64.toNat_sub]
  rw [show (0x8000000000000000 : UInt64).toNat = 2 ^ 63 from rfl]
  omega

/-- C45, what the code computes: 0 whenever `floor(2^63*ccs)` is in `(2^62, 2^63]`, i.e. for `ccs` in `(1/2, 1]`, whatever `x` is. -/
theorem C45_value_partial (O : FloatOps) (x ccs : O.F) (h1 : 2 ^ 62 < (O.toUInt64 (O.mul ccs (O.lit (2 ^ 63)))).toNat)
    (h2 : (O.toUInt64 (O.mul ccs (O.lit (2 ^ 63)))).toNat ≤ 2 ^ 63) : approxexp O x ccs = 0 := by
  apply UInt64.toNat_inj.1
  unfold approxexp
  simp only
  have hy := poly_part (O.toUInt64 (O.mul x (O.lit (2 ^ 63))))
  simp only at hy
  generalize expTable.tail.foldl _ _ = y at hy ⊢
  generalize O.toUInt64 (O.mul ccs (O.lit (2 ^ 63))) = m at h1 h2 ⊢
  rw [UInt64.toNat_shiftRight, show (UInt64.toNat 63 % 64) = 63 from rfl, Nat.shiftRight_eq_div_pow, UInt64.toNat_mul,
    UInt64.toNat_shiftLeft, show (UInt64.toNat 1 % 64) = 1 from rfl, Nat.shiftLeft_eq]
  rcases hy with hy | hy
  · rw [hy]; simp; omega
  · rw [hy]
    have e : m.toNat * 2 ^ 1 % 2 ^ 64 * (2 ^ 63 - 1) % 2 ^ 64 = 2 ^ 64 - 2 * m.toNat ∨ m.toNat * 2 ^ 1 % 2 ^ 64 = 0 := by
      by_cases hm : m.toNat = 2 ^ 63
      · right; rw [hm]; decide
      · left
        rw [Nat.mod_eq_of_lt (by omega : m.toNat * 2 ^ 1 < 2 ^ 64)]
        have : m.toNat * 2 ^ 1 * (2 ^ 63 - 1) = 2 ^ 64 * (m.toNat - 1) + (2 ^ 64 - 2 * m.toNat) := by omega
        rw [this, Nat.mul_add_mod, Nat.mod_eq_of_lt (by omega)]
    rcases e with e | e
    · rw [e]; simp; omega
    · rw [e]; rfl

/-! ### C46: berexp -/

/-- Number of byte values for which `berexp` accepts. -/
def acceptCount (O : FloatOps) (x ccs : O.F) : Nat :=
  (List.range 256).countP fun b => berexp O x ccs [UInt8.ofNat b] = .ok true

/-- The shift amount of `berexp`: `int(min(floor(x*ILN2), 63))`. -/
def berShift (O : FloatOps) (x : O.F) : Int := O.toInt (goMin O (O.floor (O.mul x (ILN2 O))) (O.lit 63))

theorem byteVal (b : Nat) (hb : b < 256) : i64 ((setBytes [UInt8.ofNat b] % 2 ^ 64 : Nat) : Int) = b := by
  have : setBytes [UInt8.ofNat b] = b := by simp [setBytes]; omega
  rw [this]
  unfold i64
  rw [Int.bmod_def]
  split <;> omega

theorem berexp_eq (O : FloatOps) (x ccs : O.F) (h : 0 ≤ berShift O x) (b : Nat) (hb : b < 256) :
    berexp O x ccs [UInt8.ofNat b] = .ok (decide (berexpLoop b
      (shr64 (approxexp O (O.sub x (O.mul (O.floor (O.mul x (ILN2 O))) (LN2 O))) ccs - 1) (berShift O x).toNat) berexpShifts 0 < 0)) := by
  unfold berexp
  simp only
  rw [if_neg (by unfold berShift at h; omega), byteVal b hb]
  rfl

theorem accept_eq (O : FloatOps) (x ccs : O.F) (h : 0 ≤ berShift O x) (z : UInt64)
    (hz : shr64 (approxexp O (O.sub x (O.mul (O.floor (O.mul x (ILN2 O))) (LN2 O))) ccs - 1) (berShift O x).toNat = z) :
    acceptCount O x ccs = (List.range 256).countP fun b => berexpLoop (b : Nat) z berexpShifts 0 < 0 := by
  unfold acceptCount
  apply List.countP_congr
  intro b hb
  rw [List.mem_range] at hb
  rw [berexp_eq O x ccs h b hb, hz]
  simp

theorem accept_table : ∀ s < 64, ((List.range 256).countP fun b => berexpLoop (b : Nat) (shr64 (0 - 1) s) berexpShifts 0 < 0) =
    if s = 0 then 255 else if s < 8 then 2 ^ (8 - s) else 1 := by
  decide +kernel

theorem accept_zero : ((List.range 256).countP fun b => berexpLoop (b : Nat) 0 berexpShifts 0 < 0) = 0 := by
  decide +kernel

/-- C46, what the code computes: with `s` the shift amount (`floor(x/ln 2)` capped at 63) and `ccs` in `(1/2,1]`, the number of accepting
byte values out of 256 is 255 for `s = 0`, `2^(8-s)` for `s < 8` and 1 for larger `s`; the rest of the information in `x` is lost. -/
theorem C46_count_partial (O : FloatOps) (x ccs : O.F) (h0 : 0 ≤ berShift O x) (h64 : berShift O x < 64)
    (h1 : 2 ^ 62 < (O.toUInt64 (O.mul ccs (O.lit (2 ^ 63)))).toNat)
    (h2 : (O.toUInt64 (O.mul ccs (O.lit (2 ^ 63)))).toNat ≤ 2 ^ 63) :
    acceptCount O x ccs = if berShift O x = 0 then 255 else if berShift O x < 8 then 2 ^ (8 - (berShift O x).toNat) else 1 := by
  rw [accept_eq O x ccs h0 _ rfl, C45_value_partial O _ ccs h1 h2, accept_table _ (by omega)]
  have e1 : ((berShift O x).toNat = 0) ↔ berShift O x = 0 := by omega
  have e2 : ((berShift O x).toNat < 8) ↔ berShift O x < 8 := by omega
  simp only [e1, e2]

/-- C46 is violated for large `x`: with a shift amount of at least 9 the code accepts with probability exactly `1/256`, at least twice
the `ccs*exp(-x) < 2^-s` asked for (and `2^55` times too often for `s = 63`). -/
theorem C46_violated_tail (O : FloatOps) (x ccs : O.F) (h0 : 9 ≤ berShift O x) (h64 : berShift O x < 64)
    (h1 : 2 ^ 62 < (O.toUInt64 (O.mul ccs (O.lit (2 ^ 63)))).toNat)
    (h2 : (O.toUInt64 (O.mul ccs (O.lit (2 ^ 63)))).toNat ≤ 2 ^ 63) :
    acceptCount O x ccs = 1 ∧ (2 : ℚ) * (1 / 2 ^ (berShift O x).toNat) ≤ acceptCount O x ccs / 256 := by
  have h := C46_count_partial O x ccs (by omega) h64 h1 h2
  rw [if_neg (by omega), if_neg (by omega)] at h
  refine ⟨h, ?_⟩
  rw [h]
  obtain ⟨j, hj⟩ : ∃ j, (berShift O x).toNat = j + 9 := ⟨(berShift O x).toNat - 9, by omega⟩
  rw [hj, pow_add]
  have : (1 : ℚ) ≤ 2 ^ j := one_le_pow₀ (by norm_num)
  rw [mul_one_div, div_le_div_iff₀ (by positivity) (by norm_num)]
  push_cast
  nlinarith

/-- C46: the complete case distinction on the result of `approxexp`: if it is 1, nothing is ever accepted. -/
theorem C46_one_partial (O : FloatOps) (x ccs : O.F) (h0 : 0 ≤ berShift O x)
    (he : approxexp O (O.sub x (O.mul (O.floor (O.mul x (ILN2 O))) (LN2 O))) ccs = 1) : acceptCount O x ccs = 0 := by
  have hz : shr64 (1 - 1) (berShift O x).toNat = 0 := by
    unfold shr64
    split
    · simp
    · rfl
  rw [accept_eq O x ccs h0 0 (by rw [he]; exact hz), accept_zero]

/-- C46: a negative shift amount panics. -/
theorem C46_negative (O : FloatOps) (x ccs : O.F) (b : List UInt8) : berexp O x ccs b = .panic ↔ berShift O x < 0 := by
  unfold berexp berShift
  simp only
  split <;> simp_all

/-- The hypotheses of C46 are met, e.g. with exact rational arithmetic, `ccs = 99/100` and `x = 7` (where `exp(-7)*256 < 1/4`). -/
example : berShift ratOps (7 : ℚ) = 10 ∧ acceptCount ratOps (7 : ℚ) (99 / 100 : ℚ) = 1 := by decide +kernel
example : acceptCount ratOps (0 : ℚ) (99 / 100 : ℚ) = 255 ∧ acceptCount ratOps (1 : ℚ) (99 / 100 : ℚ) = 128 := by decide +kernel
example : approxexp ratOps (0 : ℚ) (1 : ℚ) = 0 := by decide +kernel
example : berexp ratOps (-1 : ℚ) (1 : ℚ) [0] = .panic := by decide +kernel

/-! ### C47: Samplerz -/

/-- C47: every value returned is `floor(mu) + z` with `-18 ≤ z ≤ 19`, reduced to `int8`. -/
theorem C47_samplerz (O : FloatOps) (hO : ExactInts O) (rand : Rand) (mu sigma sigmin : O.F) (fuel pos : Nat) (v : Int8) (pos' : Nat)
    (h : Samplerz O rand mu sigma sigmin fuel pos = .ok (v, pos')) :
    pos < pos' ∧ ∃ z : Int, -18 ≤ z ∧ z ≤ 19 ∧ v = Int8.ofInt (O.toInt (O.floor mu) + z) := by
  induction fuel generalizing pos with
  | zero => simp [Samplerz] at h
  | succ fuel ih =>
    rw [Samplerz] at h
    cases hr : rand pos with
    | none => simp [hr] at h
    | some rb =>
      simp only [hr] at h
      obtain ⟨acc, _, h⟩ := Go.bind_eq_ok.1 h
      cases acc with
      | true =>
        simp only [if_true, Go.pure_eq, Go.ok.injEq, Prod.mk.injEq] at h
        obtain ⟨hv, hp⟩ := h
        refine ⟨by omega, ?_⟩
        have hz0 := C44_range (splitRandBytes rb).1
        have hb : setBytes (splitRandBytes rb).2.1 % 2 = 0 ∨ setBytes (splitRandBytes rb).2.1 % 2 = 1 := by omega
        generalize BaseSampler (splitRandBytes rb).1 = z0 at hz0 hv
        refine ⟨((setBytes (splitRandBytes rb).2.1 % 2 : Nat) + (2 * (setBytes (splitRandBytes rb).2.1 % 2 : Nat) - 1) * z0 : Int), ?_⟩
        rcases hb with hb | hb <;> rw [hb] at hv ⊢ <;> refine ⟨by push_cast; omega, by push_cast; omega, ?_⟩ <;>
          rw [← hv, (hO _ (by push_cast; omega) (by push_cast; omega)).1]
      | false =>
        simp only [Bool.false_eq_true, if_false] at h
        obtain ⟨h1, h2⟩ := ih (pos + 1) h
        exact ⟨by omega, h2⟩

/-- C47: for a centre that is a small integer the result is within `[-18,19]` of it, without truncation. -/
theorem C47_integer_centre (O : FloatOps) (hO : ExactInts O) (rand : Rand) (m : Int) (hm : -110 ≤ m ∧ m ≤ 108) (sigma sigmin : O.F)
    (fuel pos : Nat) (v : Int8) (pos' : Nat) (h : Samplerz O rand (O.ofInt m) sigma sigmin fuel pos = .ok (v, pos')) :
    m - 18 ≤ v.toInt ∧ v.toInt ≤ m + 19 := by
  obtain ⟨_, z, h1, h2, rfl⟩ := C47_samplerz O hO rand _ sigma sigmin fuel pos v pos' h
  rw [(hO m (by omega) (by omega)).2, Int8.toInt_ofInt_of_le (by omega) (by omega)]
  omega

/-- C47 with centre 0, as in key generation. -/
theorem C47_centre_zero (O : FloatOps) (hO : ExactInts O) (rand : Rand) (sigma sigmin : O.F) (fuel pos : Nat) (v : Int8) (pos' : Nat)
    (h : Samplerz O rand (O.ofInt 0) sigma sigmin fuel pos = .ok (v, pos')) : -18 ≤ v.toInt ∧ v.toInt ≤ 19 := by
  simpa using C47_integer_centre O hO rand 0 (by omega) sigma sigmin fuel pos v pos' h

/-- C47: beyond that range the truncation to `int8` loses the value: centre 127 and `z = 1` give -128. -/
theorem C47_truncation : Int8.ofInt (127 + 1) = -128 := by decide

/-- A run of the sampler: the all-zero draw gives `z0 = 18`, `b = 0`, hence -18, and is accepted. -/
example : Samplerz ratOps (fun _ => some fun _ => 0) (0 : ℚ) (1.43300980528773 : ℚ) (1.432 : ℚ) 1 5 = .ok (-18, 6) := by decide +kernel
/-- A run in which the first draw is rejected. -/
example : Samplerz ratOps (fun i => some fun j => if i = 5 then 255 else if j = 9 then 1 else 0)
    (3 : ℚ) (1.43300980528773 : ℚ) (1.432 : ℚ) 2 5 = .ok (22, 7) := by decide +kernel

/-! ### C48: GenPoly -/

theorem genSamples_ok (O : FloatOps) (hO : ExactInts O) (rand : Rand) (fuel m pos : Nat) (l : List Int8) (pos' : Nat)
    (h : genSamples O rand fuel m pos = .ok (l, pos')) : l.length = m ∧ ∀ v ∈ l, -18 ≤ v.toInt ∧ v.toInt ≤ 19 := by
  induction m generalizing pos l with
  | zero => simp [genSamples] at h; simp [h.1]
  | succ m ih =>
    rw [genSamples] at h
    obtain ⟨⟨v, p⟩, h1, h⟩ := Go.bind_eq_ok.1 h
    obtain ⟨⟨vs, p'⟩, h2, h⟩ := Go.bind_eq_ok.1 h
    simp only [Go.pure_eq, Go.ok.injEq, Prod.mk.injEq] at h
    obtain ⟨rfl, rfl⟩ := h
    obtain ⟨i1, i2⟩ := ih _ _ h2
    refine ⟨by simp [i1], ?_⟩
    intro w hw
    rcases List.mem_cons.1 hw with rfl | hw
    · exact C47_centre_zero O hO rand _ _ fuel pos _ p h1
    · exact i2 w hw

theorem sumBlock_ok (f0 : List Int8) (m start : Nat) (acc : Int) (h : start + m ≤ f0.length) :
    sumBlock f0 start m acc = .ok (acc + (((f0.drop start).take m).map Int8.toInt).sum) := by
  induction m generalizing start acc with
  | zero => simp [sumBlock]
  | succ m ih =>
    have hi : start < f0.length := by omega
    have e : idx f0 start = .ok f0[start] := by simp [idx, hi]
    rw [sumBlock, e, Go.ok_bind, ih _ _ (by omega), List.drop_eq_getElem_cons hi, List.take_succ_cons]
    simp [add_assoc]

theorem sumBlocks_ok (f0 : List Int8) (k m i : Nat) (h : (i + m) * k ≤ f0.length) :
    ∃ r, sumBlocks f0 k m i = .ok r ∧ r.length = m ∧ ∀ j, j < m →
      r[j]? = some (Int16.ofInt (((f0.drop ((i + j) * k)).take k).map Int8.toInt).sum) := by
  induction m generalizing i with
  | zero => exact ⟨[], rfl, rfl, by simp⟩
  | succ m ih =>
    have e1 : (i + (m + 1)) * k = i * k + (m * k + k) := by ring
    obtain ⟨r, h1, h2, h3⟩ := ih (i + 1) (by rw [show i + 1 + m = i + (m + 1) by omega]; exact h)
    have hk : i * k + k ≤ f0.length := by
      have : 0 ≤ m * k := Nat.zero_le _
      omega
    rw [sumBlocks, sumBlock_ok f0 k (i * k) 0 hk, Go.ok_bind, h1, Go.ok_bind]
    refine ⟨_, rfl, by simp [h2], ?_⟩
    intro j hj
    cases j with
    | zero => simp
    | succ j =>
      rw [List.getElem?_cons_succ, h3 j (by omega), show i + 1 + j = i + (j + 1) by omega]

theorem sum_bounds (l : List Int) (lo hi : Int) (h : ∀ v ∈ l, lo ≤ v ∧ v ≤ hi) : lo * l.length ≤ l.sum ∧ l.sum ≤ hi * l.length := by
  induction l with
  | nil => simp
  | cons a l ih =>
    obtain ⟨h1, h2⟩ := ih fun v hv => h v (List.mem_cons_of_mem _ hv)
    obtain ⟨h3, h4⟩ := h a List.mem_cons_self
    simp only [List.sum_cons, List.length_cons]
    push_cast
    constructor <;> nlinarith

/-- C48: for `n ≥ 3` every coefficient of `GenPoly(n)` is the exact integer sum of `k = floor(4096/n)` consecutive samples in
`[-18,19]`, hence of absolute value at most `19*k`; there is no overflow. -/
theorem C48_genPoly (O : FloatOps) (hO : ExactInts O) (rand : Rand) (fuel : Nat) (n : UInt16) (h3 : 3 ≤ n.toNat)
    (pos : Nat) (f : List Int16) (pos' : Nat) (h : GenPoly O rand fuel n pos = .ok (f, pos')) :
    f.length = n.toNat ∧ ∃ f0 : List Int8, genSamples O rand fuel 4096 pos = .ok (f0, pos') ∧ f0.length = 4096 ∧
      ∀ i, i < n.toNat → ∃ c, f[i]? = some c ∧
        c.toInt = (((f0.drop (i * (4096 / n.toNat))).take (4096 / n.toNat)).map Int8.toInt).sum ∧
        |c.toInt| ≤ 19 * (4096 / n.toNat : Nat) := by
  unfold GenPoly at h
  split at h
  · simp at h
  · obtain ⟨⟨f0, p⟩, h1, h⟩ := Go.bind_eq_ok.1 h
    obtain ⟨l0, b0⟩ := genSamples_ok O hO rand fuel 4096 pos f0 p h1
    have hk : n.toNat * (4096 / n.toNat) ≤ 4096 := Nat.mul_div_le 4096 n.toNat
    obtain ⟨r, e, lr, hr⟩ := sumBlocks_ok f0 (4096 / n.toNat) n.toNat 0 (by rw [Nat.zero_add, l0]; exact hk)
    simp only [e, Go.ok_bind, Go.pure_eq, Go.ok.injEq, Prod.mk.injEq] at h
    obtain ⟨rfl, rfl⟩ := h
    refine ⟨lr, f0, h1, l0, ?_⟩
    intro i hi
    have hk2 : 4096 / n.toNat ≤ 4096 / 3 := Nat.div_le_div_left h3 (by decide)
    generalize hkk : 4096 / n.toNat = k at *
    have hb := sum_bounds (((f0.drop (i * k)).take k).map Int8.toInt) (-18) 19 (by
      intro v hv
      obtain ⟨w, hw, rfl⟩ := List.mem_map.1 hv
      exact b0 w (List.mem_of_mem_drop (List.mem_of_mem_take hw)))
    have hlen : ((((f0.drop (i * k)).take k).map Int8.toInt).length : Int) ≤ k := by
      rw [List.length_map, List.length_take]
      exact_mod_cast Nat.min_le_left _ _
    have hk3 : (k : Int) ≤ 1365 := by exact_mod_cast hk2
    refine ⟨_, hr i hi, ?_, ?_⟩
    · rw [Nat.zero_add, Int16.toInt_ofInt_of_le (by omega) (by omega)]
    · rw [Nat.zero_add, Int16.toInt_ofInt_of_le (by omega) (by omega), abs_le]
      omega

theorem sumBlocks_replicate (k : Nat) (v : Int8) :
    sumBlocks (List.replicate (2 * k) v) k 2 0 = .ok [Int16.ofInt (k * v.toInt), Int16.ofInt (k * v.toInt)] := by
  have e : ∀ start, start + k ≤ 2 * k → sumBlock (List.replicate (2 * k) v) start k 0 = .ok (k * v.toInt) := by
    intro start h
    rw [sumBlock_ok _ _ _ _ (by rw [List.length_replicate]; exact h), List.drop_replicate, List.take_replicate, List.map_replicate,
      List.sum_replicate, Nat.min_eq_left (by omega)]
    simp
  rw [sumBlocks, e _ (by omega), Go.ok_bind, sumBlocks, e _ (by omega)]
  rfl

/-- C48: for `n = 2`, a supported degree, the bound on `n` is needed: sums of 2048 samples can leave the `int16` range. -/
theorem C48_overflow_n2 : sumBlocks (List.replicate 4096 19) 2048 2 0 = .ok [-26624, -26624] ∧ (2048 * 19 : Int) = 38912 := by
  refine ⟨?_, by decide⟩
  have := sumBlocks_replicate 2048 19
  exact this

/-- C48: `GenPoly` panics at once for `n > 4096`. -/
theorem C48_large (O : FloatOps) (rand : Rand) (fuel : Nat) (n : UInt16) (hn : 4096 < n.toNat) (pos : Nat) :
    GenPoly O rand fuel n pos = .panic := by
  unfold GenPoly
  rw [if_pos]
  exact UInt16.lt_iff_toNat_lt.2 hn

/-- C48: for `n ≤ 4096` the summation itself never panics: a panic can only come from the sampler. -/
theorem C48_no_panic (O : FloatOps) (hO : ExactInts O) (rand : Rand) (fuel : Nat) (n : UInt16) (hn : n.toNat ≤ 4096) (pos : Nat)
    (f0 : List Int8) (pos' : Nat) (h : genSamples O rand fuel 4096 pos = .ok (f0, pos')) :
    ∃ f, GenPoly O rand fuel n pos = .ok (f, pos') ∧ f.length = n.toNat := by
  obtain ⟨l0, _⟩ := genSamples_ok O hO rand fuel 4096 pos f0 pos' h
  obtain ⟨r, e, lr, _⟩ := sumBlocks_ok f0 (4096 / n.toNat) n.toNat 0 (by rw [Nat.zero_add, l0]; exact Nat.mul_div_le 4096 n.toNat)
  unfold GenPoly
  rw [if_neg (by rw [gt_iff_lt, UInt16.lt_iff_toNat_lt]; exact Nat.not_lt.2 hn), h, Go.ok_bind]
  simp only [e, Go.ok_bind]
  exact ⟨r, rfl, lr⟩

end Falcon
