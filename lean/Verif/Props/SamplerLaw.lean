import Verif.Props.Samplerz
import Verif.Props.NoPanic
import Mathlib.Data.Set.Card.Arithmetic
import Mathlib.Analysis.SpecificLimits.Basic
import Verif.Lemmas.HomRat
import Verif.Lemmas.Ieee
import Mathlib.Data.Set.Card
import Mathlib.SetTheory.Cardinal.Finite
import Mathlib.Data.Set.Finite.List
import Mathlib.Data.List.GetD
/-!
# The law of the integer sampler (C60)

Probabilities are counted: the random source delivers 11 independent uniform bytes per iteration, so the probability of an event that depends
on `k` iterations is the number of sequences of `k` draws in the event, divided by `2^(88 k)`.
-/

namespace Falcon
open Spec

/-- One draw of the random source. -/
abbrev Draw := Fin 11 → UInt8

/-- A source delivering the draws of `d` and failing afterwards. -/
def source {k : Nat} (d : Fin k → Draw) : Rand := fun i => if h : i < k then some (d ⟨i, h⟩) else none

/-- The draws on which one iteration of the sampler accepts and returns `v`. -/
def hits (O : FloatOps) (mu sigma sigmin : O.F) (v : Int8) : Set Draw :=
  {d | Samplerz O (fun _ => some d) mu sigma sigmin 1 0 = .ok (v, 1)}

/-- The draws which one iteration of the sampler rejects. -/
def misses (O : FloatOps) (mu sigma sigmin : O.F) : Set Draw :=
  {d | Samplerz O (fun _ => some d) mu sigma sigmin 1 0 = .diverge}

/-- The sequences of `k` draws on which the sampler returns `v` within `k` iterations. -/
def returns (O : FloatOps) (mu sigma sigmin : O.F) (k : Nat) (v : Int8) : Set (Fin k → Draw) :=
  {d | ∃ p, Samplerz O (source d) mu sigma sigmin k 0 = .ok (v, p)}

/-! ### One iteration and several -/

/-- The exponent computed in one iteration. -/
def sampleExponent (O : FloatOps) (mu sigma : O.F) (b z0 : Nat) : O.F :=
  O.sub (O.mul (O.pow2 (O.sub (O.ofInt ((b : Int) + (2 * (b : Int) - 1) * (z0 : Int))) (O.sub mu (O.ofInt (O.toInt (O.floor mu))))))
    (O.div (O.lit 1) (O.mul (O.mul (O.lit 2) sigma) sigma))) (O.mul (O.pow2 (O.ofInt (z0 : Int))) (inv2sigma2 O))

/-- The result of an accepted iteration. -/
def sampleValue (O : FloatOps) (mu : O.F) (b z0 : Nat) : Int8 :=
  Int8.ofInt (O.toInt (O.floor mu) + O.toInt (O.ofInt ((b : Int) + (2 * (b : Int) - 1) * (z0 : Int))))

theorem Samplerz_step (O : FloatOps) (rand : Rand) (mu sigma sigmin : O.F) (fuel pos : Nat) (d : Draw) (h : rand pos = some d) :
    Samplerz O rand mu sigma sigmin (fuel + 1) pos = (do
      if ← berexp O (sampleExponent O mu sigma ((d 9).toNat % 2) (BaseSampler (splitRandBytes d).1)) (O.div sigmin sigma) [d 10] then
        pure (sampleValue O mu ((d 9).toNat % 2) (BaseSampler (splitRandBytes d).1), pos + 1)
      else Samplerz O rand mu sigma sigmin fuel (pos + 1)) := by
  rw [Samplerz, h]
  have : setBytes (splitRandBytes d).2.1 % 2 = (d 9).toNat % 2 := by simp [splitRandBytes, setBytes]
  simp only [this]
  rfl

theorem mem_hits (O : FloatOps) (mu sigma sigmin : O.F) (v : Int8) (d : Draw) : d ∈ hits O mu sigma sigmin v ↔
    berexp O (sampleExponent O mu sigma ((d 9).toNat % 2) (BaseSampler (splitRandBytes d).1)) (O.div sigmin sigma) [d 10] = .ok true ∧
      sampleValue O mu ((d 9).toNat % 2) (BaseSampler (splitRandBytes d).1) = v := by
  unfold hits
  rw [Set.mem_ofPred_eq, Samplerz_step O _ mu sigma sigmin 0 0 d rfl]
  rcases berexp O _ _ _ with b | _ | _
  · cases b <;> simp [Samplerz]
  · simp
  · simp

theorem mem_misses (O : FloatOps) (mu sigma sigmin : O.F) (d : Draw) : d ∈ misses O mu sigma sigmin ↔
    berexp O (sampleExponent O mu sigma ((d 9).toNat % 2) (BaseSampler (splitRandBytes d).1)) (O.div sigmin sigma) [d 10] = .ok false := by
  unfold misses
  rw [Set.mem_ofPred_eq, Samplerz_step O _ mu sigma sigmin 0 0 d rfl]
  have nd : berexp O (sampleExponent O mu sigma ((d 9).toNat % 2) (BaseSampler (splitRandBytes d).1)) (O.div sigmin sigma) [d 10] ≠
      .diverge := by
    unfold berexp
    simp only
    split <;> simp
  generalize berexp O _ _ _ = r at nd ⊢
  rcases r with b | _ | _
  · cases b <;> simp [Samplerz]
  · simp
  · exact absurd rfl nd

theorem Samplerz_shift (O : FloatOps) (rand : Rand) (mu sigma sigmin : O.F) (fuel pos : Nat) (v : Int8) :
    (∃ p, Samplerz O rand mu sigma sigmin fuel (pos + 1) = .ok (v, p)) ↔
    ∃ p, Samplerz O (fun i => rand (i + 1)) mu sigma sigmin fuel pos = .ok (v, p) := by
  induction fuel generalizing pos with
  | zero => simp [Samplerz]
  | succ fuel ih =>
    cases hr : rand (pos + 1) with
    | none =>
      rw [Samplerz, Samplerz]
      simp [hr]
    | some d =>
      rw [Samplerz_step O rand mu sigma sigmin fuel (pos + 1) d hr,
        Samplerz_step O (fun i => rand (i + 1)) mu sigma sigmin fuel pos d hr]
      rcases berexp O _ _ _ with b | _ | _
      · cases b
        · simp only [Go.ok_bind, Bool.false_eq_true, if_false]
          exact ih (pos + 1)
        · simp
      · simp
      · simp

theorem mem_returns_succ (O : FloatOps) (mu sigma sigmin : O.F) (k : Nat) (v : Int8) (d : Fin (k + 1) → Draw) :
    d ∈ returns O mu sigma sigmin (k + 1) v ↔ d 0 ∈ hits O mu sigma sigmin v ∨
      (d 0 ∈ misses O mu sigma sigmin ∧ Fin.tail d ∈ returns O mu sigma sigmin k v) := by
  have h0 : source d 0 = some (d 0) := by simp [source]
  have hs : (fun i => source d (i + 1)) = source (Fin.tail d) := by
    funext i
    unfold source
    by_cases h : i < k
    · rw [dif_pos (by omega), dif_pos h]; rfl
    · rw [dif_neg (by omega), dif_neg h]
  rw [mem_hits, mem_misses]
  unfold returns
  rw [Set.mem_ofPred_eq, Set.mem_ofPred_eq, Samplerz_step O _ mu sigma sigmin k 0 (d 0) h0]
  rcases berexp O _ _ _ with b | _ | _
  · cases b
    · simp only [Go.ok_bind, Bool.false_eq_true, if_false, Go.ok.injEq, false_and, false_or, true_and]
      rw [Samplerz_shift, hs]
    · simp
  · simp
  · simp

instance : Finite UInt8 := Finite.of_injective (fun x : UInt8 => x.toFin) (fun a b h => UInt8.toFin_inj.1 h)

theorem returns_succ (O : FloatOps) (mu sigma sigmin : O.F) (k : Nat) (v : Int8) :
    (returns O mu sigma sigmin (k + 1) v).ncard = (hits O mu sigma sigmin v).ncard * Nat.card Draw ^ k +
      (misses O mu sigma sigmin).ncard * (returns O mu sigma sigmin k v).ncard := by
  have e : returns O mu sigma sigmin (k + 1) v = (Fin.consEquiv fun _ => Draw) ''
      ((hits O mu sigma sigmin v ×ˢ Set.univ) ∪ (misses O mu sigma sigmin ×ˢ returns O mu sigma sigmin k v)) := by
    ext d
    rw [mem_returns_succ, Equiv.image_eq_preimage_symm]
    simp [Fin.consEquiv]
  have dj : Disjoint (hits O mu sigma sigmin v ×ˢ (Set.univ : Set (Fin k → Draw))) (misses O mu sigma sigmin ×ˢ returns O mu sigma sigmin k v) := by
    rw [Set.disjoint_left]
    rintro ⟨d, ds⟩ h1 h2
    have a := ((mem_hits O mu sigma sigmin v d).1 h1.1).1
    have b := (mem_misses O mu sigma sigmin d).1 h2.1
    rw [a] at b
    simp at b
  rw [e, Set.ncard_image_of_injective _ (Equiv.injective _), Set.ncard_union_eq dj (Set.toFinite _) (Set.toFinite _), Set.ncard_prod,
    Set.ncard_prod, Set.ncard_univ, Nat.card_fun, Nat.card_fin]

theorem card_uint8 : Nat.card UInt8 = 256 := by
  rw [Nat.card_congr ⟨fun x : UInt8 => x.toFin, fun x => UInt8.ofFin x, fun x => by simp, fun x => by simp⟩]
  simp

theorem card_draw : Nat.card Draw = 2 ^ 88 := by
  rw [Nat.card_fun, card_uint8, Nat.card_fin]
  norm_num

/-- C60: the law of the sampler. For all parameters and operations, the number of sequences of `k` draws on which the sampler returns `v` within
`k` iterations is the number of single draws that return `v` times a factor that does not depend on `v`: the outputs are distributed in
proportion to `hits`. -/
theorem C60_law (O : FloatOps) (mu sigma sigmin : O.F) (k : Nat) (v : Int8) :
    (returns O mu sigma sigmin k v).ncard = (hits O mu sigma sigmin v).ncard *
      ∑ j ∈ Finset.range k, (misses O mu sigma sigmin).ncard ^ j * (2 ^ 88) ^ (k - 1 - j) := by
  induction k with
  | zero =>
    have : returns O mu sigma sigmin 0 v = ∅ := by
      ext d
      simp [returns, Samplerz]
    simp [this]
  | succ k ih =>
    rw [returns_succ, ih, card_draw, Finset.sum_range_succ', mul_add, pow_zero, one_mul, Nat.add_sub_cancel, Nat.sub_zero, add_comm,
      mul_left_comm, Finset.mul_sum]
    congr 2
    apply Finset.sum_congr rfl
    intro j _
    rw [pow_succ, show k - (j + 1) = k - 1 - j by omega]
    ring

/-! ### The number of hits -/

/-- Out of the `2^72` strings of 9 bytes, the number on which the base sampler returns `z`: difference of neighbouring table entries. -/
def baseCount (z : Nat) : Nat := (2 ^ 72 :: RCDT).getD z 0 - RCDT.getD z 0

theorem ncard_le (z : Nat) (hz : z ≤ 19) : {b : List UInt8 | b.length = 9 ∧ z ≤ BaseSampler b}.ncard = (2 ^ 72 :: RCDT).getD z 0 := by
  rcases Nat.eq_zero_or_pos z with rfl | h0
  · have e : {b : List UInt8 | b.length = 9 ∧ 0 ≤ BaseSampler b} = {b : List UInt8 | b.length = 9} := by ext; simp
    rw [e, ← Set.InjOn.ncard_image (f := setBytes)]
    · have : setBytes '' {b : List UInt8 | b.length = 9} = ↑(Finset.range (2 ^ 72)) := by
        ext u
        simp only [Set.mem_image, Set.mem_ofPred_eq, Finset.coe_range, Set.mem_Iio]
        constructor
        · rintro ⟨b, h, rfl⟩
          have := setBytes_lt b
          rw [h] at this
          exact lt_of_lt_of_eq this (by norm_num)
        · intro hu
          exact setBytes_surj 9 u (lt_of_lt_of_eq hu (by norm_num))
      rw [this, Set.ncard_coe_finset, Finset.card_range]
      rfl
    · rintro a ha b hb h
      exact setBytes_inj a b (ha.trans hb.symm) h
  · obtain ⟨k, rfl⟩ : ∃ k, z = k + 1 := ⟨z - 1, by omega⟩
    rcases Nat.lt_or_ge k 18 with hk | hk
    · rw [C44_count k hk, List.getD_cons_succ, List.getD_eq_getElem _ _ (by rw [RCDT_length]; exact hk)]
    · have : {b : List UInt8 | b.length = 9 ∧ k + 1 ≤ BaseSampler b} = ∅ := by
        ext b
        have := C44_range b
        simp only [Set.mem_ofPred_eq, Set.mem_empty_iff_false, iff_false]
        omega
      rw [this, Set.ncard_empty, List.getD_cons_succ, List.getD_eq_default _ _ (by rw [RCDT_length]; exact hk)]

theorem finite_len (n : Nat) : {b : List UInt8 | b.length = n}.Finite := List.finite_length_eq UInt8 n

theorem base_ncard (z : Nat) (hz : z ≤ 18) : {b : List UInt8 | b.length = 9 ∧ BaseSampler b = z}.ncard = baseCount z := by
  have e : {b : List UInt8 | b.length = 9 ∧ BaseSampler b = z} =
      {b : List UInt8 | b.length = 9 ∧ z ≤ BaseSampler b} \ {b : List UInt8 | b.length = 9 ∧ z + 1 ≤ BaseSampler b} := by
    ext b
    simp only [Set.mem_ofPred_eq, Set.mem_sdiff]
    constructor
    · rintro ⟨h1, h2⟩; exact ⟨⟨h1, by omega⟩, by omega⟩
    · rintro ⟨⟨h1, h2⟩, h3⟩; exact ⟨h1, by by_contra h; exact h3 ⟨h1, by omega⟩⟩
  have hf : {b : List UInt8 | b.length = 9 ∧ z + 1 ≤ BaseSampler b}.Finite := (finite_len 9).subset (fun b h => h.1)
  have hsub : {b : List UInt8 | b.length = 9 ∧ z + 1 ≤ BaseSampler b} ⊆ {b : List UInt8 | b.length = 9 ∧ z ≤ BaseSampler b} :=
    fun b h => ⟨h.1, Nat.le_of_succ_le h.2⟩
  rw [e, Set.ncard_sdiff hsub hf, ncard_le z (by omega), ncard_le (z + 1) (by omega)]
  rfl

theorem accept_ncard (O : FloatOps) (x ccs : O.F) : {t : UInt8 | berexp O x ccs [t] = .ok true}.ncard = acceptCount O x ccs := by
  unfold acceptCount
  have e : {t : UInt8 | berexp O x ccs [t] = .ok true} =
      UInt8.ofNat '' (((Finset.range 256).filter fun b => berexp O x ccs [UInt8.ofNat b] = .ok true : Finset Nat) : Set Nat) := by
    ext t
    simp only [Set.mem_ofPred_eq, Set.mem_image, Finset.coe_filter, Finset.mem_range]
    constructor
    · intro h
      exact ⟨t.toNat, ⟨t.toNat_lt, by simpa using h⟩, by simp⟩
    · rintro ⟨b, ⟨-, h⟩, rfl⟩; exact h
  rw [e, Set.InjOn.ncard_image, Set.ncard_coe_finset]
  · rw [List.countP_eq_length_filter]
    rfl
  · intro a ha b hb h
    simp only [Finset.coe_filter, Finset.mem_range, Set.mem_ofPred_eq] at ha hb
    have := congrArg UInt8.toNat h
    simp only [UInt8.toNat_ofNat'] at this
    omega

theorem parity_ncard (b : Nat) (hb : b ≤ 1) : {t : UInt8 | t.toNat % 2 = b}.ncard = 128 := by
  have e : {t : UInt8 | t.toNat % 2 = b} =
      UInt8.ofNat '' (((Finset.range 256).filter fun t => t % 2 = b : Finset Nat) : Set Nat) := by
    ext t
    simp only [Set.mem_ofPred_eq, Set.mem_image, Finset.coe_filter, Finset.mem_range]
    constructor
    · intro h
      exact ⟨t.toNat, ⟨t.toNat_lt, h⟩, by simp⟩
    · rintro ⟨c, ⟨h, h'⟩, rfl⟩
      simp only [UInt8.toNat_ofNat']
      omega
  rw [e, Set.InjOn.ncard_image, Set.ncard_coe_finset]
  · interval_cases b <;> decide +kernel
  · intro a ha b hb h
    simp only [Finset.coe_filter, Finset.mem_range, Set.mem_ofPred_eq] at ha hb
    have := congrArg UInt8.toNat h
    simp only [UInt8.toNat_ofNat'] at this
    omega

theorem draw_inj : Function.Injective (fun d : Draw => ((splitRandBytes d).1, d 9, d 10)) := by
  intro d d' h
  simp only [splitRandBytes, Prod.mk.injEq, List.cons.injEq] at h
  obtain ⟨⟨h0, h1, h2, h3, h4, h5, h6, h7, h8, -⟩, h9, h10⟩ := h
  funext i
  fin_cases i
  exacts [h0, h1, h2, h3, h4, h5, h6, h7, h8, h9, h10]

/-- C60: the number of draws on which one iteration returns `floor(mu) + b + (2b-1) z0`: the weight of `z0` in the base sampler, times 128 bytes
with lowest bit `b`, times the number of accepting bytes. -/
theorem C60_hits (O : FloatOps) (hO : ExactInts O) (mu sigma sigmin : O.F) (b z0 : Nat) (hb : b ≤ 1) (hz : z0 ≤ 18) :
    (hits O mu sigma sigmin (Int8.ofInt (O.toInt (O.floor mu) + ((b : Int) + (2 * b - 1) * z0)))).ncard =
      baseCount z0 * (128 * acceptCount O (sampleExponent O mu sigma b z0) (O.div sigmin sigma)) := by
  have val : ∀ b z0 : Nat, b ≤ 1 → z0 ≤ 18 → sampleValue O mu b z0 = Int8.ofInt (O.toInt (O.floor mu) + ((b : Int) + (2 * b - 1) * z0)) := by
    intro b z0 hb hz
    unfold sampleValue
    rw [(hO _ (by rcases (by omega : b = 0 ∨ b = 1) with rfl | rfl <;> push_cast <;> omega)
      (by rcases (by omega : b = 0 ∨ b = 1) with rfl | rfl <;> push_cast <;> omega)).1]
  have inj : ∀ b' z0' : Nat, b' ≤ 1 → z0' ≤ 18 → Int8.ofInt (O.toInt (O.floor mu) + ((b' : Int) + (2 * b' - 1) * z0')) =
      Int8.ofInt (O.toInt (O.floor mu) + ((b : Int) + (2 * b - 1) * z0)) → b' = b ∧ z0' = z0 := by
    intro b' z0' hb' hz' h
    have := congrArg Int8.toInt h
    simp only [Int8.toInt_ofInt, show Int8.size = 256 from rfl] at this
    rcases (by omega : b = 0 ∨ b = 1) with rfl | rfl <;> rcases (by omega : b' = 0 ∨ b' = 1) with rfl | rfl <;> push_cast at this <;>
      simp only [Int.bmod_def] at this <;> split at this <;> split at this <;> omega
  have e : (fun d : Draw => ((splitRandBytes d).1, d 9, d 10)) '' (hits O mu sigma sigmin
      (Int8.ofInt (O.toInt (O.floor mu) + ((b : Int) + (2 * b - 1) * z0)))) =
      {l : List UInt8 | l.length = 9 ∧ BaseSampler l = z0} ×ˢ ({t : UInt8 | t.toNat % 2 = b} ×ˢ
        {t : UInt8 | berexp O (sampleExponent O mu sigma b z0) (O.div sigmin sigma) [t] = .ok true}) := by
    ext ⟨l, s, t⟩
    simp only [Set.mem_image, Prod.mk.injEq, Set.mem_prod, Set.mem_ofPred_eq]
    constructor
    · rintro ⟨d, h, rfl, rfl, rfl⟩
      obtain ⟨h1, h2⟩ := (mem_hits O mu sigma sigmin _ d).1 h
      rw [val _ _ (by omega) (C44_range _)] at h2
      obtain ⟨e1, e2⟩ := inj _ _ (by omega) (C44_range _) h2
      rw [e1, e2] at h1
      exact ⟨⟨rfl, e2⟩, e1, h1⟩
    · rintro ⟨⟨hl, h1⟩, h2, h3⟩
      match l, hl with
      | [a0, a1, a2, a3, a4, a5, a6, a7, a8], _ =>
        refine ⟨![a0, a1, a2, a3, a4, a5, a6, a7, a8, s, t], ?_, rfl, rfl, rfl⟩
        rw [mem_hits]
        have hs : (splitRandBytes ![a0, a1, a2, a3, a4, a5, a6, a7, a8, s, t]).1 = [a0, a1, a2, a3, a4, a5, a6, a7, a8] := rfl
        have h9 : (![a0, a1, a2, a3, a4, a5, a6, a7, a8, s, t] : Draw) 9 = s := rfl
        have h10 : (![a0, a1, a2, a3, a4, a5, a6, a7, a8, s, t] : Draw) 10 = t := rfl
        rw [hs, h9, h10, h1, h2]
        exact ⟨h3, val b z0 hb hz⟩
  rw [← Set.ncard_image_of_injective _ draw_inj, e, Set.ncard_prod, Set.ncard_prod, base_ncard z0 hz, parity_ncard b hb, accept_ncard]

/-- C60: no other value is ever returned. -/
theorem C60_support (O : FloatOps) (hO : ExactInts O) (mu sigma sigmin : O.F) (v : Int8)
    (h : ∀ z : Int, -18 ≤ z → z ≤ 19 → v ≠ Int8.ofInt (O.toInt (O.floor mu) + z)) : hits O mu sigma sigmin v = ∅ := by
  ext d
  simp only [Set.mem_empty_iff_false, iff_false]
  intro hd
  obtain ⟨-, z, h1, h2, e⟩ := C47_samplerz O hO _ mu sigma sigmin 1 0 v 1 hd
  exact h z h1 h2 e

/-! ### The sampler of key generation -/

/-- The draws on which one iteration of the sampler, called as in key generation, returns `z`. -/
def keyHits (O : FloatOps) (z : Int) : Set Draw :=
  hits O (O.ofInt 0) (O.lit 1.43300980528773) (O.sub (O.lit 1.43300980528773) (O.lit 0.001)) (Int8.ofInt z)

/-- The shift amounts of the rejection step for a negative sign (`b = 0`, result `-z0`) and a positive one (`b = 1`, result `z0 + 1`). -/
def keyShift (b z0 : Nat) : Nat :=
  (if b = 0 then [0, 0, 0, 1, 2, 3, 4, 6, 8, 10, 13, 16, 19, 22, 26, 30, 34, 38, 43]
    else [0, 1, 2, 3, 5, 7, 9, 11, 14, 17, 20, 24, 28, 32, 36, 40, 45, 50, 56]).getD z0 0

/-- The number of accepting bytes for a shift amount. -/
def acceptBytes (s : Nat) : Nat := if s = 0 then 255 else if s < 8 then 2 ^ (8 - s) else 1

/-- What is needed of the arithmetic to know the law of the sampler in key generation: small integers are exact, the 38 exponents that occur
are accurate enough to give the right shift amount, and `ccs` is between 1/2 and 1. It holds for IEEE arithmetic and for exact arithmetic. -/
structure KeyArith (O : FloatOps) : Prop where
  ints : ExactInts O
  shift : ∀ b < 2, ∀ z0 < 19, berShift O (sampleExponent O (O.ofInt 0) (O.lit 1.43300980528773) b z0) = keyShift b z0
  lo : 2 ^ 62 < (O.toUInt64 (O.mul (O.div (O.sub (O.lit 1.43300980528773) (O.lit 0.001)) (O.lit 1.43300980528773)) (O.lit (2 ^ 63)))).toNat
  hi : (O.toUInt64 (O.mul (O.div (O.sub (O.lit 1.43300980528773) (O.lit 0.001)) (O.lit 1.43300980528773)) (O.lit (2 ^ 63)))).toNat ≤ 2 ^ 63

/-- IEEE arithmetic qualifies. -/
theorem key_ieee : KeyArith ieeeOps where
  ints := ieee_exactInts
  shift := by decide +kernel
  lo := by decide +kernel
  hi := by decide +kernel

theorem key_rat : KeyArith ratOps where
  ints := ratOps_exactInts
  shift := by decide +kernel
  lo := by decide +kernel
  hi := by decide +kernel

theorem hom_sampleExponent {O P : FloatOps} (h : FHom O P) (mu sigma : O.F) (b z0 : Nat) :
    sampleExponent P (h.f mu) (h.f sigma) b z0 = h.f (sampleExponent O mu sigma b z0) := by
  unfold sampleExponent inv2sigma2
  simp only [h.floor, h.toInt, h.ofInt, h.sub, h.lit, h.mul, h.div, h.pow2]

theorem KeyArith.hom {O P : FloatOps} (h : FHom O P) (k : KeyArith O) : KeyArith P where
  ints n h1 h2 := by
    rw [h.ofInt, h.floor, h.toInt, h.toInt]
    exact k.ints n h1 h2
  shift b hb z0 hz := by
    rw [← k.shift b hb z0 hz, h.ofInt, h.lit, hom_sampleExponent]
    unfold berShift goMin ILN2
    simp only [h.lit, h.mul, h.floor, h.lt]
    split <;> rw [h.toInt]
  lo := by
    simp only [h.lit, h.sub, h.div, h.mul, h.toUInt64]
    exact k.lo
  hi := by
    simp only [h.lit, h.sub, h.div, h.mul, h.toUInt64]
    exact k.hi

/-- Exact arithmetic qualifies. -/
theorem key_exact : KeyArith exactOps := key_rat.hom ratHom

theorem keyShift_lt : ∀ b < 2, ∀ z0 < 19, keyShift b z0 < 64 := by decide +kernel

theorem key_accept {O : FloatOps} (k : KeyArith O) (b z0 : Nat) (hb : b ≤ 1) (hz : z0 ≤ 18) :
    acceptCount O (sampleExponent O (O.ofInt 0) (O.lit 1.43300980528773) b z0)
      (O.div (O.sub (O.lit 1.43300980528773) (O.lit 0.001)) (O.lit 1.43300980528773)) =
      acceptBytes (keyShift b z0) := by
  have ht := k.shift b (by omega) z0 (by omega)
  have hl := keyShift_lt b (by omega) z0 (by omega)
  rw [C46_count_partial O _ _ (by rw [ht]; omega) (by rw [ht]; omega) k.lo k.hi, ht]
  unfold acceptBytes
  have a1 : ((keyShift b z0 : Int) = 0) ↔ keyShift b z0 = 0 := by omega
  have a2 : ((keyShift b z0 : Int) < 8) ↔ keyShift b z0 < 8 := by omega
  simp only [a1, a2, Int.toNat_natCast]

theorem key_floor {O : FloatOps} (k : KeyArith O) : O.toInt (O.floor (O.ofInt 0)) = 0 := (k.ints 0 (by norm_num) (by norm_num)).2

/-- C60: the law of the sampler in key generation. Out of the `2^88` draws, the number on which one iteration returns `-z0` (for `b = 0`) or
`z0 + 1` (for `b = 1`). -/
theorem C60_key {O : FloatOps} (k : KeyArith O) (b z0 : Nat) (hb : b ≤ 1) (hz : z0 ≤ 18) :
    (keyHits O ((b : Int) + (2 * b - 1) * z0)).ncard = baseCount z0 * (128 * acceptBytes (keyShift b z0)) := by
  have h := C60_hits O k.ints (O.ofInt 0) (O.lit 1.43300980528773) (O.sub (O.lit 1.43300980528773) (O.lit 0.001)) b z0 hb hz
  rw [key_floor k, zero_add, key_accept k b z0 hb hz] at h
  exact h

/-- C60 is violated: the values 0 and 1 are equally likely, while in the Gaussian distribution asked for 1 is less likely than 0 by the factor
`exp(-1/(2 sigma^2)) < 4/5`. -/
theorem C60_violated_ratio {O : FloatOps} (k : KeyArith O) : (keyHits O 1).ncard = (keyHits O 0).ncard ∧ (keyHits O 0).ncard ≠ 0 ∧
    Real.exp (-1 / (2 * 1.43300980528773 ^ 2)) < 4 / 5 := by
  refine ⟨?_, ?_, ?_⟩
  · have h1 := C60_key k 1 0 (by omega) (by omega)
    have h0 := C60_key k 0 0 (by omega) (by omega)
    norm_num at h1 h0
    rw [h1, h0]
    rfl
  · have h0 := C60_key k 0 0 (by omega) (by omega)
    norm_num at h0
    rw [h0]
    decide +kernel
  · have h1 : (5 / 4 : ℝ) < 1 / (2 * 1.43300980528773 ^ 2) + 1 + (1 / (2 * 1.43300980528773 ^ 2)) ^ 2 / 2 := by norm_num
    have h2 := Real.quadratic_le_exp_of_nonneg (show (0 : ℝ) ≤ 1 / (2 * 1.43300980528773 ^ 2) by norm_num)
    have h3 : (5 / 4 : ℝ) < Real.exp (1 / (2 * 1.43300980528773 ^ 2)) := by linarith
    rw [neg_div, Real.exp_neg]
    calc (Real.exp (1 / (2 * 1.43300980528773 ^ 2)))⁻¹ < (5 / 4 : ℝ)⁻¹ := inv_strictAnti₀ (by norm_num) h3
      _ = 4 / 5 := by norm_num

/-- The number of draws that one iteration accepts. -/
noncomputable def keyTotal (O : FloatOps) : Nat := ∑ z ∈ Finset.Icc (-18 : Int) 19, (keyHits O z).ncard

/-- The probability of `z`: by `C60_limit` the limit, as `k` grows, of the probability that the sampler returns `z` within `k` iterations. -/
noncomputable def keyProb (O : FloatOps) (z : Int) : ℝ := (keyHits O z).ncard / keyTotal O

theorem keyTotal_eq {O : FloatOps} (k : KeyArith O) : keyTotal O = 230839121479129981686078720 := by
  have h0 : ∀ z0 ∈ Finset.range 19, (keyHits O (-(z0 : Int))).ncard = baseCount z0 * (128 * acceptBytes (keyShift 0 z0)) := by
    intro z0 hz
    have := C60_key k 0 z0 (by omega) (by rw [Finset.mem_range] at hz; omega)
    simpa using this
  have h1 : ∀ z0 ∈ Finset.range 19, (keyHits O ((z0 : Int) + 1)).ncard = baseCount z0 * (128 * acceptBytes (keyShift 1 z0)) := by
    intro z0 hz
    have := C60_key k 1 z0 (by omega) (by rw [Finset.mem_range] at hz; omega)
    rw [show ((1 : Nat) : Int) + (2 * ((1 : Nat) : Int) - 1) * z0 = z0 + 1 by push_cast; ring] at this
    exact this
  have hs : Finset.Icc (-18 : Int) 19 = (Finset.range 19).image (fun z : Nat => -(z : Int)) ∪ (Finset.range 19).image (fun z : Nat => (z : Int) + 1) := by
    decide +kernel
  unfold keyTotal
  rw [hs, Finset.sum_union (by decide +kernel), Finset.sum_image (by intro a _ b _ h; simpa using h),
    Finset.sum_image (by intro a _ b _ h; simpa using h), Finset.sum_congr rfl h0, Finset.sum_congr rfl h1]
  decide +kernel

/-- C59: with such arithmetic the sampler of key generation panics only if the random source fails. -/
theorem C59_sampler_key {O : FloatOps} (k : KeyArith O) (rand : Rand) (fuel pos : Nat) (h : keySample O rand fuel pos = .panic) :
    ∃ i, pos ≤ i ∧ rand i = none := by
  unfold keySample at h
  induction fuel generalizing pos with
  | zero => simp [Samplerz] at h
  | succ fuel ih =>
    cases hr : rand pos with
    | none => exact ⟨pos, le_refl _, hr⟩
    | some d =>
      rw [Samplerz_step O rand _ _ _ fuel pos d hr] at h
      rcases Go.bind_eq_panic.1 h with h | ⟨acc, -, h⟩
      · rw [C46_negative, k.shift _ (by omega) _ (by have := C44_range (splitRandBytes d).1; omega)] at h
        omega
      · cases acc with
        | true => simp at h
        | false =>
          simp only [Bool.false_eq_true, if_false] at h
          obtain ⟨i, hi, e⟩ := ih (pos + 1) h
          exact ⟨i, by omega, e⟩

/-- C59 in IEEE arithmetic: for every degree, `GeneratePrivateKey` panics only if the random source fails. -/
theorem C59_ieee (rand : Rand) (fuel : Nat) (n : UInt16) (pos : Nat)
    (h : GeneratePrivateKey ieeeOps rand fuel n pos = .panic) : ∃ i, pos ≤ i ∧ rand i = none := by
  obtain ⟨fuel', p, hp, e⟩ := C59_only_sampler ieeeOps rand fuel n pos h
  obtain ⟨i, hi, hn⟩ := C59_sampler_key key_ieee rand fuel' p e
  exact ⟨i, by omega, hn⟩

/-- C59 in IEEE arithmetic for `NewKeyPair`. -/
theorem C59_new_key_pair_ieee (rand : Rand) (fuel : Nat) (hfu : 10 ≤ fuel) (n : UInt16) (pos : Nat)
    (h : NewKeyPair ieeeOps rand fuel n pos = .panic) : ∃ i, pos ≤ i ∧ rand i = none := by
  obtain ⟨fuel', p, hp, e⟩ := C59_new_key_pair ieeeOps rand fuel hfu n pos h
  obtain ⟨i, hi, hn⟩ := C59_sampler_key key_ieee rand fuel' p e
  exact ⟨i, by omega, hn⟩

/-- The draws rejected by the sampler of key generation are all the others: it does not panic and returns nothing outside `[-18, 19]`. -/
theorem key_misses {O : FloatOps} (k : KeyArith O) : (misses O (O.ofInt 0) (O.lit 1.43300980528773)
    (O.sub (O.lit 1.43300980528773) (O.lit 0.001))).ncard + keyTotal O = 2 ^ 88 := by
  have hu : (⋃ z ∈ (↑(Finset.Icc (-18 : Int) 19) : Set Int), keyHits O z).ncard = keyTotal O := by
    rw [Set.Finite.ncard_biUnion (Finset.finite_toSet _) (fun _ _ => Set.toFinite _), finsum_mem_coe_finset]
    · rfl
    · intro a ha b hb hab
      rw [Finset.coe_Icc, Set.mem_Icc] at ha hb
      show Disjoint (keyHits O a) (keyHits O b)
      rw [Set.disjoint_left]
      intro d h1 h2
      have e := (h1 : _ = _).symm.trans h2
      simp only [Go.ok.injEq, Prod.mk.injEq, and_true] at e
      have e1 := congrArg Int8.toInt e
      rw [Int8.toInt_ofInt, Int8.toInt_ofInt, Int.bmod_def, Int.bmod_def, show Int8.size = 256 from rfl] at e1
      apply hab
      split at e1 <;> split at e1 <;> omega
  rw [← hu, ← Set.ncard_union_eq _ (Set.toFinite _) (Set.toFinite _), ← card_draw, ← Set.ncard_univ]
  · congr 1
    rw [Set.eq_univ_iff_forall]
    intro d
    rcases hd : Samplerz O (fun _ => some d) (O.ofInt 0) (O.lit 1.43300980528773)
      (O.sub (O.lit 1.43300980528773) (O.lit 0.001)) 1 0 with ⟨v, p⟩ | _ | _
    · right
      obtain ⟨hp, z, h1, h2, e⟩ := C47_samplerz O k.ints _ _ _ _ 1 0 v p hd
      rw [key_floor k, zero_add] at e
      have hp1 : p = 1 := by
        rw [Samplerz_step O _ _ _ _ 0 0 d rfl] at hd
        obtain ⟨b, -, hb⟩ := Go.bind_eq_ok.1 hd
        cases b
        · simp [Samplerz] at hb
        · simp only [if_true, Go.pure_eq, Go.ok.injEq, Prod.mk.injEq] at hb
          omega
      rw [Set.mem_iUnion₂]
      refine ⟨z, by simp [h1, h2], ?_⟩
      show _ = _
      rw [hd, e, hp1]
    · obtain ⟨i, -, h⟩ := C59_sampler_key k _ 1 0 hd
      simp at h
    · left
      exact hd
  · rw [Set.disjoint_left]
    intro d h1 h2
    rw [Set.mem_iUnion₂] at h2
    obtain ⟨z, -, h2⟩ := h2
    have e := (h1 : _ = _).symm.trans h2
    simp at e

/-- C60: the probability that the sampler of key generation returns `z` within `k` iterations tends to `keyProb z` as `k` grows. -/
theorem C60_limit {O : FloatOps} (ka : KeyArith O) (z : Int) : Filter.Tendsto (fun k : Nat => ((returns O (O.ofInt 0) (O.lit 1.43300980528773)
    (O.sub (O.lit 1.43300980528773) (O.lit 0.001)) k (Int8.ofInt z)).ncard : ℝ) / (2 ^ 88) ^ k) Filter.atTop
    (nhds (keyProb O z)) := by
  have hm := key_misses ka
  rw [keyTotal_eq ka] at hm
  have hk : (keyTotal O : ℝ) = 230839121479129981686078720 := by rw [keyTotal_eq ka]; norm_num
  have hg := fun k => C60_law O (O.ofInt 0) (O.lit 1.43300980528773)
    (O.sub (O.lit 1.43300980528773) (O.lit 0.001)) k (Int8.ofInt z)
  change ∀ k, _ = (keyHits O z).ncard * _ at hg
  generalize (misses O (O.ofInt 0) (O.lit 1.43300980528773)
    (O.sub (O.lit 1.43300980528773) (O.lit 0.001))).ncard = m at hm hg
  have hm' : (m : ℝ) = 2 ^ 88 - 230839121479129981686078720 := by
    rw [eq_sub_iff_add_eq]
    exact_mod_cast hm
  have e : ∀ k, ((returns O (O.ofInt 0) (O.lit 1.43300980528773)
    (O.sub (O.lit 1.43300980528773) (O.lit 0.001)) k (Int8.ofInt z)).ncard : ℝ) / (2 ^ 88) ^ k =
      (keyHits O z).ncard / 2 ^ 88 * ∑ j ∈ Finset.range k, ((m : ℝ) / 2 ^ 88) ^ j := by
    intro k
    rw [hg k]
    simp only [Nat.cast_mul, Nat.cast_sum, Nat.cast_pow, Nat.cast_ofNat]
    rw [mul_div_assoc, div_mul_eq_mul_div, mul_div_assoc]
    congr 1
    rw [Finset.sum_div, Finset.sum_div]
    refine Finset.sum_congr rfl fun j hj => ?_
    rw [Finset.mem_range] at hj
    rw [div_pow, div_div, div_eq_div_iff (by positivity) (by positivity)]
    generalize ((2 : ℝ) ^ 88) = T
    rw [mul_assoc]
    congr 1
    rw [← pow_succ, ← pow_add]
    congr 1
    omega
  simp_rw [e]
  have r0 : 0 ≤ (m : ℝ) / 2 ^ 88 := div_nonneg (Nat.cast_nonneg m) (pow_nonneg (by norm_num) _)
  have r1 : (m : ℝ) / 2 ^ 88 < 1 := by
    rw [hm']
    norm_num
  have ht := (hasSum_geometric_of_lt_one r0 r1).tendsto_sum_nat
  have := ht.const_mul (((keyHits O z).ncard : ℝ) / 2 ^ 88)
  convert this using 2
  unfold keyProb
  rw [hk, hm', div_mul_eq_mul_div, div_eq_div_iff (by norm_num) (by norm_num)]
  rw [mul_assoc]
  congr 1
  norm_num

/-- C60: the sampler of key generation returns with probability 1. -/
theorem C60_terminates {O : FloatOps} (k : KeyArith O) : ∑ z ∈ Finset.Icc (-18 : Int) 19, keyProb O z = 1 := by
  unfold keyProb
  rw [← Finset.sum_div, ← Nat.cast_sum]
  exact div_self (by rw [← keyTotal, keyTotal_eq k]; norm_num)

/-- C60 is violated: the distribution of the sampler in key generation is not symmetric. Whatever symmetric distribution is asked for, such as the
discrete Gaussian with centre 0, its statistical distance to the distribution of the sampler is at least 3/100 (a distance of `2^-64` or so
is required of a Gaussian sampler). -/
theorem C60_violated_distance {O : FloatOps} (k : KeyArith O) (D : Int → ℝ) (hD : ∀ z, D (-z) = D z) :
    3 / 100 ≤ 1 / 2 * ∑ z ∈ Finset.Icc (-18 : Int) 19, |keyProb O z - D z| := by
  have p1 : keyProb O 1 = 55412283090610339392979200 / 230839121479129981686078720 := by
    have := C60_key k 1 0 (by omega) (by omega)
    norm_num at this
    unfold keyProb
    rw [this, keyTotal_eq k, show baseCount 0 * (128 * acceptBytes (keyShift 1 0)) = 55412283090610339392979200 by decide +kernel]
    norm_cast
  have p1' : keyProb O (-1) = 47652554424824679001866240 / 230839121479129981686078720 := by
    have := C60_key k 0 1 (by omega) (by omega)
    norm_num at this
    unfold keyProb
    rw [this, keyTotal_eq k, show baseCount 1 * (128 * acceptBytes (keyShift 0 1)) = 47652554424824679001866240 by decide +kernel]
    norm_cast
  have p2 : keyProb O 2 = 23919713593637485930348544 / 230839121479129981686078720 := by
    have := C60_key k 1 1 (by omega) (by omega)
    norm_num at this
    unfold keyProb
    rw [this, keyTotal_eq k, show baseCount 1 * (128 * acceptBytes (keyShift 1 1)) = 23919713593637485930348544 by decide +kernel]
    norm_cast
  have p2' : keyProb O (-2) = 30305859907787880884649600 / 230839121479129981686078720 := by
    have := C60_key k 0 2 (by omega) (by omega)
    norm_num at this
    unfold keyProb
    rw [this, keyTotal_eq k, show baseCount 2 * (128 * acceptBytes (keyShift 0 2)) = 30305859907787880884649600 by decide +kernel]
    norm_cast
  have hsub : ∑ z ∈ ({1, -1, 2, -2} : Finset Int), |keyProb O z - D z| ≤ ∑ z ∈ Finset.Icc (-18 : Int) 19, |keyProb O z - D z| :=
    Finset.sum_le_sum_of_subset_of_nonneg (by decide) (fun _ _ _ => abs_nonneg _)
  rw [Finset.sum_insert (by decide), Finset.sum_insert (by decide), Finset.sum_insert (by decide), Finset.sum_singleton] at hsub
  rw [hD 1, hD 2] at hsub
  have b1 := le_abs_self (keyProb O 1 - D 1)
  have b2 := neg_abs_le (keyProb O (-1) - D 1)
  have b3 := neg_abs_le (keyProb O 2 - D 2)
  have b4 := le_abs_self (keyProb O (-2) - D 2)
  rw [p1] at b1 hsub
  rw [p1'] at b2 hsub
  rw [p2] at b3 hsub
  rw [p2'] at b4 hsub
  norm_num at *
  linarith

/-- The all-zero draw returns -18, in IEEE arithmetic and in rational arithmetic. -/
example : (fun _ => 0 : Draw) ∈ keyHits ieeeOps (-18) ∧ (fun _ => 0 : Draw) ∈ keyHits ratOps (-18) := by
  constructor
  · show _ = _
    decide +kernel
  · show _ = _
    decide +kernel

end Falcon
