import Verif.Props.SamplerLaw
/-!
# C84: the number of draws of the sampler

`Samplerz` rejects and draws again until a draw is accepted; its running time is the number of draws. It must not depend on what is secret: the value
it returns, the centre and the standard deviation (Falcon specification, section 3.9.3). Probabilities are counted as in `SamplerLaw.lean`.
-/

namespace Falcon
open Spec

/-- The sequences of `k` draws on which the sampler returns `v` after exactly `j` draws. -/
def usedFor (O : FloatOps) (mu sigma sigmin : O.F) (k j : Nat) (v : Int8) : Set (Fin k → Draw) :=
  {d | Samplerz O (source d) mu sigma sigmin k 0 = .ok (v, j)}

/-- The sequences of `k` draws on which the sampler returns after exactly `j` draws. -/
def used (O : FloatOps) (mu sigma sigmin : O.F) (k j : Nat) : Set (Fin k → Draw) :=
  {d | ∃ v, Samplerz O (source d) mu sigma sigmin k 0 = .ok (v, j)}

theorem Samplerz_shift_at (O : FloatOps) (rand : Rand) (mu sigma sigmin : O.F) (fuel pos : Nat) (v : Int8) (p : Nat) :
    Samplerz O rand mu sigma sigmin fuel (pos + 1) = .ok (v, p + 1) ↔
    Samplerz O (fun i => rand (i + 1)) mu sigma sigmin fuel pos = .ok (v, p) := by
  induction fuel generalizing pos with
  | zero => simp [Samplerz]
  | succ fuel ih =>
    cases hr : rand (pos + 1) with
    | none =>
      rw [Samplerz, Samplerz]
      simp [hr]
    | some d =>
      rw [Samplerz_step O rand mu sigma sigmin fuel (pos + 1) d hr,
        Samplerz_step O (fun i => rand (i + 1)) mu sigma sigmin fuel pos d hr]
      rcases berexp O _ _ _ with b | _ | _
      · cases b
        · simp only [Go.ok_bind, Bool.false_eq_true, if_false]
          exact ih (pos + 1)
        · simp
      · simp
      · simp

theorem Samplerz_pos_lt (O : FloatOps) (rand : Rand) (mu sigma sigmin : O.F) (fuel pos : Nat) (v : Int8) (p : Nat)
    (h : Samplerz O rand mu sigma sigmin fuel pos = .ok (v, p)) : pos < p ∧ p ≤ pos + fuel := by
  induction fuel generalizing pos with
  | zero => simp [Samplerz] at h
  | succ fuel ih =>
    cases hr : rand pos with
    | none =>
      rw [Samplerz] at h
      simp [hr] at h
    | some d =>
      rw [Samplerz_step O rand mu sigma sigmin fuel pos d hr] at h
      rcases hb : berexp O (sampleExponent O mu sigma ((d 9).toNat % 2) (BaseSampler (splitRandBytes d).1)) (O.div sigmin sigma) [d 10]
        with b | _ | _ <;> rw [hb] at h
      · cases b
        · simp only [Go.ok_bind, Bool.false_eq_true, if_false] at h
          have := ih (pos + 1) h
          omega
        · simp at h
          omega
      · simp at h
      · simp at h

theorem source_tail {k : Nat} (d : Fin (k + 1) → Draw) : (fun i => source d (i + 1)) = source (Fin.tail d) := by
  funext i
  unfold source
  by_cases h : i < k
  · rw [dif_pos (by omega), dif_pos h]; rfl
  · rw [dif_neg (by omega), dif_neg h]

theorem mem_usedFor_one (O : FloatOps) (mu sigma sigmin : O.F) (k : Nat) (v : Int8) (d : Fin (k + 1) → Draw) :
    d ∈ usedFor O mu sigma sigmin (k + 1) 1 v ↔ d 0 ∈ hits O mu sigma sigmin v := by
  have h0 : source d 0 = some (d 0) := by simp [source]
  rw [mem_hits]
  unfold usedFor
  rw [Set.mem_ofPred_eq, Samplerz_step O _ mu sigma sigmin k 0 (d 0) h0]
  rcases berexp O _ _ _ with b | _ | _
  · cases b
    · simp only [Go.ok_bind, Bool.false_eq_true, if_false, Go.ok.injEq, false_and, iff_false]
      intro h
      have := Samplerz_pos_lt O _ mu sigma sigmin k _ v 1 h
      omega
    · simp
  · simp
  · simp

theorem mem_usedFor_succ (O : FloatOps) (mu sigma sigmin : O.F) (k j : Nat) (v : Int8) (d : Fin (k + 1) → Draw) (hj : 1 ≤ j) :
    d ∈ usedFor O mu sigma sigmin (k + 1) (j + 1) v ↔ d 0 ∈ misses O mu sigma sigmin ∧ Fin.tail d ∈ usedFor O mu sigma sigmin k j v := by
  have h0 : source d 0 = some (d 0) := by simp [source]
  rw [mem_misses]
  unfold usedFor
  rw [Set.mem_ofPred_eq, Set.mem_ofPred_eq, Samplerz_step O _ mu sigma sigmin k 0 (d 0) h0]
  rcases berexp O _ _ _ with b | _ | _
  · cases b
    · simp only [Go.ok_bind, Bool.false_eq_true, if_false, true_and]
      rw [Samplerz_shift_at, source_tail]
    · simp
      omega
  · simp
  · simp

/-- How many sequences of `k` draws give the value `v` after exactly `j` draws: the `j`-th hits, the `j-1` before miss. -/
theorem C84_draws (O : FloatOps) (mu sigma sigmin : O.F) (k j : Nat) (v : Int8) (h1 : 1 ≤ j) (h : j ≤ k) :
    (usedFor O mu sigma sigmin k j v).ncard =
      (hits O mu sigma sigmin v).ncard * ((misses O mu sigma sigmin).ncard ^ (j - 1) * (2 ^ 88) ^ (k - j)) := by
  induction k generalizing j with
  | zero => omega
  | succ k ih =>
    by_cases hj : j = 1
    · subst hj
      have e : usedFor O mu sigma sigmin (k + 1) 1 v = (Fin.consEquiv fun _ => Draw) '' (hits O mu sigma sigmin v ×ˢ Set.univ) := by
        ext d
        rw [mem_usedFor_one, Equiv.image_eq_preimage_symm]
        simp [Fin.consEquiv]
      rw [e, Set.ncard_image_of_injective _ (Equiv.injective _), Set.ncard_prod, Set.ncard_univ, Nat.card_fun, Nat.card_fin, card_draw,
        Nat.sub_self, pow_zero, one_mul, Nat.add_sub_cancel]
    · obtain ⟨j, rfl⟩ : ∃ i, j = i + 1 := ⟨j - 1, by omega⟩
      have e : usedFor O mu sigma sigmin (k + 1) (j + 1) v =
          (Fin.consEquiv fun _ => Draw) '' (misses O mu sigma sigmin ×ˢ usedFor O mu sigma sigmin k j v) := by
        ext d
        rw [mem_usedFor_succ _ _ _ _ _ _ _ _ (by omega), Equiv.image_eq_preimage_symm]
        simp [Fin.consEquiv]
      rw [e, Set.ncard_image_of_injective _ (Equiv.injective _), Set.ncard_prod, ih j (by omega) (by omega), Nat.add_sub_cancel,
        Nat.add_sub_add_right, show j = j - 1 + 1 by omega, Nat.add_sub_cancel, pow_succ]
      ring

/-- The number of draws is independent of the value returned, for all parameters and every behaviour of the floating-point operations:
the numbers of draw sequences form a matrix of rank one. -/
theorem C84_value (O : FloatOps) (mu sigma sigmin : O.F) (k j j' : Nat) (v v' : Int8) (h1 : 1 ≤ j) (h : j ≤ k) (h1' : 1 ≤ j') (h' : j' ≤ k) :
    (usedFor O mu sigma sigmin k j v).ncard * (usedFor O mu sigma sigmin k j' v').ncard =
      (usedFor O mu sigma sigmin k j' v).ncard * (usedFor O mu sigma sigmin k j v').ncard := by
  rw [C84_draws _ _ _ _ _ _ _ h1 h, C84_draws _ _ _ _ _ _ _ h1' h', C84_draws _ _ _ _ _ _ _ h1' h', C84_draws _ _ _ _ _ _ _ h1 h]
  ring

/-- The draws accepted in one iteration. -/
def accepted (O : FloatOps) (mu sigma sigmin : O.F) : Set Draw := {d | ∃ v, d ∈ hits O mu sigma sigmin v}

theorem mem_accepted (O : FloatOps) (mu sigma sigmin : O.F) (d : Draw) : d ∈ accepted O mu sigma sigmin ↔
    berexp O (sampleExponent O mu sigma ((d 9).toNat % 2) (BaseSampler (splitRandBytes d).1)) (O.div sigmin sigma) [d 10] = .ok true := by
  unfold accepted
  simp only [Set.mem_ofPred_eq, mem_hits]
  exact ⟨fun ⟨_, h, _⟩ => h, fun h => ⟨_, h, rfl⟩⟩

/-- The accepted draws with sign bit `b` and base sample `z0`. -/
theorem accepted_part (O : FloatOps) (mu sigma sigmin : O.F) (b z0 : Nat) (hb : b ≤ 1) (hz : z0 ≤ 18) :
    {d | d ∈ accepted O mu sigma sigmin ∧ (d 9).toNat % 2 = b ∧ BaseSampler (splitRandBytes d).1 = z0}.ncard =
      baseCount z0 * (128 * acceptCount O (sampleExponent O mu sigma b z0) (O.div sigmin sigma)) := by
  have e : (fun d : Draw => ((splitRandBytes d).1, d 9, d 10)) ''
      {d | d ∈ accepted O mu sigma sigmin ∧ (d 9).toNat % 2 = b ∧ BaseSampler (splitRandBytes d).1 = z0} =
      {l : List UInt8 | l.length = 9 ∧ BaseSampler l = z0} ×ˢ ({t : UInt8 | t.toNat % 2 = b} ×ˢ
        {t : UInt8 | berexp O (sampleExponent O mu sigma b z0) (O.div sigmin sigma) [t] = .ok true}) := by
    ext ⟨l, s, t⟩
    simp only [Set.mem_image, Prod.mk.injEq, Set.mem_prod, Set.mem_ofPred_eq]
    constructor
    · rintro ⟨d, ⟨h1, h2, h3⟩, rfl, rfl, rfl⟩
      rw [mem_accepted, h2, h3] at h1
      exact ⟨⟨rfl, h3⟩, h2, h1⟩
    · rintro ⟨⟨hl, h1⟩, h2, h3⟩
      match l, hl with
      | [a0, a1, a2, a3, a4, a5, a6, a7, a8], _ =>
        refine ⟨![a0, a1, a2, a3, a4, a5, a6, a7, a8, s, t], ?_, rfl, rfl, rfl⟩
        have hs : (splitRandBytes ![a0, a1, a2, a3, a4, a5, a6, a7, a8, s, t]).1 = [a0, a1, a2, a3, a4, a5, a6, a7, a8] := rfl
        have h9 : (![a0, a1, a2, a3, a4, a5, a6, a7, a8, s, t] : Draw) 9 = s := rfl
        have h10 : (![a0, a1, a2, a3, a4, a5, a6, a7, a8, s, t] : Draw) 10 = t := rfl
        rw [mem_accepted, hs, h9, h10, h1, h2]
        exact ⟨h3, rfl, rfl⟩
  rw [← Set.ncard_image_of_injective _ draw_inj, e, Set.ncard_prod, Set.ncard_prod, base_ncard z0 hz, parity_ncard b hb, accept_ncard]

/-- The number of accepted draws, out of `2^88`. -/
def acceptedCount (O : FloatOps) (mu sigma sigmin : O.F) : Nat :=
  ∑ b ∈ Finset.range 2, ∑ z0 ∈ Finset.range 19, baseCount z0 * (128 * acceptCount O (sampleExponent O mu sigma b z0) (O.div sigmin sigma))

theorem accepted_ncard (O : FloatOps) (mu sigma sigmin : O.F) : (accepted O mu sigma sigmin).ncard = acceptedCount O mu sigma sigmin := by
  have hu : accepted O mu sigma sigmin = ⋃ p ∈ (↑(Finset.range 2 ×ˢ Finset.range 19) : Set (Nat × Nat)),
      {d | d ∈ accepted O mu sigma sigmin ∧ (d 9).toNat % 2 = p.1 ∧ BaseSampler (splitRandBytes d).1 = p.2} := by
    ext d
    simp only [Set.mem_iUnion₂, Set.mem_ofPred_eq]
    constructor
    · intro h
      refine ⟨((d 9).toNat % 2, BaseSampler (splitRandBytes d).1), ?_, h, rfl, rfl⟩
      have := C44_range (splitRandBytes d).1
      simp only [Finset.coe_product, Finset.coe_range, Set.mem_prod, Set.mem_Iio]
      omega
    · rintro ⟨p, -, h, -⟩
      exact h
  rw [hu, Set.Finite.ncard_biUnion (Finset.finite_toSet _) (fun _ _ => Set.toFinite _), finsum_mem_coe_finset, Finset.sum_product]
  · unfold acceptedCount
    refine Finset.sum_congr rfl fun b hb => Finset.sum_congr rfl fun z0 hz => ?_
    rw [Finset.mem_range] at hb hz
    exact accepted_part O mu sigma sigmin b z0 (by omega) (by omega)
  · intro a _ b _ hab
    show Disjoint _ _
    rw [Set.disjoint_left]
    rintro d ⟨-, h1, h2⟩ ⟨-, h3, h4⟩
    exact hab (Prod.ext (h1.symm.trans h3) (h2.symm.trans h4))

/-- The probability that the first draw is accepted, as a function of the parameters. -/
theorem C84_first (O : FloatOps) (mu sigma sigmin : O.F) (k : Nat) (h : 1 ≤ k) :
    (used O mu sigma sigmin k 1).ncard = acceptedCount O mu sigma sigmin * (2 ^ 88) ^ (k - 1) := by
  obtain ⟨k, rfl⟩ : ∃ i, k = i + 1 := ⟨k - 1, by omega⟩
  have e : used O mu sigma sigmin (k + 1) 1 = (Fin.consEquiv fun _ => Draw) '' (accepted O mu sigma sigmin ×ˢ Set.univ) := by
    ext d
    rw [Equiv.image_eq_preimage_symm]
    have : d ∈ used O mu sigma sigmin (k + 1) 1 ↔ d 0 ∈ accepted O mu sigma sigmin := by
      constructor
      · rintro ⟨v, h⟩
        exact ⟨v, (mem_usedFor_one O mu sigma sigmin k v d).1 h⟩
      · rintro ⟨v, h⟩
        exact ⟨v, (mem_usedFor_one O mu sigma sigmin k v d).2 h⟩
    rw [this]
    simp [Fin.consEquiv]
  rw [e, Set.ncard_image_of_injective _ (Equiv.injective _), Set.ncard_prod, Set.ncard_univ, Nat.card_fun, Nat.card_fin, card_draw,
    accepted_ncard, Nat.add_sub_cancel]

/-- The number of accepted draws from the shift amounts of `berexp`, for `sigmin / sigma` between 1/2 and 1. -/
theorem acceptedCount_shifts (O : FloatOps) (mu sigma sigmin : O.F)
    (h1 : 2 ^ 62 < (O.toUInt64 (O.mul (O.div sigmin sigma) (O.lit (2 ^ 63)))).toNat)
    (h2 : (O.toUInt64 (O.mul (O.div sigmin sigma) (O.lit (2 ^ 63)))).toNat ≤ 2 ^ 63)
    (hs : ∀ b < 2, ∀ z0 < 19, 0 ≤ berShift O (sampleExponent O mu sigma b z0) ∧ berShift O (sampleExponent O mu sigma b z0) < 64) :
    acceptedCount O mu sigma sigmin =
      ∑ b ∈ Finset.range 2, ∑ z0 ∈ Finset.range 19, baseCount z0 * (128 * acceptBytes (berShift O (sampleExponent O mu sigma b z0)).toNat) := by
  refine Finset.sum_congr rfl fun b hb => Finset.sum_congr rfl fun z0 hz => ?_
  rw [Finset.mem_range] at hb hz
  obtain ⟨a, c⟩ := hs b hb z0 hz
  rw [C46_count_partial O _ _ a c h1 h2]
  unfold acceptBytes
  congr 2
  split_ifs <;> first | rfl | omega

/-- In IEEE arithmetic, with the constant sigmin of degree 512: how often the first draw is accepted at the centre 1/4 and 1/2 with standard
deviation 1.278, and at the centre 1/2 with standard deviation 1.82. -/
theorem iso_counts :
    acceptedCount ieeeOps (ieeeOps.lit (1 / 4)) (ieeeOps.lit 1.278) (ieeeOps.lit 1.2778336969128337) * 100 ≤ 68 * 2 ^ 88 ∧
    77 * 2 ^ 88 ≤ acceptedCount ieeeOps (ieeeOps.lit (1 / 2)) (ieeeOps.lit 1.278) (ieeeOps.lit 1.2778336969128337) * 100 ∧
    acceptedCount ieeeOps (ieeeOps.lit (1 / 2)) (ieeeOps.lit 1.278) (ieeeOps.lit 1.2778336969128337) * 100 ≤ 78 * 2 ^ 88 ∧
    99 * 2 ^ 88 ≤ acceptedCount ieeeOps (ieeeOps.lit (1 / 2)) (ieeeOps.lit 1.82) (ieeeOps.lit 1.2778336969128337) * 100 := by
  rw [acceptedCount_shifts _ (ieeeOps.lit (1 / 4)) _ _ (by decide +kernel) (by decide +kernel) (by decide +kernel),
    acceptedCount_shifts _ (ieeeOps.lit (1 / 2)) (ieeeOps.lit 1.278) _ (by decide +kernel) (by decide +kernel) (by decide +kernel),
    acceptedCount_shifts _ (ieeeOps.lit (1 / 2)) (ieeeOps.lit 1.82) _ (by decide +kernel) (by decide +kernel) (by decide +kernel)]
  decide +kernel

/-- C84 is violated: the number of draws depends on the centre. With standard deviation 1.278 the sampler stops after one draw with probability
at most 0.68 at the centre 1/4 and at least 0.77 at the centre 1/2. -/
theorem C84_violated_centre (k : Nat) (h : 1 ≤ k) :
    (used ieeeOps (ieeeOps.lit (1 / 4)) (ieeeOps.lit 1.278) (ieeeOps.lit 1.2778336969128337) k 1).ncard * 100 ≤ 68 * (2 ^ 88) ^ k ∧
    77 * (2 ^ 88) ^ k ≤ (used ieeeOps (ieeeOps.lit (1 / 2)) (ieeeOps.lit 1.278) (ieeeOps.lit 1.2778336969128337) k 1).ncard * 100 := by
  obtain ⟨k, rfl⟩ : ∃ i, k = i + 1 := ⟨k - 1, by omega⟩
  obtain ⟨h1, h2, -, -⟩ := iso_counts
  rw [C84_first _ _ _ _ _ h, C84_first _ _ _ _ _ h, Nat.add_sub_cancel, pow_succ (2 ^ 88) k]
  generalize acceptedCount _ _ _ _ = a at h1
  generalize acceptedCount _ _ _ _ = b at h2
  generalize (2 ^ 88) ^ k = t
  constructor <;> nlinarith

/-- C84 is violated: the number of draws depends on the standard deviation. At the centre 1/2 the sampler stops after one draw with probability
at most 0.78 for the standard deviation 1.278 and at least 0.99 for 1.82. -/
theorem C84_violated_deviation (k : Nat) (h : 1 ≤ k) :
    (used ieeeOps (ieeeOps.lit (1 / 2)) (ieeeOps.lit 1.278) (ieeeOps.lit 1.2778336969128337) k 1).ncard * 100 ≤ 78 * (2 ^ 88) ^ k ∧
    99 * (2 ^ 88) ^ k ≤ (used ieeeOps (ieeeOps.lit (1 / 2)) (ieeeOps.lit 1.82) (ieeeOps.lit 1.2778336969128337) k 1).ncard * 100 := by
  obtain ⟨k, rfl⟩ : ∃ i, k = i + 1 := ⟨k - 1, by omega⟩
  obtain ⟨-, -, h1, h2⟩ := iso_counts
  rw [C84_first _ _ _ _ _ h, C84_first _ _ _ _ _ h, Nat.add_sub_cancel, pow_succ (2 ^ 88) k]
  generalize acceptedCount _ _ _ _ = a at h1
  generalize acceptedCount _ _ _ _ = b at h2
  generalize (2 ^ 88) ^ k = t
  constructor <;> nlinarith

/-- Both outcomes occur: in key generation there are draws that return 0 and draws that are rejected. -/
example : (keyHits ieeeOps 0).ncard ≠ 0 ∧ (misses ieeeOps (ieeeOps.ofInt 0) (ieeeOps.lit 1.43300980528773)
    (ieeeOps.sub (ieeeOps.lit 1.43300980528773) (ieeeOps.lit 0.001))).ncard ≠ 0 := by
  refine ⟨(C60_violated_ratio key_ieee).2.1, ?_⟩
  have := key_misses key_ieee
  rw [keyTotal_eq key_ieee] at this
  omega

end Falcon
