import Verif.Lemmas.NormCount
/-!
# Exact counting of the squared norm of a candidate: the bounds
-/

namespace Falcon
open Polynomial Pack

/-- The law of the sum of `2^s2.length` squares of sums of `2^s1.length` samples, from below, packed. -/
def normNumber (s1 s2 : List Nat) (m cap : Nat) : Nat :=
  steps 128 cap s2 (toSquares 128 (steps 128 (37 * 2 ^ s1.length + 1) s1 (packSample 128 24 38)) (18 * 2 ^ s1.length) m)

/-- The numerical condition for the bounds `lo / 10^9` and `hi / 10^9` on the probability of a sum of at most 16822. -/
def normCheck (s1 s2 : List Nat) (m cap lo hi : Nat) : Bool :=
  match stepsT 128 s1 (230839121479129981686078720 / 2 ^ 24) with
  | none => false
  | some T1 =>
    match stepsT 128 s2 T1 with
    | none => false
    | some T2 =>
      decide (T1 < 2 ^ 128) && decide (T2 < 2 ^ 128) && decide (m ≤ 18 * 2 ^ s1.length) && decide (hi ≤ 10 ^ 9) &&
      decide (lo * (230839121479129981686078720 ^ 2 ^ s1.length) ^ 2 ^ s2.length ≤
        10 ^ 9 * (2 ^ stepsS s2 (stepsS s1 24) * window 128 (normNumber s1 s2 m cap) 0 16823)) &&
      decide ((10 ^ 9 - hi) * (230839121479129981686078720 ^ 2 ^ s1.length) ^ 2 ^ s2.length ≤
        10 ^ 9 * (2 ^ stepsS s2 (stepsS s1 24) * window 128 (normNumber s1 s2 m cap) 16823 (cap - 16823)))

theorem normCheck_law {O : FloatOps} (k : KeyArith O) (s1 s2 : List Nat) (m cap lo hi : Nat) (h : normCheck s1 s2 m cap lo hi = true) :
    (lo : ℝ) / 10 ^ 9 ≤ expect (sums (2 ^ s1.length)) (coefProb O (2 ^ s1.length)) (2 ^ s2.length)
      (fun l => if (l.map fun c : Int => (c ^ 2).toNat).sum ≤ 16822 then 1 else 0) ∧
    expect (sums (2 ^ s1.length)) (coefProb O (2 ^ s1.length)) (2 ^ s2.length)
      (fun l => if (l.map fun c : Int => (c ^ 2).toNat).sum ≤ 16822 then 1 else 0) ≤ (hi : ℝ) / 10 ^ 9 := by
  unfold normCheck at h
  split at h
  · simp at h
  rename_i T1 hT1
  split at h
  · simp at h
  rename_i T2 hT2
  simp only [Bool.and_eq_true, decide_eq_true_eq] at h
  obtain ⟨⟨⟨⟨⟨b1, b2⟩, hm⟩, hhi⟩, hlo⟩, hup⟩ := h
  have q0 := below_sample 128 24 (230839121479129981686078720 / 2 ^ 24) (by decide +kernel)
  have q1 := Below.steps (by norm_num) (37 * 2 ^ s1.length + 1) s1 q0 hT1
  have q2 := Below.squares q1 b1 (18 * 2 ^ s1.length) m hm (sums (2 ^ s1.length)) (by
    intro c hc
    rw [Finset.mem_Icc] at hc ⊢
    constructor <;> push_cast <;> push_cast at hm <;> zify at hm <;> omega)
  have q3 := Below.steps (by norm_num) cap s2 q2 hT2
  have w1 := q3.window b2 0 16823
  have w2 := q3.window b2 16823 (cap - 16823)
  change 2 ^ _ * window 128 (normNumber s1 s2 m cap) _ _ ≤ _ at w1 w2
  have e1 := expect_window (sums (2 ^ s1.length)) (fun c => ((weightPoly samples (fun z => sampleCount (z + 18).toNat) fun z => (z + 18).toNat) ^
    2 ^ s1.length).coeff (c + (18 * 2 ^ s1.length : Nat)).toNat) (230839121479129981686078720 ^ 2 ^ s1.length) (fun c => (c ^ 2).toNat) (2 ^ s2.length)
  have hp : ∀ m (φ : List Int → ℝ), expect (sums (2 ^ s1.length)) (fun c => ((((weightPoly samples (fun z => sampleCount (z + 18).toNat) fun z => (z + 18).toNat) ^
      2 ^ s1.length).coeff (c + (18 * 2 ^ s1.length : Nat)).toNat : Nat) : ℝ) / (230839121479129981686078720 ^ 2 ^ s1.length : Nat)) m φ =
      expect (sums (2 ^ s1.length)) (coefProb O (2 ^ s1.length)) m φ := by
    intro m
    induction m with
    | zero => intro φ; rfl
    | succ m ih =>
      intro φ
      rw [expect, expect]
      refine Finset.sum_congr rfl fun c hc => ?_
      rw [ih, coefProb_poly k _ c hc]
  simp_rw [hp] at e1
  have e2 := e1 0 16823
  have e3 := e1 16823 (cap - 16823)
  have hD : (0 : ℝ) < ((230839121479129981686078720 ^ 2 ^ s1.length : Nat) : ℝ) ^ 2 ^ s2.length := by positivity
  have hlo' := hlo.trans (Nat.mul_le_mul_left _ w1)
  have hup' := hup.trans (Nat.mul_le_mul_left _ w2)
  clear hlo hup w1 w2
  have l1 : (lo : ℝ) / 10 ^ 9 ≤ expect (sums (2 ^ s1.length)) (coefProb O (2 ^ s1.length)) (2 ^ s2.length)
      (fun l => if 0 ≤ (l.map fun c : Int => (c ^ 2).toNat).sum ∧ (l.map fun c : Int => (c ^ 2).toNat).sum < 0 + 16823 then 1 else 0) := by
    rw [e2, div_le_div_iff₀ (by positivity) hD, mul_comm _ ((10 : ℝ) ^ 9)]
    exact_mod_cast hlo'
  have l2 : 1 - (hi : ℝ) / 10 ^ 9 ≤ expect (sums (2 ^ s1.length)) (coefProb O (2 ^ s1.length)) (2 ^ s2.length)
      (fun l => if 16823 ≤ (l.map fun c : Int => (c ^ 2).toNat).sum ∧ (l.map fun c : Int => (c ^ 2).toNat).sum < 16823 + (cap - 16823) then 1 else 0) := by
    rw [e3, le_div_iff₀ hD]
    have : (((10 ^ 9 - hi : Nat) : ℝ)) * ((230839121479129981686078720 ^ 2 ^ s1.length : Nat) : ℝ) ^ 2 ^ s2.length ≤
        10 ^ 9 * ((∑ i ∈ Finset.range (cap - 16823), ((weightPoly (sums (2 ^ s1.length)) (fun c => ((weightPoly samples (fun z => sampleCount (z + 18).toNat)
          fun z => (z + 18).toNat) ^ 2 ^ s1.length).coeff (c + (18 * 2 ^ s1.length : Nat)).toNat) fun c => (c ^ 2).toNat) ^ 2 ^ s2.length).coeff (16823 + i) : Nat) : ℝ) := by
      exact_mod_cast hup'
    rw [Nat.cast_sub hhi] at this
    push_cast at this ⊢
    linarith
  refine ⟨l1.trans (le_of_eq ?_), ?_⟩
  · refine expect_congr _ _ _ _ _ fun l _ _ => ?_
    congr 1
    exact propext (by omega)
  · have hs : ∑ c ∈ sums (2 ^ s1.length), coefProb O (2 ^ s1.length) c = 1 := by
      have := expect_blocks O (2 ^ s1.length) 1 fun _ => 1
      rw [expect_const _ _ (C60_terminates k)] at this
      simpa [expect] using this.symm
    have h1 := expect_const (sums (2 ^ s1.length)) (coefProb O (2 ^ s1.length)) hs (2 ^ s2.length) 1
    have h2 : expect (sums (2 ^ s1.length)) (coefProb O (2 ^ s1.length)) (2 ^ s2.length)
        (fun l => (if (l.map fun c : Int => (c ^ 2).toNat).sum ≤ 16822 then 1 else 0) +
          if 16823 ≤ (l.map fun c : Int => (c ^ 2).toNat).sum ∧ (l.map fun c : Int => (c ^ 2).toNat).sum < 16823 + (cap - 16823) then 1 else 0) ≤
        expect (sums (2 ^ s1.length)) (coefProb O (2 ^ s1.length)) (2 ^ s2.length) (fun _ => 1) := by
      refine expect_mono _ _ (fun z _ => coefProb_nonneg O _ z) _ _ _ fun l _ _ => ?_
      generalize (l.map fun c : Int => (c ^ 2).toNat).sum = x
      by_cases hx : x ≤ 16822
      · rw [if_pos hx, if_neg (by omega)]; norm_num
      · rw [if_neg hx]; split <;> norm_num
    rw [expect_add, h1] at h2
    linarith

theorem norm_1024 : normCheck [64, 63] [63, 64, 63, 63, 64, 64, 64, 63, 64, 64, 63] 72 24000 9546614 9546615 = true := by decide +kernel

theorem norm_512 : normCheck [64, 63, 63] [64, 63, 63, 64, 64, 64, 63, 64, 64, 63] 144 26000 50269385 50269386 = true := by decide +kernel

theorem norm_256 : normCheck [64, 63, 63, 64] [63, 63, 64, 64, 64, 63, 64, 64, 63] 173 30000 125067700 125067701 = true := by decide +kernel

theorem norm_128 : normCheck [64, 63, 63, 64, 63] [63, 64, 64, 64, 63, 64, 64, 63] 189 36000 211638674 211638675 = true := by decide +kernel

theorem norm_64 : normCheck [64, 63, 63, 64, 63, 63] [64, 64, 64, 63, 64, 64, 63] 212 45000 291224228 291224229 = true := by decide +kernel

theorem norm_32 : normCheck [64, 63, 63, 64, 63, 63, 64] [64, 64, 63, 64, 64, 63] 244 60000 357193280 357193281 = true := by decide +kernel

theorem norm_16 : normCheck [64, 63, 63, 64, 63, 63, 64, 64] [64, 63, 64, 64, 63] 282 80000 410367128 410367129 = true := by decide +kernel

theorem norm_8 : normCheck [64, 63, 63, 64, 63, 63, 64, 64, 64] [63, 64, 64, 63] 331 110000 454394229 454394230 = true := by decide +kernel

theorem norm_4 : normCheck [64, 63, 63, 64, 63, 63, 64, 64, 64, 63] [64, 64, 63] 387 150000 493641414 493641415 = true := by decide +kernel

end Falcon
