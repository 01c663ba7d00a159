import Verif.Lemmas.NormCount2
import Verif.Props.NormLaw
/-!
# The most likely value of a coefficient
-/

namespace Falcon
open Polynomial Pack

/-- The largest of the first `2^k` fields of a packed number. -/
def maxDigit (b : Nat) : Nat → Nat → Nat
  | 0, N => N
  | k + 1, N => max (maxDigit b k (N % (2 ^ b) ^ 2 ^ k)) (maxDigit b k (N / (2 ^ b) ^ 2 ^ k))

theorem digit_le_max (b k N i : Nat) (hi : i < 2 ^ k) : digit b N i ≤ maxDigit b k N := by
  induction k generalizing N i with
  | zero =>
    obtain rfl : i = 0 := by simpa using hi
    simpa [digit, maxDigit] using Nat.mod_le _ _
  | succ k ih =>
    rw [maxDigit]
    by_cases h : i < 2 ^ k
    · refine le_trans (le_of_eq ?_) ((ih (N % (2 ^ b) ^ 2 ^ k) i h).trans (le_max_left _ _))
      unfold digit
      obtain ⟨j, hj⟩ : ∃ j, 2 ^ k = i + (j + 1) := ⟨2 ^ k - i - 1, by omega⟩
      rw [hj, pow_add, Nat.mod_mul_right_div_self, Nat.mod_mod_of_dvd _ (dvd_pow_self _ (by omega))]
    · refine le_trans (le_of_eq ?_) ((ih (N / (2 ^ b) ^ 2 ^ k) (i - 2 ^ k) (by rw [pow_succ] at hi; omega)).trans (le_max_right _ _))
      unfold digit
      rw [Nat.div_div_eq_div_mul, ← pow_add, show 2 ^ k + (i - 2 ^ k) = i by omega]

/-- The law of the sum of `2^s.length` samples, from below, packed. -/
def sumNumber (s : List Nat) : Nat := steps 128 (37 * 2 ^ s.length + 1) s (packSample 128 24 38)

/-- The numerical condition for the bound `hi / 10^9` on the probability of every value of the sum of `2^s.length` samples. -/
def peakCheck (s : List Nat) (d hi : Nat) : Bool :=
  match stepsT 128 s (230839121479129981686078720 / 2 ^ 24) with
  | none => false
  | some T =>
    decide (T < 2 ^ 128) && decide (37 * 2 ^ s.length + 1 ≤ 2 ^ d) &&
    decide (10 ^ 9 * (230839121479129981686078720 ^ 2 ^ s.length + 2 ^ stepsS s 24 * maxDigit 128 d (sumNumber s)) ≤
      hi * 230839121479129981686078720 ^ 2 ^ s.length + 10 ^ 9 * (2 ^ stepsS s 24 * window 128 (sumNumber s) 0 (37 * 2 ^ s.length + 1)))

theorem sums_index (K : Nat) (c : Int) (hc : c ∈ sums K) : (c + (18 * K : Nat)).toNat < 37 * K + 1 := by
  rw [Finset.mem_Icc] at hc
  omega

theorem sums_reindex (K : Nat) (φ : Nat → Nat) : ∑ x ∈ sums K, φ (x + (18 * K : Nat)).toNat = ∑ i ∈ Finset.range (37 * K + 1), φ i := by
  refine Finset.sum_nbij' (fun x => (x + (18 * K : Nat)).toNat) (fun i => (i : Int) - (18 * K : Nat)) ?_ ?_ ?_ ?_ ?_
  · intro x hx
    exact Finset.mem_range.2 (sums_index K x hx)
  · intro i hi
    rw [Finset.mem_range] at hi
    rw [Finset.mem_Icc]
    omega
  · intro x hx
    rw [Finset.mem_Icc] at hx
    omega
  · intro i hi
    omega
  · intro x hx
    rfl

theorem peak_law {O : FloatOps} (k : KeyArith O) (s : List Nat) (d hi : Nat) (h : peakCheck s d hi = true) (c : Int) :
    coefProb O (2 ^ s.length) c ≤ hi / 10 ^ 9 := by
  by_cases hc : c ∉ sums (2 ^ s.length)
  · rw [coefProb_zero O _ c hc]
    positivity
  rw [not_not] at hc
  unfold peakCheck at h
  split at h
  · simp at h
  rename_i T hT
  simp only [Bool.and_eq_true, decide_eq_true_eq] at h
  obtain ⟨⟨b1, b2⟩, b3⟩ := h
  have q0 := below_sample 128 24 (230839121479129981686078720 / 2 ^ 24) (by decide +kernel)
  obtain ⟨p, e, h1, hp⟩ := Below.steps (by norm_num) (37 * 2 ^ s.length + 1) s q0 hT
  change _ = sumNumber s at e
  have lt : ∀ i, p.coeff i < 2 ^ 128 := fun i => ((coeff_le_eval_one p i).trans h1).trans_lt b1
  have hw := Below.window (b := 128) (Q := p) (S := 0) (T := T) (N := sumNumber s) ⟨p, e, h1, fun i => by simp⟩ b1 0 (37 * 2 ^ s.length + 1)
  rw [pow_zero, one_mul] at hw
  simp only [zero_add] at hw
  have idx := fun c hc => sums_index (2 ^ s.length) c hc
  have hm : p.coeff (c + (18 * 2 ^ s.length : Nat)).toNat ≤ maxDigit 128 d (sumNumber s) := by
    rw [← digit_eq lt, e]
    exact digit_le_max _ _ _ _ ((idx c hc).trans_le b2)
  have hD : (0 : ℝ) < ((230839121479129981686078720 ^ 2 ^ s.length : Nat) : ℝ) := by positivity
  have lo : ∀ x ∈ sums (2 ^ s.length), (2 : ℝ) ^ stepsS s 24 * p.coeff (x + (18 * 2 ^ s.length : Nat)).toNat ≤
      coefProb O (2 ^ s.length) x * (230839121479129981686078720 ^ 2 ^ s.length : Nat) := by
    intro x hx
    rw [coefProb_poly k _ x hx, div_mul_cancel₀ _ hD.ne']
    exact_mod_cast hp _
  have hs := coefProb_sum k (2 ^ s.length)
  have re := sums_reindex (2 ^ s.length) fun i => p.coeff i
  have h5 : (2 : ℝ) ^ stepsS s 24 * ∑ x ∈ (sums (2 ^ s.length)).erase c, (p.coeff ((x : Int) + (18 * 2 ^ s.length : Nat)).toNat : ℝ) ≤
      (∑ x ∈ (sums (2 ^ s.length)).erase c, coefProb O (2 ^ s.length) x) * (230839121479129981686078720 ^ 2 ^ s.length : Nat) := by
    rw [Finset.mul_sum, Finset.sum_mul]
    exact Finset.sum_le_sum fun x hx => lo x (Finset.mem_of_mem_erase hx)
  have h6 := Finset.add_sum_erase _ (fun x => coefProb O (2 ^ s.length) x) hc
  have h7 := Finset.add_sum_erase _ (fun x : Int => (p.coeff (x + (18 * 2 ^ s.length : Nat)).toNat : ℝ)) hc
  have re' : ∑ x ∈ sums (2 ^ s.length), (p.coeff ((x : Int) + (18 * 2 ^ s.length : Nat)).toNat : ℝ) = ((∑ i ∈ Finset.range (37 * 2 ^ s.length + 1), p.coeff i : Nat) : ℝ) := by
    rw [← re]
    push_cast
    rfl
  rw [re'] at h7
  rw [hs] at h6
  have b3' : (10 : ℝ) ^ 9 * ((230839121479129981686078720 ^ 2 ^ s.length : Nat) + 2 ^ stepsS s 24 * (maxDigit 128 d (sumNumber s) : Nat)) ≤
      hi * (230839121479129981686078720 ^ 2 ^ s.length : Nat) + 10 ^ 9 * (2 ^ stepsS s 24 * (window 128 (sumNumber s) 0 (37 * 2 ^ s.length + 1) : Nat)) := by
    exact_mod_cast b3
  have hw' : ((window 128 (sumNumber s) 0 (37 * 2 ^ s.length + 1) : Nat) : ℝ) ≤ ((∑ i ∈ Finset.range (37 * 2 ^ s.length + 1), p.coeff i : Nat) : ℝ) := by exact_mod_cast hw
  have hm' : (p.coeff (c + (18 * 2 ^ s.length : Nat)).toNat : ℝ) ≤ (maxDigit 128 d (sumNumber s) : Nat) := by exact_mod_cast hm
  clear * - h5 h6 h7 b3' hw' hm' hD
  generalize ((230839121479129981686078720 ^ 2 ^ s.length : Nat) : ℝ) = D at *
  generalize ((maxDigit 128 d (sumNumber s) : Nat) : ℝ) = M at *
  generalize ((window 128 (sumNumber s) 0 (37 * 2 ^ s.length + 1) : Nat) : ℝ) = W at *
  generalize (∑ x ∈ (sums (2 ^ s.length)).erase c, coefProb O (2 ^ s.length) x) = A at *
  generalize (∑ x ∈ (sums (2 ^ s.length)).erase c, (p.coeff ((x : Int) + (18 * 2 ^ s.length : Nat)).toNat : ℝ)) = B at *
  generalize ((∑ i ∈ Finset.range (37 * 2 ^ s.length + 1), p.coeff i : Nat) : ℝ) = W' at *
  generalize (p.coeff (c + (18 * 2 ^ s.length : Nat)).toNat : ℝ) = x at *
  generalize coefProb O (2 ^ s.length) c = y at *
  have h2 : (0 : ℝ) < 2 ^ stepsS s 24 := by positivity
  generalize (2 : ℝ) ^ stepsS s 24 = S at *
  have e1 : B = W' - x := by linarith
  have e2 : A = 1 - y := by linarith
  subst e1 e2
  have g1 : S * W ≤ S * W' := mul_le_mul_of_nonneg_left hw' h2.le
  have g2 : S * x ≤ S * M := mul_le_mul_of_nonneg_left hm' h2.le
  rw [le_div_iff₀ (by positivity)]
  refine le_of_mul_le_mul_right ?_ hD
  nlinarith

/-- The numerical condition for the bound `lo / 10^9` from below for the value of field `i`. -/
def topCheck (s : List Nat) (i lo : Nat) : Bool :=
  match stepsT 128 s (230839121479129981686078720 / 2 ^ 24) with
  | none => false
  | some T => decide (T < 2 ^ 128) && decide (i < 37 * 2 ^ s.length + 1) &&
    decide (lo * 230839121479129981686078720 ^ 2 ^ s.length ≤ 10 ^ 9 * (2 ^ stepsS s 24 * digit 128 (sumNumber s) i))

theorem top_index (K i : Nat) (hi : i < 37 * K + 1) : (i : Int) - (18 * K : Nat) ∈ sums K ∧ ((i : Int) - (18 * K : Nat) + (18 * K : Nat)).toNat = i := by
  rw [Finset.mem_Icc]
  omega

theorem top_law {O : FloatOps} (k : KeyArith O) (s : List Nat) (i lo : Nat) (h : topCheck s i lo = true) :
    (lo : ℝ) / 10 ^ 9 ≤ coefProb O (2 ^ s.length) ((i : Int) - (18 * 2 ^ s.length : Nat)) := by
  unfold topCheck at h
  split at h
  · simp at h
  rename_i T hT
  simp only [Bool.and_eq_true, decide_eq_true_eq] at h
  obtain ⟨⟨b1, b2⟩, b3⟩ := h
  have q0 := below_sample 128 24 (230839121479129981686078720 / 2 ^ 24) (by decide +kernel)
  obtain ⟨p, e, h1, hp⟩ := Below.steps (by norm_num) (37 * 2 ^ s.length + 1) s q0 hT
  change _ = sumNumber s at e
  have lt : ∀ i, p.coeff i < 2 ^ 128 := fun i => ((coeff_le_eval_one p i).trans h1).trans_lt b1
  obtain ⟨t1, t2⟩ := top_index (2 ^ s.length) i b2
  have hi := hp i
  rw [coefProb_poly k _ _ t1, t2, div_le_div_iff₀ (by positivity) (by positivity), mul_comm _ ((10 : ℝ) ^ 9)]
  rw [← e, digit_eq lt] at b3
  exact_mod_cast b3.trans (Nat.mul_le_mul_left _ hi)

theorem peak_1024 : peakCheck [64, 63] 8 133214303 = true := by decide +kernel

theorem peak_512 : peakCheck [64, 63, 63] 9 94563509 = true := by decide +kernel

theorem peak_256 : peakCheck [64, 63, 63, 64] 10 66972032 = true := by decide +kernel

theorem peak_128 : peakCheck [64, 63, 63, 64, 63] 11 47385182 = true := by decide +kernel

theorem peak_64 : peakCheck [64, 63, 63, 64, 63, 63] 12 33508100 = true := by decide +kernel

theorem peak_32 : peakCheck [64, 63, 63, 64, 63, 63, 64] 13 23713208 = true := by decide +kernel

theorem peak_16 : peakCheck [64, 63, 63, 64, 63, 63, 64, 64] 14 16768606 = true := by decide +kernel

theorem peak_8 : peakCheck [64, 63, 63, 64, 63, 63, 64, 64, 64] 15 11857743 = true := by decide +kernel

theorem peak_4 : peakCheck [64, 63, 63, 64, 63, 63, 64, 64, 64, 63] 16 8385419 = true := by decide +kernel

theorem top_1024 : topCheck [64, 63] 72 133214302 = true := by decide +kernel

theorem top_512 : topCheck [64, 63, 63] 144 94563508 = true := by decide +kernel

theorem top_256 : topCheck [64, 63, 63, 64] 288 66972031 = true := by decide +kernel

theorem top_128 : topCheck [64, 63, 63, 64, 63] 576 47385181 = true := by decide +kernel

theorem top_64 : topCheck [64, 63, 63, 64, 63, 63] 1152 33508099 = true := by decide +kernel

theorem top_32 : topCheck [64, 63, 63, 64, 63, 63, 64] 2303 23713207 = true := by decide +kernel

theorem top_16 : topCheck [64, 63, 63, 64, 63, 63, 64, 64] 4606 16768605 = true := by decide +kernel

theorem top_8 : topCheck [64, 63, 63, 64, 63, 63, 64, 64, 64] 9213 11857742 = true := by decide +kernel

theorem top_4 : topCheck [64, 63, 63, 64, 63, 63, 64, 64, 64, 63] 18425 8385418 = true := by decide +kernel

end Falcon
