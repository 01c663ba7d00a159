import Verif.Props.Entropy
import Verif.Props.Parity
import Verif.Props.KeyConst
/-!
# Candidates with two even sums (C93)
-/

namespace Falcon
open Spec

/-- The sum of the coefficients of a polynomial, its value at 1. -/
def coefSum (f : List Int16) : Int := (f.map Int16.toInt).sum

/-- C93: a key returned by `NtruGen` has an odd sum of coefficients of `f` or of `g`, for every floating-point behaviour, every random source and
every degree `2^k`. -/
theorem C93_generated (O : FloatOps) (k : Nat) (n : UInt16) (hn : n.toNat = 2 ^ k) (rand : Rand) (fuel pos pos' : Nat) (q : Quad)
    (h : NtruGen O rand fuel n pos = .ok (q, pos')) : coefSum q.f % 2 = 1 ∨ coefSum q.g % 2 = 1 := by
  obtain ⟨m, F, G, norm, r, lf, lg, -, -, -, -, hs, -, -⟩ := NtruGen_ok O rand fuel n pos q pos' h
  by_contra hc
  have hc : coefSum q.f % 2 = 0 ∧ coefSum q.g % 2 = 0 := by omega
  have h0 := C70_even O k (int16ToBigInt q.f) (int16ToBigInt q.g) (by rw [← hn, ← lf]; simp [int16ToBigInt]) (by rw [← hn, ← lg]; simp [int16ToBigInt])
    hc.1 hc.2 m
  have h1 := mono_of_succ (fun j => NtruSolve_succ O j (int16ToBigInt q.f) (int16ToBigInt q.g)) (show m ≤ m + k + 1 by omega)
  have h2 := h1.outcome (by rw [hs]; simp)
  rw [h0, hs] at h2
  simp at h2

/-- C93: the same for the keys of `GeneratePrivateKey`. -/
theorem C93_key (O : FloatOps) (rand : Rand) (fuel : Nat) (n : UInt16) (pos pos' : Nat) (key : PrivateKey)
    (h : GeneratePrivateKey O rand fuel n pos = .ok (.ok (key, pos'))) : coefSum key.f % 2 = 1 ∨ coefSum key.g % 2 = 1 := by
  obtain ⟨⟨k, -, -, hn⟩, -, hq⟩ := GeneratePrivateKey_ok O rand fuel n pos key pos' h
  exact C93_generated O k n hn rand fuel pos pos' _ hq

/-- 1 for even numbers, -1 for odd numbers. -/
def sgn (z : Int) : ℝ := if z % 2 = 0 then 1 else -1

theorem sgn_add (a b : Int) : sgn (a + b) = sgn a * sgn b := by
  unfold sgn
  split_ifs <;> first | omega | norm_num

theorem expect_sgn (S : Finset Int) (p : Int → ℝ) (m : Nat) : expect S p m (fun l => sgn l.sum) = (∑ z ∈ S, p z * sgn z) ^ m := by
  induction m with
  | zero => simp [expect, sgn]
  | succ m ih =>
    rw [expect, pow_succ', Finset.sum_mul]
    refine Finset.sum_congr rfl fun z _ => ?_
    simp_rw [List.sum_cons, sgn_add]
    rw [expect_smul, ih, mul_assoc]

/-- The difference between the probabilities of an even and an odd sample. -/
noncomputable def sampleBias : ℝ := -5446647951719657196521984 / 230839121479129981686078720

theorem sample_sgn {O : FloatOps} (k : KeyArith O) : ∑ z ∈ samples, keyProb O z * sgn z = sampleBias := by
  have e : ∀ z ∈ samples, keyProb O z * sgn z = (((sampleCount (z + 18).toNat : Int) * if z % 2 = 0 then 1 else -1 : Int) : ℝ) / 230839121479129981686078720 := by
    intro z hz
    unfold keyProb sgn
    rw [sampleCount_eq k z hz, keyTotal_eq k]
    split_ifs <;> push_cast <;> ring
  rw [Finset.sum_congr rfl e, ← Finset.sum_div, ← Int.cast_sum,
    show ∑ z ∈ samples, ((sampleCount (z + 18).toNat : Int) * if z % 2 = 0 then 1 else -1) = -5446647951719657196521984 by decide +kernel]
  unfold sampleBias
  norm_num

theorem sgn_ofInt (l : List Int) : sgn (coefSum (l.map Int16.ofInt)) = sgn l.sum := by
  induction l with
  | nil => rfl
  | cons a l ih =>
    unfold coefSum at ih ⊢
    rw [List.map_cons, List.map_cons, List.sum_cons, List.sum_cons, sgn_add, sgn_add, ih]
    congr 1
    unfold sgn
    rw [Int16.toInt_ofInt]
    have : (a.bmod (Int16.size)) % 2 = a % 2 := by
      rw [Int.bmod_def, show ((Int16.size : Nat) : Int) = 65536 from rfl]
      split <;> omega
    rw [this]

theorem sum_blockSums (k n : Nat) (l : List Int) (h : l.length = n * k) : (blockSums k n l).sum = l.sum := by
  induction n generalizing l with
  | zero =>
    rw [Nat.zero_mul, List.length_eq_zero_iff] at h
    subst h
    rfl
  | succ n ih =>
    rw [blockSums, List.sum_cons, ih _ (by rw [List.length_drop, h, Nat.succ_mul]; omega)]
    rw [← List.sum_append, List.take_append_drop]

/-- The sum of the coefficients of a polynomial of key generation is even with probability `(1 + sampleBias^4096) / 2`. -/
theorem expect_even {O : FloatOps} (k : KeyArith O) (n : Nat) (hd : n ∣ 4096) :
    expect (sums (4096 / n)) (coefProb O (4096 / n)) n (fun f => ind (coefSum (f.map Int16.ofInt) % 2 = 0)) = (1 + sampleBias ^ 4096) / 2 := by
  have e : ∀ f : List Int, ind (coefSum (f.map Int16.ofInt) % 2 = 0) = 1 / 2 + 1 / 2 * sgn f.sum := by
    intro f
    rw [← sgn_ofInt]
    unfold ind sgn
    split_ifs <;> norm_num
  simp_rw [e]
  rw [expect_add, expect_const _ _ (coefProb_sum k _), expect_smul, ← expect_blocks O (4096 / n) n (fun l => sgn l.sum),
    expect_congr samples (keyProb O) _ _ (fun l => sgn l.sum) (fun l hl _ => by rw [sum_blockSums _ _ l hl]), expect_sgn, sample_sgn k, Nat.mul_div_cancel' hd]
  ring

/-- The coefficients of both polynomials add up to an even number. -/
def EvenPair (f g : List Int16) : Prop := coefSum f % 2 = 0 ∧ coefSum g % 2 = 0

theorem expect_evenPair {O : FloatOps} (k : KeyArith O) (n : Nat) (hd : n ∣ 4096) :
    (expect (sums (4096 / n)) (coefProb O (4096 / n)) n fun f => expect (sums (4096 / n)) (coefProb O (4096 / n)) n fun g =>
      ind (EvenPair (f.map Int16.ofInt) (g.map Int16.ofInt))) = ((1 + sampleBias ^ 4096) / 2) ^ 2 := by
  have e : ∀ a b : List Int16, ind (EvenPair a b) = ind (coefSum a % 2 = 0) * ind (coefSum b % 2 = 0) := by
    intro a b
    unfold ind EvenPair
    split_ifs <;> simp_all
  simp_rw [e, expect_smul, mul_comm _ (expect _ _ _ _), expect_smul]
  rw [expect_even k n hd, sq]

/-- C93: the exact probability that both sums of a candidate are even is `((1 + sampleBias^4096) / 2)^2`, at every degree that divides 4096. -/
theorem C93_probability {O : FloatOps} (k : KeyArith O) (n : UInt16) (hn : n.toNat ≤ 4096) (hd : n.toNat ∣ 4096) (N : Nat) :
    meanDraws N (fun d => onPair (fun f g => ind (EvenPair f g)) (attempt O n d)) = returnProb O n N * ((1 + sampleBias ^ 4096) / 2) ^ 2 := by
  rw [mean_attempt k n hn hd N, expect_evenPair k n.toNat hd]

/-- It is at least 1/4, and 1/4 up to `10^-6000`. -/
theorem C93_quarter : 1 / 4 ≤ ((1 + sampleBias ^ 4096) / 2) ^ 2 ∧ ((1 + sampleBias ^ 4096) / 2) ^ 2 ≤ 1 / 4 + 1 / 10 ^ 6000 := by
  have h0 : 0 ≤ sampleBias ^ 4096 := Even.pow_nonneg (by decide) _
  have h1 : sampleBias ^ 4096 ≤ 1 / 10 ^ 6600 := by
    have h2 : sampleBias ^ 2 ≤ (236 / 10 ^ 4 : ℝ) ^ 2 := by
      unfold sampleBias
      norm_num
    rw [show 4096 = 2 * 2048 from rfl, pow_mul]
    refine (pow_le_pow_left₀ (sq_nonneg _) h2 2048).trans ?_
    rw [← pow_mul, div_pow, div_le_div_iff₀ (by positivity) (by positivity), ← pow_mul]
    have h : 236 ^ (2 * 2048) * 10 ^ 6600 ≤ 1 * 10 ^ (4 * (2 * 2048)) := by decide +kernel
    exact_mod_cast h
  have h2 : (1 : ℝ) / 10 ^ 6600 ≤ 1 / 10 ^ 6000 := one_div_le_one_div_of_le (by positivity) (pow_le_pow_right₀ (by norm_num) (by norm_num))
  have h3 : (1 : ℝ) / 10 ^ 6600 ≤ 1 := by
    rw [div_le_one (by positivity)]
    exact one_le_pow₀ (by norm_num)
  constructor
  · nlinarith
  · generalize sampleBias ^ 4096 = x at *
    generalize (1 : ℝ) / 10 ^ 6600 = y at *
    generalize (1 : ℝ) / 10 ^ 6000 = z at *
    nlinarith

/-- C93: the probability that `GeneratePrivateKey` returns a key with at most `t` candidates is at most `1 - 4^-t`, at every supported degree. -/
theorem C93_effort {O : FloatOps} (k : KeyArith O) (n : UInt16) (hn : n.toNat ≤ 4096) (hd : n.toNat ∣ 4096) (t N : Nat) :
    ((returnsKey O n (fun _ _ => True) t N).ncard : ℝ) / (2 ^ 88) ^ N ≤ 1 - (1 / 4) ^ t := by
  have e : returnsKey O n (fun _ _ => True) t N = returnsKey O n (fun f g => ¬ EvenPair f g) t N := by
    ext d
    constructor
    · rintro ⟨fuel, key, pos, h, hp, -⟩
      have := C93_key O _ _ _ _ _ _ h
      exact ⟨fuel, key, pos, h, hp, fun hc => by unfold EvenPair at hc; omega⟩
    · rintro ⟨fuel, key, pos, h, hp, -⟩
      exact ⟨fuel, key, pos, h, hp, trivial⟩
  rw [e]
  have := returnsKey_geom k n hn hd (fun f g => ¬ EvenPair f g) (3 / 4) (by norm_num) (by norm_num) ?_ t N
  · norm_num at this ⊢
    exact this
  have e : ∀ f g : List Int16, ind (¬ EvenPair f g) = 1 + (-1) * ind (EvenPair f g) := by
    intro f g
    unfold ind
    split_ifs <;> simp_all
  simp_rw [e, expect_add, expect_smul, expect_const _ _ (coefProb_sum k _)]
  rw [expect_evenPair k n.toNat hd]
  linarith [C93_quarter.1]

/-- Key generation returns keys, to which C93_key applies; here at degree 1024. -/
example : ∃ (rand : Rand) (key : PrivateKey), GeneratePrivateKey ieeeOps rand 2000 1024 0 = .ok (.ok (key, 8192)) ∧
    (coefSum key.f % 2 = 1 ∨ coefSum key.g % 2 = 1) := by
  obtain ⟨rand, key, h, -⟩ := C90_keygen 10 (by decide) (by decide)
  exact ⟨rand, key, (h 2000 le_rfl).1, C93_key ieeeOps rand 2000 1024 0 8192 key (h 2000 le_rfl).1⟩

/-- The candidate `f = 95 + x`, `g = 3 + x` has two even sums; it is short and `f` is invertible modulo `q`, but it cannot be completed. With `g = 3` it can. -/
example : EvenPair [95, 1] [3, 1] ∧ (95 ^ 2 + 1 + 3 ^ 2 + 1 : Int) ≤ 16822 ∧ NTT wrap64 [95, 1] = .ok [1574, 10905] ∧
    NtruSolve ieeeOps 2 [95, 1] [3, 1] = .ok none ∧ NtruSolve ieeeOps 20 [95, 1] [3, 0] = .ok (some ([21, -20], [130, -2])) := by
  refine ⟨⟨by decide, by decide⟩, by decide, by decide +kernel, C70_even ieeeOps 1 _ _ rfl rfl (by decide) (by decide) 0, by decide +kernel⟩

/-- The bound of C93_effort at degree 512: one candidate suffices with probability at most 3/4. -/
example (N : Nat) : ((returnsKey ieeeOps 512 (fun _ _ => True) 1 N).ncard : ℝ) / (2 ^ 88) ^ N ≤ 3 / 4 := by
  have := C93_effort key_ieee 512 (by decide) (by decide) 1 N
  norm_num at this ⊢
  exact this

end Falcon
