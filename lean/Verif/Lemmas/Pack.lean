import Mathlib.Algebra.Polynomial.Eval.Defs
import Mathlib.Algebra.Polynomial.Eval.Coeff
import Mathlib.Algebra.Polynomial.Inductions
import Mathlib.Algebra.Polynomial.Eval.Degree
import Mathlib.Algebra.Order.BigOperators.Group.Finset
import Mathlib.Data.Nat.Bitwise
import Mathlib.Algebra.Ring.GeomSum
import Mathlib.Data.Nat.ModEq
import Mathlib.Tactic.Ring
import Mathlib.Tactic.NormNum
import Mathlib.Data.Fintype.BigOperators
import Mathlib.Algebra.BigOperators.Fin
/-!
# Counting by multiplication of large numbers

A polynomial with natural coefficients below `2^b` is represented by its value at `2^b`; products, the removal of low bits of every
coefficient and sums of coefficients are then operations on one number.
-/

namespace Falcon.Pack
open Polynomial

theorem land_split (b x y c d : Nat) (hx : x < 2 ^ b) (hy : y < 2 ^ b) :
    (2 ^ b * c + x) &&& (2 ^ b * d + y) = 2 ^ b * (c &&& d) + (x &&& y) := by
  apply Nat.eq_of_testBit_eq
  intro i
  rw [Nat.testBit_and, Nat.testBit_two_pow_mul_add _ hx, Nat.testBit_two_pow_mul_add _ hy,
    Nat.testBit_two_pow_mul_add _ (Nat.and_lt_two_pow _ hy)]
  split <;> rw [Nat.testBit_and]

theorem land_high (b s a : Nat) (hs : s ≤ b) (ha : a < 2 ^ b) : a &&& (2 ^ b - 2 ^ s) = 2 ^ s * (a / 2 ^ s) := by
  have e : 2 ^ b - 2 ^ s = 2 ^ s * (2 ^ (b - s) - 1) + 0 := by
    rw [Nat.mul_sub, ← pow_add, Nat.add_sub_cancel' hs]; simp
  have h := land_split s (a % 2 ^ s) 0 (a / 2 ^ s) (2 ^ (b - s) - 1) (Nat.mod_lt _ (by positivity)) (by positivity)
  rw [Nat.div_add_mod, ← e, Nat.and_zero, Nat.and_two_pow_sub_one_eq_mod, Nat.add_zero, Nat.mod_eq_of_lt] at h
  · exact h
  · rw [Nat.div_lt_iff_lt_mul (by positivity), ← pow_add, Nat.sub_add_cancel hs]; exact ha

/-- The mask that keeps the bits from `s` of the first `K` coefficients. -/
def mask (b s K : Nat) : Nat := (2 ^ b - 2 ^ s) * (((2 ^ b) ^ K - 1) / (2 ^ b - 1))

theorem mask_succ (b s K : Nat) (hb : 0 < b) : mask b s (K + 1) = 2 ^ b * mask b s K + (2 ^ b - 2 ^ s) := by
  have h1 : 1 < 2 ^ b := Nat.one_lt_two_pow (by omega)
  have e : ((2 ^ b) ^ (K + 1) - 1) / (2 ^ b - 1) = 2 ^ b * (((2 ^ b) ^ K - 1) / (2 ^ b - 1)) + 1 := by
    obtain ⟨d, hd⟩ : 2 ^ b - 1 ∣ (2 ^ b) ^ K - 1 := by
      simpa using Nat.sub_dvd_pow_sub_pow (2 ^ b) 1 K
    have hp : 0 < (2 ^ b) ^ K := by positivity
    rw [hd, Nat.mul_div_cancel_left _ (by omega)]
    apply Nat.div_eq_of_eq_mul_right (by omega)
    generalize (2 : Nat) ^ b = B at *
    obtain ⟨k, rfl⟩ : ∃ k, B = k + 1 := ⟨B - 1, by omega⟩
    simp only [Nat.add_sub_cancel] at hd ⊢
    have : (k + 1) ^ K = k * d + 1 := by omega
    rw [pow_succ, this]
    have : (k * d + 1) * (k + 1) = k * ((k + 1) * d + 1) + 1 := by ring
    omega
  rw [mask, e, mask, mul_add, mul_one]
  ring

/-- The first `K` coefficients without their `s` low bits. -/
noncomputable def trim (s : Nat) : Nat → ℕ[X] → ℕ[X]
  | 0, _ => 0
  | K + 1, p => trim s K (divX p) * X + C (p.coeff 0 / 2 ^ s)

theorem trim_coeff (s K : Nat) (p : ℕ[X]) (i : Nat) : 2 ^ s * (trim s K p).coeff i ≤ p.coeff i := by
  induction K generalizing p i with
  | zero => simp [trim]
  | succ K ih =>
    cases i with
    | zero => simpa [trim] using Nat.mul_div_le _ _
    | succ i => simpa [trim, coeff_divX] using ih (divX p) i

theorem eval_divX (p : ℕ[X]) (B : Nat) : p.eval B = B * (divX p).eval B + p.coeff 0 := by
  conv_lhs => rw [← divX_mul_X_add p]
  simp [mul_comm]

theorem trim_eval_one (s K : Nat) (p : ℕ[X]) : 2 ^ s * (trim s K p).eval 1 ≤ p.eval 1 := by
  induction K generalizing p with
  | zero => simp [trim]
  | succ K ih =>
    have := ih (divX p)
    have h0 := Nat.mul_div_le (p.coeff 0) (2 ^ s)
    rw [eval_divX p 1]
    simp only [trim, eval_add, eval_mul, eval_X, eval_C, mul_one, one_mul, mul_add]
    omega

theorem trim_eval (b s K : Nat) (hb : 0 < b) (hs : s ≤ b) (p : ℕ[X]) (hp : ∀ i, p.coeff i < 2 ^ b) :
    p.eval (2 ^ b) &&& mask b s K = 2 ^ s * (trim s K p).eval (2 ^ b) := by
  induction K generalizing p with
  | zero => simp [trim, mask]
  | succ K ih =>
    have h1 : 1 ≤ 2 ^ s := Nat.one_le_two_pow
    have h2 : 1 ≤ 2 ^ b := Nat.one_le_two_pow
    rw [mask_succ b s K hb, eval_divX, land_split b _ _ _ _ (hp 0) (by omega),
      ih (divX p) (fun i => by rw [coeff_divX]; exact hp _), land_high b s _ hs (hp 0), trim]
    simp only [eval_add, eval_mul, eval_X, eval_C]
    ring

/-- One step: square, keep `K` coefficients, remove their `s` low bits. -/
def step (b s K N : Nat) : Nat := (N ^ 2 &&& mask b s K) >>> s

theorem coeff_le_eval_one (p : ℕ[X]) (i : Nat) : p.coeff i ≤ p.eval 1 := by
  rw [eval_eq_sum_range]
  simp only [one_pow, mul_one]
  by_cases h : i ∈ Finset.range (p.natDegree + 1)
  · exact Finset.single_le_sum (f := fun i => p.coeff i) (fun _ _ => Nat.zero_le _) h
  · rw [Finset.mem_range] at h
    rw [coeff_eq_zero_of_natDegree_lt (by omega)]
    exact Nat.zero_le _

/-- `N` represents, after division by `2^S`, a polynomial below `Q` whose coefficients add up to at most `T`. -/
def Below (b : Nat) (Q : ℕ[X]) (S T N : Nat) : Prop :=
  ∃ p : ℕ[X], p.eval (2 ^ b) = N ∧ p.eval 1 ≤ T ∧ ∀ i, 2 ^ S * p.coeff i ≤ Q.coeff i

theorem sq_coeff {p Q : ℕ[X]} {S : Nat} (h : ∀ i, 2 ^ S * p.coeff i ≤ Q.coeff i) (i : Nat) :
    2 ^ (2 * S) * (p ^ 2).coeff i ≤ (Q ^ 2).coeff i := by
  rw [sq, sq, coeff_mul, coeff_mul, Finset.mul_sum]
  apply Finset.sum_le_sum
  intro x _
  calc 2 ^ (2 * S) * (p.coeff x.1 * p.coeff x.2) = (2 ^ S * p.coeff x.1) * (2 ^ S * p.coeff x.2) := by
        rw [two_mul, pow_add]; ring
    _ ≤ _ := Nat.mul_le_mul (h _) (h _)

theorem Below.sq {b : Nat} {Q : ℕ[X]} {S T N : Nat} (h : Below b Q S T N) : Below b (Q ^ 2) (2 * S) (T ^ 2) (N ^ 2) := by
  obtain ⟨p, e, h1, hc⟩ := h
  exact ⟨p ^ 2, by rw [eval_pow, e], by rw [eval_pow]; exact Nat.pow_le_pow_left h1 2, sq_coeff hc⟩

theorem Below.step {b : Nat} {Q : ℕ[X]} {S T N : Nat} (h : Below b Q S T N) (hT : T ^ 2 < 2 ^ b) (s K : Nat) (hs : s ≤ b)
    (hb : 0 < b) : Below b (Q ^ 2) (2 * S + s) (T ^ 2 / 2 ^ s) (step b s K N) := by
  obtain ⟨p, e, h1, hc⟩ := h.sq
  refine ⟨trim s K p, ?_, ?_, fun i => ?_⟩
  · rw [Pack.step, ← e, trim_eval b s K hb hs p fun i => ((coeff_le_eval_one p i).trans h1).trans_lt hT, Nat.shiftRight_eq_div_pow,
      Nat.mul_div_cancel_left _ (by positivity)]
  · rw [Nat.le_div_iff_mul_le (by positivity), mul_comm]
    exact (trim_eval_one s K p).trans h1
  · rw [pow_add, mul_assoc]
    exact (Nat.mul_le_mul_left _ (trim_coeff s K p i)).trans (hc i)

theorem divX_iter_coeff (p : ℕ[X]) (k i : Nat) : ((divX^[k]) p).coeff i = p.coeff (k + i) := by
  induction k generalizing i with
  | zero => simp
  | succ k ih => rw [Function.iterate_succ_apply', coeff_divX, ih, Nat.add_right_comm, Nat.add_assoc]; 

theorem eval_div (p : ℕ[X]) (B : Nat) (hp : ∀ i, p.coeff i < B) (k : Nat) : p.eval B / B ^ k = ((divX^[k]) p).eval B := by
  induction k with
  | zero => simp
  | succ k ih =>
    have hB : 0 < B := by have := hp 0; omega
    rw [pow_succ, ← Nat.div_div_eq_div_mul, ih, Function.iterate_succ_apply', eval_divX ((divX^[k]) p) B,
      Nat.mul_add_div hB, Nat.div_eq_of_lt, Nat.add_zero]
    rw [divX_iter_coeff]
    exact hp _

theorem eval_mod (p : ℕ[X]) (B : Nat) (hp : ∀ i, p.coeff i < B) (k : Nat) :
    p.eval B % B ^ k = ∑ i ∈ Finset.range k, p.coeff i * B ^ i := by
  induction k generalizing p with
  | zero => simp [Nat.mod_one]
  | succ k ih =>
    have hB : 0 < B := by have := hp 0; omega
    have h := ih (divX p) (fun i => by rw [coeff_divX]; exact hp _)
    rw [Finset.sum_range_succ', eval_divX p B, pow_succ', Nat.mod_mul, Nat.mul_add_mod, Nat.mod_eq_of_lt (hp 0), Nat.mul_add_div hB,
      Nat.div_eq_of_lt (hp 0), Nat.add_zero, h, Finset.mul_sum]
    simp only [coeff_divX, pow_zero, mul_one]
    rw [add_comm]
    congr 1
    apply Finset.sum_congr rfl
    intro i _
    ring

/-- The sum of the coefficients from `k`, `cnt` of them. -/
def window (b N k cnt : Nat) : Nat := ((N / (2 ^ b) ^ k) % (2 ^ b) ^ cnt) % (2 ^ b - 1)

theorem Below.window {b : Nat} {Q : ℕ[X]} {S T N : Nat} (h : Below b Q S T N) (hT : T < 2 ^ b) (k cnt : Nat) :
    2 ^ S * window b N k cnt ≤ ∑ i ∈ Finset.range cnt, Q.coeff (k + i) := by
  obtain ⟨p, e, h1, hc⟩ := h
  have hp : ∀ i, p.coeff i < 2 ^ b := fun i => ((coeff_le_eval_one p i).trans h1).trans_lt hT
  have hw : Pack.window b N k cnt ≤ ∑ i ∈ Finset.range cnt, p.coeff (k + i) := by
    rw [Pack.window, ← e, eval_div p _ hp, eval_mod _ _ (fun i => by rw [divX_iter_coeff]; exact hp _)]
    simp only [divX_iter_coeff]
    have hm : Nat.ModEq (2 ^ b - 1) (∑ i ∈ Finset.range cnt, p.coeff (k + i) * (2 ^ b) ^ i)
        (∑ i ∈ Finset.range cnt, p.coeff (k + i)) := by
      induction cnt with
      | zero => exact Nat.ModEq.refl _
      | succ n ih =>
        rw [Finset.sum_range_succ, Finset.sum_range_succ]
        refine ih.add ?_
        have : Nat.ModEq (2 ^ b - 1) ((2 ^ b) ^ n) (1 ^ n) := by
          apply Nat.ModEq.pow
          have h2 : 1 ≤ 2 ^ b := Nat.one_le_two_pow
          exact ((Nat.modEq_iff_dvd' h2).2 dvd_rfl).symm
        rw [one_pow] at this
        simpa using (Nat.ModEq.refl (p.coeff (k + n))).mul this
    rw [hm]
    exact Nat.mod_le _ _
  refine (Nat.mul_le_mul_left _ hw).trans ?_
  rw [Finset.mul_sum]
  exact Finset.sum_le_sum fun i _ => hc _

/-- The polynomial of a statistic: the coefficient of `X^k` is the number of arguments with value `k`. -/
noncomputable def genPoly {α : Type} [Fintype α] (f : α → Nat) : ℕ[X] := ∑ x, X ^ f x

theorem genPoly_pow {α : Type} [Fintype α] (f : α → Nat) (n : Nat) :
    genPoly f ^ n = ∑ u : Fin n → α, X ^ (∑ i, f (u i)) := by
  unfold genPoly
  rw [Fintype.sum_pow]
  apply Finset.sum_congr rfl
  intro u _
  rw [Finset.prod_pow_eq_pow_sum]

theorem genPoly_coeff {α : Type} [Fintype α] (f : α → Nat) (n k : Nat) :
    (genPoly f ^ n).coeff k = (Finset.univ.filter fun u : Fin n → α => ∑ i, f (u i) = k).card := by
  rw [genPoly_pow, finsetSum_coeff, Finset.card_filter]
  apply Finset.sum_congr rfl
  intro u _
  rw [coeff_X_pow]
  simp only [eq_comm]

theorem genPoly_window {α : Type} [Fintype α] (f : α → Nat) (n k cnt : Nat) :
    ∑ i ∈ Finset.range cnt, (genPoly f ^ n).coeff (k + i) =
      (Finset.univ.filter fun u : Fin n → α => k ≤ ∑ i, f (u i) ∧ ∑ i, f (u i) < k + cnt).card := by
  classical
  induction cnt with
  | zero =>
    rw [Finset.sum_range_zero, eq_comm, Finset.card_eq_zero, Finset.filter_eq_empty_iff]
    intro u _
    omega
  | succ m ih =>
    rw [Finset.sum_range_succ, ih, genPoly_coeff, ← Finset.card_union_of_disjoint]
    · congr 1
      ext u
      simp only [Finset.mem_union, Finset.mem_filter, Finset.mem_univ, true_and]
      omega
    · rw [Finset.disjoint_filter]
      intro u _
      omega

theorem genPoly_below {α : Type} [Fintype α] (b : Nat) (f : α → Nat) :
    Below b (genPoly f) 0 (Fintype.card α) (∑ x, (2 ^ b) ^ f x) := by
  refine ⟨genPoly f, ?_, ?_, fun i => by simp⟩
  · simp [genPoly, eval_finsetSum]
  · simp [genPoly, eval_finsetSum]

/-- The sum of `B ^ (f i - f lo)` over the `2^k` arguments from `lo`. -/
def sumPow (B : Nat) (f : Nat → Nat) : Nat → Nat → Nat
  | 0, _ => 1
  | k + 1, lo => sumPow B f k lo + sumPow B f k (lo + 2 ^ k) * B ^ (f (lo + 2 ^ k) - f lo)

theorem sumPow_eq (B : Nat) (f : Nat → Nat) (hf : Monotone f) (k lo : Nat) :
    sumPow B f k lo * B ^ f lo = ∑ i ∈ Finset.range (2 ^ k), B ^ f (lo + i) := by
  induction k generalizing lo with
  | zero => simp [sumPow]
  | succ k ih =>
    rw [sumPow, add_mul, ih, mul_assoc, ← pow_add, Nat.sub_add_cancel (hf (Nat.le_add_right _ _)), ih, pow_succ, mul_two,
      Finset.sum_range_add]
    simp only [Nat.add_assoc]

end Falcon.Pack
