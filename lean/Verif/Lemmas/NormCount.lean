import Verif.Lemmas.Pack
import Verif.Props.PolyLaw
/-!
# Exact counting of the squared norm of a candidate

The law of a sum of independent integers is a power of a polynomial. Lower bounds for the coefficients of the power are computed with numbers
that hold a polynomial each (`Lemmas/Pack.lean`).
-/

namespace Falcon
open Polynomial Pack

/-- The polynomial of a weighted statistic. -/
noncomputable def weightPoly (S : Finset Int) (w : Int → Nat) (e : Int → Nat) : ℕ[X] := ∑ z ∈ S, C (w z) * X ^ e z

/-- The law of a sum of independent statistics. -/
theorem expect_weights (S : Finset Int) (w : Int → Nat) (T : Nat) (e : Int → Nat) (m i : Nat) :
    expect S (fun z => (w z : ℝ) / T) m (fun l => if (l.map e).sum = i then 1 else 0) = ((weightPoly S w e ^ m).coeff i : ℝ) / (T : ℝ) ^ m := by
  induction m generalizing i with
  | zero => simp [expect, coeff_one, eq_comm]
  | succ m ih =>
    rw [expect, pow_succ', weightPoly, Finset.sum_mul, finsetSum_coeff, Nat.cast_sum, Finset.sum_div]
    refine Finset.sum_congr rfl fun z _ => ?_
    rw [mul_assoc, coeff_C_mul, coeff_X_pow_mul']
    by_cases h : e z ≤ i
    · have hi : ∀ l : List Int, (if ((z :: l).map e).sum = i then (1 : ℝ) else 0) = if (l.map e).sum = i - e z then 1 else 0 := by
        intro l
        rw [List.map_cons, List.sum_cons]
        congr 1
        exact propext (by omega)
      simp_rw [hi]
      rw [ih, if_pos h, ← weightPoly]
      push_cast
      rw [pow_succ']
      ring
    · rw [if_neg h, expect_zero]
      · simp
      · intro l _ _
        rw [List.map_cons, List.sum_cons, if_neg]
        omega

theorem expect_window (S : Finset Int) (w : Int → Nat) (T : Nat) (e : Int → Nat) (m k cnt : Nat) :
    expect S (fun z => (w z : ℝ) / T) m (fun l => if k ≤ (l.map e).sum ∧ (l.map e).sum < k + cnt then 1 else 0) =
      ((∑ i ∈ Finset.range cnt, (weightPoly S w e ^ m).coeff (k + i) : Nat) : ℝ) / (T : ℝ) ^ m := by
  rw [Nat.cast_sum, Finset.sum_div]
  simp_rw [← expect_weights]
  rw [← expect_sum]
  refine expect_congr _ _ _ _ _ fun l _ _ => ?_
  generalize (l.map e).sum = s
  by_cases h : k ≤ s ∧ s < k + cnt
  · rw [if_pos h, Finset.sum_eq_single (s - k)]
    · rw [if_pos (by omega)]
    · intro i _ hi
      rw [if_neg (by omega)]
    · intro hi
      rw [Finset.mem_range] at hi
      omega
  · rw [if_neg h, eq_comm]
    refine Finset.sum_eq_zero fun i hi => ?_
    rw [Finset.mem_range] at hi
    rw [if_neg (by omega)]

/-! ### Squaring several times -/

/-- Square, keep `K` coefficients and remove low bits, once for each element of the list. -/
def steps (b K : Nat) : List Nat → Nat → Nat
  | [], N => N
  | s :: l, N => steps b K l (step b s K N)

/-- The exponent of the scale after the steps. -/
def stepsS : List Nat → Nat → Nat
  | [], S => S
  | s :: l, S => stepsS l (2 * S + s)

/-- The bound of the total after the steps, if no coefficient can overflow. -/
def stepsT (b : Nat) : List Nat → Nat → Option Nat
  | [], T => some T
  | s :: l, T => if T ^ 2 < 2 ^ b ∧ s ≤ b then stepsT b l (T ^ 2 / 2 ^ s) else none

theorem Below.steps {b : Nat} (hb : 0 < b) (K : Nat) (l : List Nat) {Q : ℕ[X]} {S T N T' : Nat} (h : Below b Q S T N)
    (hT : stepsT b l T = some T') : Below b (Q ^ 2 ^ l.length) (stepsS l S) T' (steps b K l N) := by
  induction l generalizing Q S T N with
  | nil =>
    simp only [stepsT, Option.some.injEq] at hT
    simpa [Falcon.steps, stepsS, ← hT] using h
  | cons s l ih =>
    rw [stepsT] at hT
    split at hT
    · rename_i hc
      have := ih (h.step hc.1 s K hc.2 hb) hT
      rw [List.length_cons, pow_succ', pow_mul]
      exact this
    · simp at hT

/-- A field of a packed number. -/
def digit (b N i : Nat) : Nat := (N / (2 ^ b) ^ i) % 2 ^ b

theorem digit_eq {b : Nat} {p : ℕ[X]} (hp : ∀ i, p.coeff i < 2 ^ b) (i : Nat) : digit b (p.eval (2 ^ b)) i = p.coeff i := by
  have h := eval_mod ((divX^[i]) p) (2 ^ b) (fun j => by rw [divX_iter_coeff]; exact hp _) 1
  rw [digit, eval_div p _ hp]
  simpa [divX_iter_coeff] using h

/-- Moves field `off + c` to field `c^2`, for `|c| <= m`. -/
def toSquares (b N off : Nat) : Nat → Nat
  | 0 => digit b N off
  | c + 1 => toSquares b N off c + (digit b N (off + (c + 1)) + digit b N (off - (c + 1))) * (2 ^ b) ^ ((c + 1) ^ 2)

/-- The same for polynomials. -/
noncomputable def polySquares (p : ℕ[X]) (off : Nat) : Nat → ℕ[X]
  | 0 => C (p.coeff off)
  | c + 1 => polySquares p off c + C (p.coeff (off + (c + 1)) + p.coeff (off - (c + 1))) * X ^ ((c + 1) ^ 2)

theorem polySquares_eval {b : Nat} {p : ℕ[X]} (hp : ∀ i, p.coeff i < 2 ^ b) (off m : Nat) :
    (polySquares p off m).eval (2 ^ b) = toSquares b (p.eval (2 ^ b)) off m := by
  induction m with
  | zero => simp [polySquares, toSquares, digit_eq hp]
  | succ m ih =>
    rw [polySquares, toSquares, eval_add, ih, eval_mul, eval_C, eval_pow, eval_X, digit_eq hp, digit_eq hp]

theorem polySquares_one (p : ℕ[X]) (off m : Nat) (hm : m ≤ off) :
    (polySquares p off m).eval 1 = ∑ i ∈ Finset.Icc (off - m) (off + m), p.coeff i := by
  induction m with
  | zero => simp [polySquares]
  | succ m ih =>
    rw [polySquares, eval_add, ih (by omega), eval_mul, eval_C, eval_pow, eval_X, one_pow, mul_one]
    have e : Finset.Icc (off - (m + 1)) (off + (m + 1)) = insert (off - (m + 1)) (insert (off + (m + 1)) (Finset.Icc (off - m) (off + m))) := by
      ext i
      simp only [Finset.mem_insert, Finset.mem_Icc]
      omega
    rw [e, Finset.sum_insert, Finset.sum_insert]
    · ring
    · simp
    · simp only [Finset.mem_insert, Finset.mem_Icc]
      omega

theorem sum_coeff_le (p : ℕ[X]) (s : Finset Nat) : ∑ i ∈ s, p.coeff i ≤ p.eval 1 := by
  rw [eval_eq_sum_range]
  simp only [one_pow, mul_one]
  calc ∑ i ∈ s, p.coeff i ≤ ∑ i ∈ s ∪ Finset.range (p.natDegree + 1), p.coeff i :=
        Finset.sum_le_sum_of_subset Finset.subset_union_left
    _ = ∑ i ∈ Finset.range (p.natDegree + 1), p.coeff i := by
        refine (Finset.sum_subset Finset.subset_union_right fun i _ hi => ?_).symm
        rw [Finset.mem_range] at hi
        exact coeff_eq_zero_of_natDegree_lt (by omega)

theorem polySquares_weight (p : ℕ[X]) (off m : Nat) (hm : m ≤ off) :
    polySquares p off m = weightPoly (Finset.Icc (-(m : Int)) m) (fun c => p.coeff (c + off).toNat) (fun c => (c ^ 2).toNat) := by
  induction m with
  | zero => simp [polySquares, weightPoly]
  | succ m ih =>
    rw [polySquares, ih (by omega)]
    have e : Finset.Icc (-((m + 1 : Nat) : Int)) ((m + 1 : Nat) : Int) =
        insert (-((m + 1 : Nat) : Int)) (insert ((m + 1 : Nat) : Int) (Finset.Icc (-(m : Int)) m)) := by
      ext i
      simp only [Finset.mem_insert, Finset.mem_Icc]
      omega
    unfold weightPoly
    rw [e, Finset.sum_insert, Finset.sum_insert]
    · have h1 : (((m + 1 : Nat) : Int) ^ 2).toNat = (m + 1) ^ 2 := by
        rw [← Nat.cast_pow, Int.toNat_natCast]
      have h2 : ((-((m + 1 : Nat) : Int)) ^ 2).toNat = (m + 1) ^ 2 := by
        rw [neg_sq, h1]
      dsimp only
      rw [h1, h2, show (((m + 1 : Nat) : Int) + off).toNat = off + (m + 1) by omega,
        show ((-((m + 1 : Nat) : Int)) + off).toNat = off - (m + 1) by omega, C_add]
      ring
    · simp
    · simp only [Finset.mem_insert, Finset.mem_Icc]
      omega

/-- From the law of a coefficient to the law of its square. -/
theorem Below.squares {b : Nat} {P : ℕ[X]} {S T N : Nat} (h : Below b P S T N) (hT : T < 2 ^ b) (off m : Nat) (hm : m ≤ off) (U : Finset Int)
    (hU : Finset.Icc (-(m : Int)) m ⊆ U) :
    Below b (weightPoly U (fun c => P.coeff (c + off).toNat) (fun c => (c ^ 2).toNat)) S T (toSquares b N off m) := by
  obtain ⟨p, e, h1, hc⟩ := h
  have hp : ∀ i, p.coeff i < 2 ^ b := fun i => ((coeff_le_eval_one p i).trans h1).trans_lt hT
  refine ⟨polySquares p off m, ?_, ?_, fun i => ?_⟩
  · rw [polySquares_eval hp, e]
  · rw [polySquares_one p off m hm]
    exact (sum_coeff_le p _).trans h1
  · rw [polySquares_weight p off m hm]
    unfold weightPoly
    rw [finsetSum_coeff, finsetSum_coeff, Finset.mul_sum]
    refine (Finset.sum_le_sum fun c _ => ?_).trans (Finset.sum_le_sum_of_subset hU)
    rw [coeff_C_mul, coeff_C_mul, ← mul_assoc]
    exact Nat.mul_le_mul_right _ (hc _)

/-! ### One sample -/

/-- The number of draws that give the sample `i - 18`. -/
def sampleCount (i : Nat) : Nat :=
  if i ≤ 18 then baseCount (18 - i) * (128 * acceptBytes (keyShift 0 (18 - i))) else baseCount (i - 19) * (128 * acceptBytes (keyShift 1 (i - 19)))

theorem sampleCount_eq {O : FloatOps} (k : KeyArith O) (z : Int) (hz : z ∈ samples) : (keyHits O z).ncard = sampleCount (z + 18).toNat := by
  rw [Finset.mem_Icc] at hz
  unfold sampleCount
  split
  · have := C60_key k 0 (18 - (z + 18).toNat) (by omega) (by omega)
    rw [← this]
    congr 2
    push_cast
    omega
  · have := C60_key k 1 ((z + 18).toNat - 19) (by omega) (by omega)
    rw [← this]
    congr 2
    push_cast
    omega

/-- The law of one sample, packed, without the low `t` bits of each count. -/
def packSample (b t : Nat) : Nat → Nat
  | 0 => 0
  | m + 1 => packSample b t m + sampleCount m / 2 ^ t * (2 ^ b) ^ m

theorem packSample_eq (b t m : Nat) : packSample b t m = ∑ i ∈ Finset.range m, sampleCount i / 2 ^ t * (2 ^ b) ^ i := by
  induction m with
  | zero => rfl
  | succ m ih => rw [packSample, ih, Finset.sum_range_succ]

theorem below_sample (b t : Nat) (T : Nat) (hT : ∑ i ∈ Finset.range 38, sampleCount i / 2 ^ t ≤ T) :
    Below b (weightPoly samples (fun z => sampleCount (z + 18).toNat) fun z => (z + 18).toNat) t T (packSample b t 38) := by
  have e : weightPoly samples (fun z => sampleCount (z + 18).toNat) (fun z => (z + 18).toNat) = ∑ i ∈ Finset.range 38, C (sampleCount i) * X ^ i := by
    unfold weightPoly
    refine Finset.sum_nbij' (fun z => (z + 18).toNat) (fun i => (i : Int) - 18) ?_ ?_ ?_ ?_ ?_
    · intro z hz
      rw [Finset.mem_Icc] at hz
      rw [Finset.mem_range]
      omega
    · intro i hi
      rw [Finset.mem_range] at hi
      rw [Finset.mem_Icc]
      omega
    · intro z hz
      rw [Finset.mem_Icc] at hz
      omega
    · intro i hi
      simp
    · intro z hz
      rfl
  rw [e]
  refine ⟨∑ i ∈ Finset.range 38, C (sampleCount i / 2 ^ t) * X ^ i, ?_, ?_, fun i => ?_⟩
  · rw [packSample_eq, eval_finsetSum]
    simp
  · rw [eval_finsetSum]
    simpa using hT
  · rw [finsetSum_coeff, finsetSum_coeff, Finset.mul_sum]
    refine Finset.sum_le_sum fun j _ => ?_
    rw [coeff_C_mul, coeff_C_mul, ← mul_assoc]
    exact Nat.mul_le_mul_right _ (Nat.mul_div_le _ _)

/-- The law of a coefficient. -/
theorem coefProb_poly {O : FloatOps} (k : KeyArith O) (K : Nat) (c : Int) (hc : c ∈ sums K) :
    coefProb O K c = (((weightPoly samples (fun z => sampleCount (z + 18).toNat) fun z => (z + 18).toNat) ^ K).coeff (c + (18 * K : Nat)).toNat : ℝ) /
      (230839121479129981686078720 ^ K : Nat) := by
  have h := expect_weights samples (fun z => sampleCount (z + 18).toNat) 230839121479129981686078720 (fun z => (z + 18).toNat) K
    (c + (18 * K : Nat)).toNat
  push_cast at h ⊢
  rw [← h]
  unfold coefProb
  have hp : ∀ m (φ : List Int → ℝ), expect samples (keyProb O) m φ =
      expect samples (fun z => ((sampleCount (z + 18).toNat : Nat) : ℝ) / 230839121479129981686078720) m φ := by
    intro m
    induction m with
    | zero => intro φ; rfl
    | succ m ih =>
      intro φ
      rw [expect, expect]
      refine Finset.sum_congr rfl fun z hz => ?_
      rw [ih]
      congr 1
      unfold keyProb
      rw [keyTotal_eq k, sampleCount_eq k z hz]
      norm_num
  rw [hp]
  refine expect_congr _ _ _ _ _ fun l hl hm => ?_
  have hs : ∀ l : List Int, (∀ z ∈ l, z ∈ samples) → (((l.map fun z => (z + 18).toNat).sum : Nat) : Int) = l.sum + 18 * l.length := by
    intro l
    induction l with
    | nil => simp
    | cons a l ih =>
      intro hm
      have h1 := ih fun z hz => hm z (List.mem_cons_of_mem _ hz)
      have h2 := hm a List.mem_cons_self
      rw [Finset.mem_Icc] at h2
      rw [List.map_cons, List.sum_cons, List.sum_cons, List.length_cons, Nat.cast_add]
      omega
  have h1 := hs l hm
  rw [hl] at h1
  rw [Finset.mem_Icc] at hc
  congr 1
  refine propext ⟨fun h => ?_, fun h => ?_⟩ <;> omega

end Falcon
