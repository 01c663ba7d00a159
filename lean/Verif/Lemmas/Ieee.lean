import Verif.Spec.Ieee
import Verif.Spec.Float
import Mathlib.Tactic.Linarith
import Mathlib.Tactic.Positivity
import Mathlib.Tactic.FieldSimp
import Mathlib.Tactic.Ring
import Mathlib.Algebra.Order.Field.Power
/-!
# Rounding to binary64
-/

namespace Falcon
namespace F64

theorem two_eq (k : Int) : two k = (2 : ℚ) ^ k := by
  unfold two
  split
  · next h =>
    obtain ⟨n, rfl⟩ := Int.eq_ofNat_of_zero_le h
    push_cast
    simp
  · next h =>
    obtain ⟨n, hn⟩ := Int.eq_ofNat_of_zero_le (show 0 ≤ -k by omega)
    rw [hn, Rat.mkRat_eq_div, show k = -(n : Int) by omega, zpow_neg]
    push_cast
    simp

theorem two_pos (k : Int) : 0 < two k := by rw [two_eq]; positivity

theorem log2_bounds (n : Nat) (h : n ≠ 0) : 2 ^ n.log2 ≤ n ∧ n < 2 ^ (n.log2 + 1) :=
  ⟨Nat.log2_self_le h, Nat.lt_log2_self⟩

theorem flog2_spec (x : ℚ) (h : 0 < x) : (2 : ℚ) ^ flog2 x ≤ x ∧ x < (2 : ℚ) ^ (flog2 x + 1) := by
  have hn : 0 < x.num := Rat.num_pos.2 h
  obtain ⟨a1, a2⟩ := log2_bounds x.num.natAbs (by omega)
  obtain ⟨b1, b2⟩ := log2_bounds x.den x.den_nz
  have e : x = (x.num.natAbs : ℚ) / (x.den : ℚ) := by
    conv_lhs => rw [← Rat.num_div_den x]
    congr 1
    have : ((x.num.natAbs : ℤ) : ℚ) = (x.num : ℚ) := congrArg _ (by omega)
    rw [← this, Int.cast_natCast]
  have hd : (0 : ℚ) < (x.den : ℚ) := by exact_mod_cast x.den_pos
  set p := x.num.natAbs.log2
  set q := x.den.log2
  have a1' : (2 : ℚ) ^ (p : ℤ) ≤ (x.num.natAbs : ℚ) := by rw [zpow_natCast]; exact_mod_cast a1
  have a2' : (x.num.natAbs : ℚ) < (2 : ℚ) ^ ((p : ℤ) + 1) := by
    rw [show ((p : ℤ) + 1) = ((p + 1 : Nat) : ℤ) by push_cast; ring, zpow_natCast]; exact_mod_cast a2
  have b1' : (2 : ℚ) ^ (q : ℤ) ≤ (x.den : ℚ) := by rw [zpow_natCast]; exact_mod_cast b1
  have b2' : (x.den : ℚ) < (2 : ℚ) ^ ((q : ℤ) + 1) := by
    rw [show ((q : ℤ) + 1) = ((q + 1 : Nat) : ℤ) by push_cast; ring, zpow_natCast]; exact_mod_cast b2
  have up : x < (2 : ℚ) ^ ((p : ℤ) - q + 1) := by
    rw [e, div_lt_iff₀ hd]
    calc (x.num.natAbs : ℚ) < (2 : ℚ) ^ ((p : ℤ) + 1) := a2'
      _ = (2 : ℚ) ^ ((p : ℤ) - q + 1) * (2 : ℚ) ^ (q : ℤ) := by rw [← zpow_add₀ (by norm_num)]; congr 1; ring
      _ ≤ _ := by gcongr
  have lo : (2 : ℚ) ^ ((p : ℤ) - q - 1) ≤ x := by
    rw [e, le_div_iff₀ hd]
    calc (2 : ℚ) ^ ((p : ℤ) - q - 1) * (x.den : ℚ) ≤ (2 : ℚ) ^ ((p : ℤ) - q - 1) * (2 : ℚ) ^ ((q : ℤ) + 1) := by gcongr
      _ = (2 : ℚ) ^ (p : ℤ) := by rw [← zpow_add₀ (by norm_num)]; congr 1; ring
      _ ≤ _ := a1'
  unfold flog2
  simp only
  rw [two_eq]
  split
  · next h => exact ⟨h, up⟩
  · next h =>
    push Not at h
    refine ⟨lo, ?_⟩
    rw [sub_add_cancel]
    exact h

theorem roundEven_spec (y : ℚ) : |(roundEven y : ℚ) - y| ≤ 1 / 2 := by
  have h1 : (y.floor : ℚ) ≤ y := Rat.floor_le y
  have h2 : y < y.floor + 1 := by have := Rat.lt_floor (x := y); linarith
  unfold roundEven
  simp only
  rw [abs_le]
  split
  · constructor <;> linarith
  · split
    · push_cast; constructor <;> linarith
    · split
      · constructor <;> linarith
      · push_cast; constructor <;> linarith

theorem roundEven_int (k : Int) : roundEven (k : ℚ) = k := by
  unfold roundEven
  simp only [Rat.floor_intCast, sub_self]
  norm_num

theorem roundEven_nonneg (y : ℚ) (h : 0 ≤ y) : 0 ≤ roundEven y := by
  have h2 := roundEven_spec y
  rw [abs_le] at h2
  have : (-1 : ℚ) < roundEven y := by linarith
  have : -1 < roundEven y := by exact_mod_cast this
  omega

/-- The rounding error: half a unit in the last place. -/
theorem nearest_ulp (x : ℚ) : |nearest x - x| ≤ two (ulpExp x) / 2 := by
  unfold nearest
  have h := roundEven_spec (x / two (ulpExp x))
  have hp := two_pos (ulpExp x)
  have e : (roundEven (x / two (ulpExp x)) : ℚ) * two (ulpExp x) - x =
      ((roundEven (x / two (ulpExp x)) : ℚ) - x / two (ulpExp x)) * two (ulpExp x) := by
    field_simp
  rw [e, abs_mul, abs_of_pos hp]
  nlinarith

/-- The rounding error of numbers that are not subnormal. -/
theorem nearest_rel (x : ℚ) (h : (2 : ℚ) ^ (-1022 : Int) ≤ x) : |nearest x - x| ≤ (2 : ℚ) ^ (-53 : Int) * x := by
  have hx : 0 < x := lt_of_lt_of_le (by positivity) h
  obtain ⟨h1, h2⟩ := flog2_spec x hx
  have hk : -1022 ≤ flog2 x := by
    by_contra hc
    have : (2 : ℚ) ^ (flog2 x + 1) ≤ (2 : ℚ) ^ (-1022 : Int) := zpow_le_zpow_right₀ (by norm_num) (by omega)
    linarith
  refine (nearest_ulp x).trans ?_
  rw [ulpExp, max_eq_left hk, two_eq]
  calc (2 : ℚ) ^ (flog2 x - 52) / 2 = (2 : ℚ) ^ (-53 : Int) * (2 : ℚ) ^ flog2 x := by
        rw [div_eq_mul_inv, show (2 : ℚ)⁻¹ = (2 : ℚ) ^ (-1 : Int) by norm_num, ← zpow_add₀ (by norm_num), ← zpow_add₀ (by norm_num)]
        congr 1; ring
    _ ≤ _ := by gcongr

/-- The rounding error in general: an absolute error of half the least positive number is added. -/
theorem nearest_abs (x : ℚ) (h : 0 < x) : |nearest x - x| ≤ (2 : ℚ) ^ (-53 : Int) * x + (2 : ℚ) ^ (-1075 : Int) := by
  by_cases hx : (2 : ℚ) ^ (-1022 : Int) ≤ x
  · have := nearest_rel x hx
    have h2 : (0 : ℚ) < (2 : ℚ) ^ (-1075 : Int) := by positivity
    linarith
  · push Not at hx
    obtain ⟨h1, h2⟩ := flog2_spec x h
    have hk : flog2 x ≤ -1022 := by
      by_contra hc
      have : (2 : ℚ) ^ (-1022 : Int) ≤ (2 : ℚ) ^ flog2 x := zpow_le_zpow_right₀ (by norm_num) (by omega)
      linarith
    refine (nearest_ulp x).trans ?_
    rw [ulpExp, max_eq_right hk, two_eq]
    have e : (2 : ℚ) ^ ((-1022 : Int) - 52) / 2 = (2 : ℚ) ^ (-1075 : Int) := by
      rw [div_eq_mul_inv, show (2 : ℚ)⁻¹ = (2 : ℚ) ^ (-1 : Int) by norm_num, ← zpow_add₀ (by norm_num)]
      congr 1
    rw [e]
    have : (0 : ℚ) ≤ (2 : ℚ) ^ (-53 : Int) * x := by positivity
    linarith

/-- Multiples of the unit in the last place are not changed. -/
theorem nearest_exact (x : ℚ) (m : Int) (e : Int) (hx : 0 < x) (hm : x = m * (2 : ℚ) ^ e) (hb : x < (2 : ℚ) ^ (e + 53)) (he : -1074 ≤ e) :
    nearest x = x := by
  obtain ⟨h1, h2⟩ := flog2_spec x hx
  have hk : flog2 x < e + 53 := by
    by_contra hc
    have : (2 : ℚ) ^ (e + 53) ≤ (2 : ℚ) ^ flog2 x := zpow_le_zpow_right₀ (by norm_num) (by omega)
    linarith
  have hu : ulpExp x ≤ e := by unfold ulpExp; omega
  obtain ⟨n, hn⟩ := Int.eq_ofNat_of_zero_le (show 0 ≤ e - ulpExp x by omega)
  have hq : x / two (ulpExp x) = ((m * 2 ^ n : Int) : ℚ) := by
    rw [two_eq, div_eq_iff (by positivity)]
    push_cast
    generalize ulpExp x = u at hn ⊢
    rw [hm, mul_assoc, ← zpow_natCast, ← zpow_add₀ (by norm_num)]
    congr 2
    omega
  unfold nearest
  rw [hq, roundEven_int, ← hq]
  field_simp [(two_pos (ulpExp x)).ne']

/-- Integers up to `2^53` are represented exactly. -/
theorem nearest_int (k : Int) (h : 0 < k) (h' : k ≤ 2 ^ 53) : nearest (k : ℚ) = k := by
  have hk : (0 : ℚ) < (k : ℚ) := by exact_mod_cast h
  rcases eq_or_lt_of_le h' with e | e
  · refine nearest_exact (k : ℚ) 1 53 hk (by rw [e]; norm_num) ?_ (by norm_num)
    rw [e]; norm_num
  · refine nearest_exact (k : ℚ) k 0 hk (by simp) ?_ (by norm_num)
    have : (k : ℚ) < ((2 ^ 53 : Int) : ℚ) := by exact_mod_cast e
    refine this.trans_le ?_
    norm_num

theorem ofRat_int (k : Int) (h : -(2 ^ 53) ≤ k) (h' : k ≤ 2 ^ 53) : ofRat (k : ℚ) = if k = 0 then .zero false else .fin k := by
  unfold ofRat
  by_cases h0 : k = 0
  · simp [h0]
  rw [if_neg (by exact_mod_cast h0), if_neg h0]
  have ha : |(k : ℚ)| = ((|k| : Int) : ℚ) := by push_cast; rfl
  have hn := nearest_int |k| (abs_pos.2 h0) (abs_le.2 ⟨by omega, h'⟩)
  unfold rnd
  simp only
  rw [ha, hn]
  have hpos : (0 : ℚ) < ((|k| : Int) : ℚ) := by exact_mod_cast abs_pos.2 h0
  have hlt : ((|k| : Int) : ℚ) < two 1024 := by
    have : ((|k| : Int) : ℚ) ≤ ((2 ^ 53 : Int) : ℚ) := by exact_mod_cast abs_le.2 ⟨by omega, h'⟩
    refine this.trans_lt ?_
    rw [two_eq]
    have e : ((2 ^ 53 : Int) : ℚ) = (2 : ℚ) ^ (53 : Int) := by norm_num
    rw [e]
    exact zpow_lt_zpow_right₀ (by norm_num) (by norm_num)
  rw [if_neg hpos.ne', if_neg (not_le.2 hlt)]
  by_cases hneg : k < 0
  · rw [if_pos (by exact_mod_cast hneg), abs_of_neg hneg]; simp
  · rw [if_neg (by exact_mod_cast hneg), abs_of_nonneg (by omega)]

theorem truncInt_int (k : Int) : truncInt (k : ℚ) = k := by
  unfold truncInt
  have e : (-(k : ℚ)) = ((-k : ℤ) : ℚ) := by push_cast; rfl
  rw [e]
  simp only [Rat.floor_intCast]
  split <;> omega

theorem toI64_int (k : Int) (h : -(2 ^ 53) ≤ k) (h' : k ≤ 2 ^ 53) : toI64 (.fin k) = k := by
  unfold toI64
  have e : val (.fin k) = (k : ℚ) := rfl
  rw [e, truncInt_int]
  have : -(2 ^ 63) ≤ k ∧ k < 2 ^ 63 := by omega
  rw [decide_eq_true this.1, decide_eq_true this.2]
  rfl

end F64

open F64

/-- IEEE arithmetic represents the integers of 32 bits exactly. -/
theorem ieee_exactInts : Spec.ExactInts ieeeOps := by
  intro k h1 h2
  show toI64 (ofRat (k : ℚ)) = k ∧ toI64 (floor (ofRat (k : ℚ))) = k
  rw [ofRat_int k (by omega) (by omega)]
  by_cases h0 : k = 0
  · subst h0
    decide
  · rw [if_neg h0]
    have e : floor (.fin k) = .fin k := by
      unfold floor
      simp only [Rat.floor_intCast, h0, if_false]
    rw [e]
    exact ⟨toI64_int k (by omega) (by omega), toI64_int k (by omega) (by omega)⟩

end Falcon
