import Verif.Lemmas.Round
import Mathlib.Analysis.SpecialFunctions.Pow.Real
/-!
# The rounding error of the square root
-/

namespace Falcon.F64

theorem sqrtApprox_near (x : ℚ) (hx : 0 < x) : |(sqrtApprox x : ℝ) - √(x : ℝ)| ≤ √(x : ℝ) / 2 ^ 64 := by
  obtain ⟨f1, -⟩ := flog2_spec x hx
  obtain ⟨k, hk⟩ : ∃ k : Int, k = 64 - flog2 x / 2 := ⟨_, rfl⟩
  obtain ⟨y, hy⟩ : ∃ y : ℚ, y = x * (2 : ℚ) ^ (2 * k) := ⟨_, rfl⟩
  obtain ⟨r, hr⟩ : ∃ r : ℕ, r = Nat.sqrt y.floor.toNat := ⟨_, rfl⟩
  have e : sqrtApprox x = (if (r : ℚ) * r = y then (r : ℚ) else (r : ℚ) + 1 / 2) * (2 : ℚ) ^ (-k) := by
    rw [hr, hy, hk]
    simp only [sqrtApprox, two_eq]
  have y1 : (2 : ℚ) ^ (128 : Int) ≤ y := by
    have h1 : (2 : ℚ) ^ (128 - 2 * k) ≤ (2 : ℚ) ^ flog2 x := zpow_le_zpow_right₀ (by norm_num) (by omega)
    have h2 : (2 : ℚ) ^ (128 : Int) = (2 : ℚ) ^ (128 - 2 * k) * (2 : ℚ) ^ (2 * k) := by
      rw [← zpow_add₀ (by norm_num)]; congr 1; ring
    rw [h2, hy]
    exact mul_le_mul_of_nonneg_right (h1.trans f1) (by positivity)
  have y0 : 0 < y := lt_of_lt_of_le (by positivity) y1
  have yf : 0 ≤ y.floor := Int.floor_nonneg.2 y0.le
  have r1 : (r : ℝ) ^ 2 ≤ y := by
    have h1 : r * r ≤ y.floor.toNat := hr ▸ Nat.sqrt_le _
    have h2 : ((r * r : ℕ) : ℚ) ≤ y := by
      have h3 : ((r * r : ℕ) : Int) ≤ y.floor := by omega
      exact (by exact_mod_cast h3 : ((r * r : ℕ) : ℚ) ≤ (y.floor : ℚ)).trans (Int.floor_le y)
    have h3 : (((r * r : ℕ) : ℚ) : ℝ) ≤ (y : ℝ) := by exact_mod_cast h2
    push_cast at h3
    nlinarith
  have r2 : (y : ℝ) < ((r : ℝ) + 1) ^ 2 := by
    have h1 : y.floor.toNat < (r + 1) * (r + 1) := hr ▸ Nat.lt_succ_sqrt _
    have h2 : y < (((r + 1) * (r + 1) : ℕ) : ℚ) := by
      have h3 : y.floor + 1 ≤ (((r + 1) * (r + 1) : ℕ) : Int) := by omega
      exact (Int.lt_floor_add_one y).trans_le (by exact_mod_cast h3)
    have h3 : (y : ℝ) < ((((r + 1) * (r + 1) : ℕ) : ℚ) : ℝ) := by exact_mod_cast h2
    push_cast at h3
    nlinarith
  have sy : √(y : ℝ) = √(x : ℝ) * (2 : ℝ) ^ k := by
    have : (y : ℝ) = x * ((2 : ℝ) ^ k) ^ 2 := by
      rw [hy]
      push_cast
      rw [two_mul, zpow_add₀ (by norm_num), pow_two]
    rw [this, Real.sqrt_mul (by exact_mod_cast hx.le), Real.sqrt_sq (by positivity)]
  have s1 : (r : ℝ) ≤ √(y : ℝ) := Real.le_sqrt_of_sq_le r1
  have s2 : √(y : ℝ) < r + 1 := by rw [Real.sqrt_lt' (by positivity)]; exact r2
  have s3 : (2 : ℝ) ^ 64 ≤ √(y : ℝ) := by
    apply Real.le_sqrt_of_sq_le
    have : (((2 : ℚ) ^ (128 : Int) : ℚ) : ℝ) ≤ (y : ℝ) := by exact_mod_cast y1
    refine le_trans (le_of_eq ?_) this
    norm_num
  have p0 : (0 : ℝ) < 2 ^ (-k) := by positivity
  have ps : √(x : ℝ) = √(y : ℝ) * 2 ^ (-k) := by
    rw [sy, mul_assoc, ← zpow_add₀ (by norm_num)]; simp
  have hd : |((if (r : ℚ) * r = y then (r : ℚ) else (r : ℚ) + 1 / 2 : ℚ) : ℝ) - √(y : ℝ)| ≤ 1 := by
    rw [abs_le]
    split
    · push_cast; constructor <;> linarith
    · push_cast; constructor <;> linarith
  generalize (if (r : ℚ) * r = y then (r : ℚ) else (r : ℚ) + 1 / 2) = q at e hd
  have e2 : ((q * 2 ^ (-k) : ℚ) : ℝ) = (q : ℝ) * 2 ^ (-k) := by push_cast; rfl
  rw [e, ps, e2, ← sub_mul, abs_mul, abs_of_pos p0, mul_div_right_comm]
  apply mul_le_mul_of_nonneg_right _ p0.le
  have h3 : (1 : ℝ) ≤ √(y : ℝ) / 2 ^ 64 := by rw [le_div_iff₀ (by positivity)]; linarith
  linarith

theorem sqrt_near (a : F64) (ha : a.isFinite = true) (h0 : 0 < R a) (h : R a ≤ 10 ^ 100) :
    (sqrt a).isFinite = true ∧ |R (sqrt a) - √(R a)| ≤ 2 * uu * √(R a) + et := by
  rcases isFinite_cases a ha with ⟨s, rfl⟩ | ⟨x, rfl⟩
  · rw [R_zero] at h0; exact absurd h0 (lt_irrefl _)
  · rw [R_fin] at h0 h ⊢
    have hx : 0 < x := by exact_mod_cast h0
    have n := sqrtApprox_near x hx
    have big := Big_ge
    have s0 : 0 ≤ √(x : ℝ) := Real.sqrt_nonneg _
    have s1 : √(x : ℝ) ≤ 10 ^ 50 := by
      rw [Real.sqrt_le_left (by positivity)]
      refine h.trans (by norm_num)
    have t := abs_sub_abs_le_abs_sub (sqrtApprox x : ℝ) (√(x : ℝ))
    rw [abs_of_nonneg s0] at t
    have b : |(sqrtApprox x : ℝ)| ≤ (1 + 1 / 2 ^ 64) * √(x : ℝ) := by linarith
    obtain ⟨f, v⟩ := rnd_near' (sqrtApprox x) (b.trans (le_trans (by linarith : _ ≤ (2 : ℝ) * 10 ^ 50) (le_trans (le_trans (by norm_num : (2 : ℝ) * 10 ^ 50 ≤ 10 ^ 51) (pow_le_pow_right₀ (by norm_num) (by norm_num))) big)))
    have e : sqrt (.fin x) = rnd (sqrtApprox x) := by
      show (if x < 0 then F64.nan else rnd (sqrtApprox x)) = _
      rw [if_neg (by linarith)]
    rw [e]
    refine ⟨f, ?_⟩
    have u : uu = 1 / 2 ^ 53 := by unfold uu; norm_num
    have t2 := abs_sub_le (R (rnd (sqrtApprox x))) (sqrtApprox x) (√(x : ℝ))
    have m : uu * |(sqrtApprox x : ℝ)| ≤ uu * ((1 + 1 / 2 ^ 64) * √(x : ℝ)) := mul_le_mul_of_nonneg_left b (by rw [u]; positivity)
    rw [u] at m v ⊢
    norm_num at m v n ⊢
    linarith

end Falcon.F64
