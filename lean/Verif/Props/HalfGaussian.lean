import Verif.Props.SamplerLaw
import Mathlib.Analysis.Complex.Exponential
import Mathlib.Analysis.SpecificLimits.Basic
import Mathlib.Topology.Algebra.InfiniteSum.NatInt
/-!
# The base sampler follows the half-Gaussian distribution (C62)
-/

namespace Falcon

/-- The Gaussian function of parameter 1.8205 (`maxSigma`). -/
noncomputable def rho (z : Nat) : ℝ := Real.exp (-(z : ℝ) ^ 2 / (2 * 1.8205 ^ 2))

/-- The half-Gaussian distribution on the natural numbers. -/
noncomputable def halfGauss (z : Nat) : ℝ := rho z / ∑' k, rho k

/-- The probability that the base sampler returns `z`, over the `2^72` values of its 9 random bytes. -/
noncomputable def baseProb (z : Nat) : ℝ := ({b : List UInt8 | b.length = 9 ∧ BaseSampler b = z}.ncard : ℝ) / 2 ^ 72

/-! ### Enclosures -/

/-- `exp(-1/(2*1.8205^2))`. -/
noncomputable def rho1 : ℝ := Real.exp (-(1 / (2 * 1.8205 ^ 2)))

/-- Bounds of `rho1`, in units of `10^-45`. -/
def rhoLo : Nat := 859963743903189700763284149899085208963311097
def rhoHi : Nat := 859963743903189700763284149899085208963311098

def taylor (c : ℚ) (n : Nat) : ℚ := (List.range n).foldl (fun s m => s + (-c) ^ m / (m.factorial : ℚ)) 0

theorem foldl_add_sum (f : Nat → ℚ) (n : Nat) : (List.range n).foldl (fun s m => s + f m) 0 = ∑ m ∈ Finset.range n, f m := by
  induction n with
  | zero => rfl
  | succ n ih => rw [List.range_succ, List.foldl_append, ih, Finset.sum_range_succ]; rfl

theorem taylor_check : (rhoLo : ℚ) / 10 ^ 45 ≤ taylor (2000000 / 13256881) 32 - (2000000 / 13256881) ^ 32 * (33 / ((Nat.factorial 32 : Nat) * 32)) ∧
    taylor (2000000 / 13256881) 32 + (2000000 / 13256881) ^ 32 * (33 / ((Nat.factorial 32 : Nat) * 32)) ≤ (rhoHi : ℚ) / 10 ^ 45 := by
  decide +kernel

theorem rho1_bounds : (((rhoLo : ℚ) / 10 ^ 45 : ℚ) : ℝ) ≤ rho1 ∧ rho1 ≤ (((rhoHi : ℚ) / 10 ^ 45 : ℚ) : ℝ) := by
  have ha : |(-(1 / (2 * 1.8205 ^ 2)) : ℝ)| = 2000000 / 13256881 := by
    rw [abs_neg, abs_of_pos (by norm_num)]
    norm_num
  have h := Real.exp_bound (x := -(1 / (2 * 1.8205 ^ 2))) (by rw [ha]; norm_num) (n := 32) (by norm_num)
  rw [ha] at h
  have e : ∑ m ∈ Finset.range 32, (-(1 / (2 * 1.8205 ^ 2)) : ℝ) ^ m / (m.factorial : ℝ) = ((taylor (2000000 / 13256881) 32 : ℚ) : ℝ) := by
    unfold taylor
    rw [foldl_add_sum, Rat.cast_sum]
    refine Finset.sum_congr rfl fun m _ => ?_
    push_cast
    congr 2
    norm_num
  rw [e, abs_le] at h
  obtain ⟨c1, c2⟩ := taylor_check
  have c1' := (Rat.cast_le (K := ℝ)).2 c1
  have c2' := (Rat.cast_le (K := ℝ)).2 c2
  push_cast at c1' c2' h
  unfold rho1
  push_cast
  constructor
  · refine c1'.trans ?_
    have := h.1
    norm_num at this ⊢
    linarith
  · refine le_trans ?_ c2'
    have := h.2
    norm_num at this ⊢
    linarith

theorem rho_eq (z : Nat) : rho z = rho1 ^ (z ^ 2) := by
  unfold rho rho1
  rw [← Real.exp_nat_mul]
  congr 1
  push_cast
  ring

theorem rho1_pos : 0 < rho1 := Real.exp_pos _

theorem rho1_lt : rho1 < 1 := by
  have := rho1_bounds.2
  refine this.trans_lt ?_
  unfold rhoHi
  norm_num

theorem rho_summable : Summable rho := by
  have hg := summable_geometric_of_lt_one rho1_pos.le rho1_lt
  refine Summable.of_nonneg_of_le (fun z => (Real.exp_pos _).le) (fun z => ?_) hg
  rw [rho_eq]
  exact pow_le_pow_of_le_one rho1_pos.le rho1_lt.le (by nlinarith)

/-- The sum of `r^(k^2)` for `k < n`, in units of `10^-45`-powers made common. -/
def partialSum (r : ℚ) (n : Nat) : ℚ := (List.range n).foldl (fun s k => s + r ^ (k ^ 2)) 0

theorem rho_sum_bounds : ((partialSum ((rhoLo : ℚ) / 10 ^ 45) 21 : ℚ) : ℝ) ≤ ∑' k, rho k ∧
    ∑' k, rho k ≤ ((partialSum ((rhoHi : ℚ) / 10 ^ 45) 21 + 1 / 10 ^ 27 : ℚ) : ℝ) := by
  obtain ⟨b1, b2⟩ := rho1_bounds
  have lo : ∀ r : ℚ, 0 ≤ r → (r : ℝ) ≤ rho1 → ((partialSum r 21 : ℚ) : ℝ) ≤ ∑ k ∈ Finset.range 21, rho k := by
    intro r h0 h
    unfold partialSum
    rw [foldl_add_sum, Rat.cast_sum]
    refine Finset.sum_le_sum fun k _ => ?_
    rw [rho_eq, Rat.cast_pow]
    exact pow_le_pow_left₀ (by exact_mod_cast h0) h _
  have hi : ∀ r : ℚ, rho1 ≤ (r : ℝ) → ∑ k ∈ Finset.range 21, rho k ≤ ((partialSum r 21 : ℚ) : ℝ) := by
    intro r h
    unfold partialSum
    rw [foldl_add_sum, Rat.cast_sum]
    refine Finset.sum_le_sum fun k _ => ?_
    rw [rho_eq, Rat.cast_pow]
    exact pow_le_pow_left₀ rho1_pos.le h _
  have hs := rho_summable.sum_add_tsum_nat_add 21
  have hg := summable_geometric_of_lt_one rho1_pos.le rho1_lt
  have tail0 : 0 ≤ ∑' k, rho (k + 21) := tsum_nonneg fun k => (Real.exp_pos _).le
  have tail1 : ∑' k, rho (k + 21) ≤ rho1 ^ 441 * (1 - rho1)⁻¹ := by
    rw [← tsum_geometric_of_lt_one rho1_pos.le rho1_lt, ← tsum_mul_left]
    refine Summable.tsum_le_tsum (fun k => ?_) ((summable_nat_add_iff 21).2 rho_summable) (hg.mul_left _)
    rw [rho_eq, ← pow_add]
    exact pow_le_pow_of_le_one rho1_pos.le rho1_lt.le (by nlinarith)
  have tail2 : rho1 ^ 441 * (1 - rho1)⁻¹ ≤ 1 / 10 ^ 27 := by
    have h86 : rho1 ≤ 86 / 100 := by
      refine b2.trans ?_
      unfold rhoHi
      norm_num
    have h1 : rho1 ^ 441 ≤ (86 / 100) ^ 441 := pow_le_pow_left₀ rho1_pos.le h86 _
    have h2 : (1 - rho1)⁻¹ ≤ 8 := by
      rw [inv_le_comm₀ (by linarith) (by norm_num)]
      linarith
    have h3 : ((86 / 100 : ℚ)) ^ 441 * 8 ≤ 1 / 10 ^ 27 := by decide +kernel
    have h3' := (Rat.cast_le (K := ℝ)).2 h3
    push_cast at h3'
    refine le_trans (mul_le_mul h1 h2 (inv_nonneg.2 (by linarith)) (by positivity)) ?_
    exact h3'
  constructor
  · rw [← hs]
    have := lo ((rhoLo : ℚ) / 10 ^ 45) (by positivity) b1
    linarith
  · rw [← hs, Rat.cast_add]
    have := hi ((rhoHi : ℚ) / 10 ^ 45) b2
    have e : (((1 / 10 ^ 27 : ℚ)) : ℝ) = 1 / 10 ^ 27 := by norm_num
    rw [e]
    linarith

theorem rho_sum_pos : 0 < ∑' k, rho k := rho_summable.tsum_pos (fun k => (Real.exp_pos _).le) 0 (Real.exp_pos _)

/-- The rational inequalities behind the enclosures of the probabilities. -/
theorem entry_checks : ∀ z < 18, (baseCount (z + 1) : ℚ) * (partialSum ((rhoHi : ℚ) / 10 ^ 45) 21 + 1 / 10 ^ 27) ≤
      2 ^ 72 * ((rhoLo : ℚ) / 10 ^ 45) ^ ((z + 1) ^ 2) ∧
    2 ^ 72 * ((rhoHi : ℚ) / 10 ^ 45) ^ ((z + 1) ^ 2) < ((baseCount (z + 1) : ℚ) + 1) * partialSum ((rhoLo : ℚ) / 10 ^ 45) 21 := by
  decide +kernel

theorem zero_checks : 2 ^ 72 ≤ (baseCount 0 : ℚ) * partialSum ((rhoLo : ℚ) / 10 ^ 45) 21 ∧
    ((baseCount 0 : ℚ) - 9) * (partialSum ((rhoHi : ℚ) / 10 ^ 45) 21 + 1 / 10 ^ 27) ≤ 2 ^ 72 := by
  decide +kernel

theorem entry_bounds (z : Nat) (h0 : 1 ≤ z) (hz : z ≤ 18) :
    (baseCount z : ℝ) ≤ 2 ^ 72 * halfGauss z ∧ 2 ^ 72 * halfGauss z < baseCount z + 1 := by
  obtain ⟨b1, b2⟩ := rho1_bounds
  obtain ⟨s1, s2⟩ := rho_sum_bounds
  obtain ⟨c1, c2⟩ := entry_checks (z - 1) (by omega)
  rw [show z - 1 + 1 = z by omega] at c1 c2
  have sp := rho_sum_pos
  have l1 : (((rhoLo : ℚ) / 10 ^ 45 : ℚ) : ℝ) ^ (z ^ 2) ≤ rho z := by
    rw [rho_eq]
    exact pow_le_pow_left₀ (by positivity) b1 _
  have l2 : rho z ≤ (((rhoHi : ℚ) / 10 ^ 45 : ℚ) : ℝ) ^ (z ^ 2) := by
    rw [rho_eq]
    exact pow_le_pow_left₀ rho1_pos.le b2 _
  have c1' := (Rat.cast_le (K := ℝ)).2 c1
  have c2' := (Rat.cast_lt (K := ℝ)).2 c2
  rw [Rat.cast_mul, Rat.cast_natCast, Rat.cast_mul, Rat.cast_pow _ (z ^ 2), show ((2 ^ 72 : ℚ) : ℝ) = 2 ^ 72 by norm_num] at c1'
  rw [Rat.cast_mul, Rat.cast_mul, Rat.cast_pow _ (z ^ 2), Rat.cast_add, Rat.cast_natCast, Rat.cast_one,
    show ((2 ^ 72 : ℚ) : ℝ) = 2 ^ 72 by norm_num] at c2'
  unfold halfGauss
  rw [mul_div_assoc']
  constructor
  · rw [le_div_iff₀ sp]
    calc (baseCount z : ℝ) * ∑' k, rho k ≤ _ := mul_le_mul_of_nonneg_left s2 (Nat.cast_nonneg _)
      _ ≤ _ := c1'
      _ ≤ _ := mul_le_mul_of_nonneg_left l1 (by positivity)
  · rw [div_lt_iff₀ sp]
    calc 2 ^ 72 * rho z ≤ _ := mul_le_mul_of_nonneg_left l2 (by positivity)
      _ < _ := c2'
      _ ≤ _ := mul_le_mul_of_nonneg_left s1 (by positivity)

theorem zero_bounds : 2 ^ 72 * halfGauss 0 ≤ (baseCount 0 : ℝ) ∧ (baseCount 0 : ℝ) - 9 ≤ 2 ^ 72 * halfGauss 0 := by
  obtain ⟨s1, s2⟩ := rho_sum_bounds
  obtain ⟨c1, c2⟩ := zero_checks
  have sp := rho_sum_pos
  have c1' := (Rat.cast_le (K := ℝ)).2 c1
  have c2' := (Rat.cast_le (K := ℝ)).2 c2
  rw [Rat.cast_mul, Rat.cast_natCast, show ((2 ^ 72 : ℚ) : ℝ) = 2 ^ 72 by norm_num] at c1'
  rw [Rat.cast_mul, Rat.cast_sub, Rat.cast_natCast, show ((2 ^ 72 : ℚ) : ℝ) = 2 ^ 72 by norm_num, show ((9 : ℚ) : ℝ) = 9 by norm_num] at c2'
  have e : rho 0 = 1 := by unfold rho; simp
  have hb : (9 : ℝ) ≤ (baseCount 0 : ℝ) := by
    have : 9 ≤ baseCount 0 := by decide +kernel
    exact_mod_cast this
  unfold halfGauss
  rw [e, mul_div_assoc', mul_one]
  constructor
  · rw [div_le_iff₀ sp]
    exact c1'.trans (mul_le_mul_of_nonneg_left s1 (Nat.cast_nonneg _))
  · rw [le_div_iff₀ sp]
    exact (mul_le_mul_of_nonneg_left s2 (by linarith)).trans c2'

/-! ### The claims -/

/-- C62: out of the `2^72` values of the 9 random bytes, the base sampler returns `z = 1, ..., 18` on exactly `floor(2^72 D(z))`, where `D` is the
half-Gaussian distribution of parameter 1.8205. -/
theorem C62_counts (z : Nat) (h0 : 1 ≤ z) (hz : z ≤ 18) :
    {b : List UInt8 | b.length = 9 ∧ BaseSampler b = z}.ncard = ⌊2 ^ 72 * halfGauss z⌋₊ := by
  obtain ⟨h1, h2⟩ := entry_bounds z h0 hz
  rw [base_ncard z hz]
  symm
  rw [Nat.floor_eq_iff (le_trans (Nat.cast_nonneg _) h1)]
  exact ⟨h1, h2⟩

theorem halfGauss_sum : HasSum halfGauss 1 := by
  have := rho_summable.hasSum.div_const (∑' k, rho k)
  rw [div_self rho_sum_pos.ne'] at this
  exact this

theorem baseProb_eq (z : Nat) (hz : z ≤ 18) : baseProb z = baseCount z / 2 ^ 72 := by
  unfold baseProb
  rw [base_ncard z hz]

theorem baseProb_zero (z : Nat) (hz : 18 < z) : baseProb z = 0 := by
  unfold baseProb
  have : {b : List UInt8 | b.length = 9 ∧ BaseSampler b = z} = ∅ := by
    ext b
    simp only [Set.mem_ofPred_eq, Set.mem_empty_iff_false, iff_false, not_and]
    intro _ h
    have := C44_range b
    omega
  rw [this]
  simp

theorem baseProb_sum : HasSum baseProb 1 := by
  have h := hasSum_sum_of_ne_finset_zero (L := SummationFilter.unconditional Nat) (f := baseProb) (s := Finset.range 19)
    (fun z hz => baseProb_zero z (by rw [Finset.mem_range] at hz; omega))
  have e : ∑ z ∈ Finset.range 19, baseProb z = 1 := by
    rw [Finset.sum_congr rfl fun z hz => baseProb_eq z (by rw [Finset.mem_range] at hz; omega), ← Finset.sum_div, ← Nat.cast_sum,
      show ∑ z ∈ Finset.range 19, baseCount z = 2 ^ 72 by decide +kernel]
    norm_num
  rwa [e] at h

/-- C62: the statistical distance between the distribution of the base sampler and the half-Gaussian distribution is at most `9/2^72`. -/
theorem C62_distance : 1 / 2 * ∑' z, |baseProb z - halfGauss z| ≤ 9 / 2 ^ 72 := by
  have hd : HasSum (fun z => halfGauss z - baseProb z) 0 := by
    have := halfGauss_sum.sub baseProb_sum
    rwa [sub_self] at this
  have sg : ∀ z, 1 ≤ z → baseProb z ≤ halfGauss z := by
    intro z hz
    by_cases h : z ≤ 18
    · rw [baseProb_eq z h, div_le_iff₀ (by norm_num)]
      have := (entry_bounds z hz h).1
      linarith
    · rw [baseProb_zero z (by omega)]
      exact div_nonneg (Real.exp_pos _).le rho_sum_pos.le
  obtain ⟨z1, z2⟩ := zero_bounds
  have e0 : baseProb 0 = baseCount 0 / 2 ^ 72 := baseProb_eq 0 (by omega)
  have s0 : halfGauss 0 ≤ baseProb 0 := by
    rw [e0, le_div_iff₀ (by norm_num)]
    linarith
  have hf : (fun z => |baseProb z - halfGauss z|) = fun z => (halfGauss z - baseProb z) + (if z = 0 then 2 * (baseProb 0 - halfGauss 0) else 0) := by
    funext z
    by_cases h : z = 0
    · subst h
      rw [if_pos rfl, abs_of_nonneg (by linarith)]
      ring
    · rw [if_neg h, abs_of_nonpos (by linarith [sg z (by omega)])]
      ring
  have hs := hd.add (hasSum_ite_eq 0 (2 * (baseProb 0 - halfGauss 0)))
  rw [← hf] at hs
  rw [hs.tsum_eq, zero_add, e0]
  have : (baseCount 0 : ℝ) / 2 ^ 72 - halfGauss 0 ≤ 9 / 2 ^ 72 := by
    rw [sub_le_iff_le_add, div_le_iff₀ (by norm_num), add_mul, div_mul_cancel₀ _ (by norm_num)]
    linarith
  linarith

/-- The bound is about a distribution that is not degenerate: the values 0 to 18 all occur. -/
example : ∀ z ≤ 18, 0 < baseCount z := by decide +kernel

end Falcon
