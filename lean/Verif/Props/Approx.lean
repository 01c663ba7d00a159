import Verif.Props.SamplerLaw
import Verif.Props.PolyLaw
import Mathlib.Analysis.Complex.Basic
/-!
# C94: which key candidates are drawn does not depend on the floating-point arithmetic
-/

namespace Falcon
open Spec

/-- Zero, or a number of moderate size. -/
def Mid (x : ℝ) : Prop := x = 0 ∨ 1 / 10 ^ 30 ≤ |x| ∧ |x| ≤ 10 ^ 30

/-- What is asked of a floating-point arithmetic: with a relation `is a x` (the datum `a` is a number with the value `x`), integers up to
`2^53` are exact, and at operands and results of moderate size every operation has a relative error of at most `eps`. The error of a
difference is relative to its operands, so that a difference may use a product that was not rounded, and the conversions, `floor` and
comparisons may see a value that is off by `eps`. Nothing is said about the other operations of `FloatOps`. -/
structure Approx (O : FloatOps) (eps : ℝ) where
  is : O.F → ℝ → Prop
  lit : ∀ q : ℚ, Mid q → ∃ z, is (O.lit q) z ∧ |z - q| ≤ eps * |(q : ℝ)|
  ofInt : ∀ k : Int, -(2 ^ 53) ≤ k → k ≤ 2 ^ 53 → is (O.ofInt k) k
  toInt : ∀ (a : O.F) (k : Int), -(2 ^ 31) ≤ k → k < 2 ^ 31 → is a k → O.toInt a = k
  floorInt : ∀ (a : O.F) (k : Int), -(2 ^ 53) ≤ k → k ≤ 2 ^ 53 → is a k → is (O.floor a) k
  floor : ∀ (a : O.F) (x : ℝ), Mid x → is a x → ∃ r : ℝ, |r - x| ≤ eps * |x| ∧ is (O.floor a) ⌊r⌋
  lt : ∀ (a b : O.F) (x y : ℝ), Mid x → Mid y → is a x → is b y → x + eps * (|x| + |y|) < y → O.lt a b = true
  sub : ∀ (a b : O.F) (x y : ℝ), Mid x → Mid y → is a x → is b y → ∃ z, is (O.sub a b) z ∧ |z - (x - y)| ≤ eps * (|x| + |y|)
  mul : ∀ (a b : O.F) (x y : ℝ), Mid x → Mid y → Mid (x * y) → is a x → is b y → ∃ z, is (O.mul a b) z ∧ |z - x * y| ≤ eps * |x * y|
  div : ∀ (a b : O.F) (x y : ℝ), Mid x → Mid y → Mid (x / y) → y ≠ 0 → is a x → is b y → ∃ z, is (O.div a b) z ∧ |z - x / y| ≤ eps * |x / y|
  pow2 : ∀ (a : O.F) (x : ℝ), Mid x → Mid (x ^ 2) → is a x → ∃ z, is (O.pow2 a) z ∧ |z - x ^ 2| ≤ eps * |x ^ 2|
  toUInt64 : ∀ (a : O.F) (x : ℝ), 1 ≤ x → x ≤ 2 ^ 63 - 2 ^ 50 → is a x → ∃ r : ℝ, |r - x| ≤ eps * |x| ∧ (O.toUInt64 a).toNat = ⌊r⌋₊

/-! ### Propagation of relative errors -/

/-- Zero, or well inside the range of `Mid`. -/
def Core (x : ℝ) : Prop := x = 0 ∨ 1 / 10 ^ 20 ≤ |x| ∧ |x| ≤ 10 ^ 20

/-- The datum has a value that differs from `v` relatively by at most `e`. -/
def Near {O : FloatOps} {eps : ℝ} (A : Approx O eps) (e : ℝ) (a : O.F) (v : ℝ) : Prop := ∃ z, A.is a z ∧ |z - v| ≤ e * |v|

theorem mid_of_near {e z v : ℝ} (he : e ≤ 1 / 2) (h : |z - v| ≤ e * |v|) (hv : Core v) : Mid z ∧ |z| ≤ (1 + e) * |v| ∧ (1 - e) * |v| ≤ |z| := by
  have h1 : |z| ≤ (1 + e) * |v| := by
    have := abs_add_le (z - v) v
    rw [sub_add_cancel] at this
    linarith
  have h2 : (1 - e) * |v| ≤ |z| := by
    have := abs_add_le (v - z) z
    rw [sub_add_cancel, abs_sub_comm] at this
    linarith
  refine ⟨?_, h1, h2⟩
  rcases hv with rfl | ⟨l, u⟩
  · left
    simpa using h1
  · right
    have p : 0 < |v| := lt_of_lt_of_le (by norm_num) l
    constructor
    · have : 1 / 2 * |v| ≤ |z| := le_trans (mul_le_mul_of_nonneg_right (by linarith) p.le) h2
      have : (1 : ℝ) / 10 ^ 30 ≤ 1 / 2 * (1 / 10 ^ 20) := by norm_num
      linarith
    · have : |z| ≤ 2 * |v| := le_trans h1 (mul_le_mul_of_nonneg_right (by linarith) p.le)
      have : (2 : ℝ) * 10 ^ 20 ≤ 10 ^ 30 := by norm_num
      linarith

section
variable {O : FloatOps} {eps : ℝ} (A : Approx O eps)

theorem near_lit (q : ℚ) (h : Core q) : Near A eps (O.lit q) q := by
  apply A.lit
  rcases h with h | ⟨l, u⟩
  · exact .inl h
  · right
    have : (1 : ℝ) / 10 ^ 30 ≤ 1 / 10 ^ 20 := by norm_num
    have : (10 : ℝ) ^ 20 ≤ 10 ^ 30 := by norm_num
    constructor <;> linarith

theorem near_int (k : Int) (h : -(2 ^ 53) ≤ k) (h' : k ≤ 2 ^ 53) : Near A 0 (O.ofInt k) k := ⟨k, A.ofInt k h h', by simp⟩

/-- The error of a product. -/
theorem mul_error {x y u v p q : ℝ} (hx : |x - u| ≤ p * |u|) (hy : |y - v| ≤ q * |v|) : |x * y - u * v| ≤ (p + q + p * q) * |u * v| := by
  have e : x * y - u * v = (x - u) * (y - v) + (x - u) * v + u * (y - v) := by ring
  rw [e, abs_mul]
  have h1 : |(x - u) * (y - v)| ≤ p * |u| * (q * |v|) := by rw [abs_mul]; exact mul_le_mul hx hy (abs_nonneg _) ((abs_nonneg _).trans hx)
  have h2 : |(x - u) * v| ≤ p * |u| * |v| := by rw [abs_mul]; exact mul_le_mul_of_nonneg_right hx (abs_nonneg _)
  have h3 : |u * (y - v)| ≤ |u| * (q * |v|) := by rw [abs_mul]; exact mul_le_mul_of_nonneg_left hy (abs_nonneg _)
  have := abs_add_le ((x - u) * (y - v) + (x - u) * v) (u * (y - v))
  have := abs_add_le ((x - u) * (y - v)) ((x - u) * v)
  nlinarith

theorem error_trans {z x u p q r : ℝ} (h0 : 0 ≤ q) (h1 : |z - x| ≤ q * |x|) (h2 : |x - u| ≤ p * |u|) (hr : q * (1 + p) + p ≤ r) : |z - u| ≤ r * |u| := by
  have h3 : |x| ≤ (1 + p) * |u| := by
    have := abs_add_le (x - u) u
    rw [sub_add_cancel] at this
    linarith
  have h4 : q * |x| ≤ q * ((1 + p) * |u|) := mul_le_mul_of_nonneg_left h3 h0
  have h5 := abs_add_le (z - x) (x - u)
  rw [sub_add_sub_cancel] at h5
  have h6 := mul_le_mul_of_nonneg_right hr (abs_nonneg u)
  nlinarith

theorem near_mul (he : 0 ≤ eps) {a b : O.F} {u v p q : ℝ} (r : ℝ) (ha : Near A p a u) (hb : Near A q b v) (cu : Core u) (cv : Core v) (cuv : Core (u * v))
    (hp : p ≤ 1 / 2) (hq : q ≤ 1 / 2) (hpq : p + q + p * q ≤ 1 / 2) (hr : eps * (1 + (p + q + p * q)) + (p + q + p * q) ≤ r) :
    Near A r (O.mul a b) (u * v) := by
  obtain ⟨x, ix, ex⟩ := ha
  obtain ⟨y, iy, ey⟩ := hb
  have e := mul_error ex ey
  obtain ⟨z, iz, ez⟩ := A.mul a b x y (mid_of_near hp ex cu).1 (mid_of_near hq ey cv).1 (mid_of_near hpq e cuv).1 ix iy
  exact ⟨z, iz, error_trans he ez e hr⟩

theorem near_pow2 (he : 0 ≤ eps) {a : O.F} {u p : ℝ} (r : ℝ) (ha : Near A p a u) (cu : Core u) (cuv : Core (u ^ 2))
    (hp : p ≤ 1 / 2) (hpq : p + p + p * p ≤ 1 / 2) (hr : eps * (1 + (p + p + p * p)) + (p + p + p * p) ≤ r) :
    Near A r (O.pow2 a) (u ^ 2) := by
  obtain ⟨x, ix, ex⟩ := ha
  have e := mul_error ex ex
  rw [← pow_two, ← pow_two] at e
  obtain ⟨z, iz, ez⟩ := A.pow2 a x (mid_of_near hp ex cu).1 (mid_of_near hpq e cuv).1 ix
  exact ⟨z, iz, error_trans he ez e hr⟩

theorem div_error {x y u v p q s : ℝ} (ex : |x - u| ≤ p * |u|) (ey : |y - v| ≤ q * |v|) (v0 : v ≠ 0) (hq : q ≤ 1 / 2) (hs : p + q ≤ s * (1 - q)) :
    y ≠ 0 ∧ |x / y - u / v| ≤ s * |u / v| := by
  have ly : (1 - q) * |v| ≤ |y| := by
    have := abs_add_le (v - y) y
    rw [sub_add_cancel, abs_sub_comm] at this
    linarith
  have pv : 0 < |v| := abs_pos.2 v0
  have py : 0 < |y| := lt_of_lt_of_le (mul_pos (by linarith) pv) ly
  have y0 : y ≠ 0 := abs_pos.1 py
  refine ⟨y0, ?_⟩
  have e1 : x / y - u / v = ((x - u) * v - u * (y - v)) / (y * v) := by field_simp; ring
  rw [e1, abs_div, abs_div, abs_mul, div_le_iff₀ (mul_pos py pv)]
  have h1 : |(x - u) * v - u * (y - v)| ≤ p * |u| * |v| + |u| * (q * |v|) := by
    refine (abs_sub _ _).trans ?_
    rw [abs_mul, abs_mul]
    exact add_le_add (mul_le_mul_of_nonneg_right ex (abs_nonneg _)) (mul_le_mul_of_nonneg_left ey (abs_nonneg _))
  have h2 : s * (|u| / |v|) * (|y| * |v|) = s * |u| * |y| := by field_simp
  rw [h2]
  have pu := abs_nonneg u
  have hpq : 0 ≤ p * |u| := (abs_nonneg _).trans ex
  by_cases u0 : u = 0
  · subst u0
    simp at h1 ex ⊢
    linarith [abs_nonneg ((x - 0) * v - 0 * (y - v)), show |x * v| ≤ 0 by simpa using h1]
  · have pu : 0 < |u| := abs_pos.2 u0
    have hp0 : 0 ≤ p := by
      by_contra hc
      have := mul_neg_of_neg_of_pos (not_le.1 hc) pu
      linarith
    have hq0 : 0 ≤ q := by
      by_contra hc
      have := mul_neg_of_neg_of_pos (not_le.1 hc) pv
      linarith [abs_nonneg (y - v)]
    have s0 : 0 ≤ s := by
      by_contra hc
      have := mul_neg_of_neg_of_pos (not_le.1 hc) (show 0 < 1 - q by linarith)
      linarith
    calc _ ≤ _ := h1
      _ = (p + q) * (|u| * |v|) := by ring
      _ ≤ s * (1 - q) * (|u| * |v|) := mul_le_mul_of_nonneg_right hs (by positivity)
      _ = s * |u| * ((1 - q) * |v|) := by ring
      _ ≤ s * |u| * |y| := mul_le_mul_of_nonneg_left ly (by positivity)

theorem near_div (he : 0 ≤ eps) {a b : O.F} {u v p q : ℝ} (s r : ℝ) (ha : Near A p a u) (hb : Near A q b v) (cu : Core u) (cv : Core v)
    (cuv : Core (u / v)) (v0 : v ≠ 0) (hp : p ≤ 1 / 2) (hq : q ≤ 1 / 2) (hs : p + q ≤ s * (1 - q)) (hs' : s ≤ 1 / 2)
    (hr : eps * (1 + s) + s ≤ r) : Near A r (O.div a b) (u / v) := by
  obtain ⟨x, ix, ex⟩ := ha
  obtain ⟨y, iy, ey⟩ := hb
  obtain ⟨my, -, -⟩ := mid_of_near hq ey cv
  obtain ⟨y0, e⟩ := div_error ex ey v0 hq hs
  obtain ⟨z, iz, ez⟩ := A.div a b x y (mid_of_near hp ex cu).1 my (mid_of_near hs' e cuv).1 y0 ix iy
  exact ⟨z, iz, error_trans he ez e hr⟩

/-- The error of a difference is relative to the operands. -/
theorem near_sub (he : 0 ≤ eps) {a b : O.F} {u v p q : ℝ} (r : ℝ) (ha : Near A p a u) (hb : Near A q b v) (cu : Core u) (cv : Core v)
    (hp : p ≤ 1 / 2) (hq : q ≤ 1 / 2) (hr : eps * (1 + p) + p ≤ r) (hr' : eps * (1 + q) + q ≤ r) :
    ∃ z, A.is (O.sub a b) z ∧ |z - (u - v)| ≤ r * (|u| + |v|) := by
  obtain ⟨x, ix, ex⟩ := ha
  obtain ⟨y, iy, ey⟩ := hb
  obtain ⟨mx, ux, -⟩ := mid_of_near hp ex cu
  obtain ⟨my, uy, -⟩ := mid_of_near hq ey cv
  obtain ⟨z, iz, ez⟩ := A.sub a b x y mx my ix iy
  refine ⟨z, iz, ?_⟩
  have e : z - (u - v) = (z - (x - y)) + ((x - u) - (y - v)) := by ring
  rw [e]
  have h1 := abs_add_le (z - (x - y)) ((x - u) - (y - v))
  have h2 := abs_sub (x - u) (y - v)
  have h3 := mul_le_mul_of_nonneg_left ux he
  have h4 := mul_le_mul_of_nonneg_left uy he
  have h5 := mul_le_mul_of_nonneg_right hr (abs_nonneg u)
  have h6 := mul_le_mul_of_nonneg_right hr' (abs_nonneg v)
  nlinarith

end

/-! ### The constants of key generation -/

/-- The deviation of key generation. -/
noncomputable def keySigma : ℝ := ((1.43300980528773 : ℚ) : ℝ)

/-- `1/(2 sigma^2)`. -/
noncomputable def keyDss : ℝ := 1 / (2 * keySigma * keySigma)

/-- `1/(2 sigma_max^2)`. -/
noncomputable def maxDss : ℝ := 1 / (2 * ((1.8205 : ℚ) : ℝ) ^ 2)

theorem core_of {x : ℝ} (h : 1 / 1000 ≤ x) (h' : x ≤ 10 ^ 20) : Core x := by
  right
  rw [abs_of_nonneg (by linarith)]
  exact ⟨by linarith [show (1 : ℝ) / 10 ^ 20 ≤ 1 / 1000 by norm_num], h'⟩

theorem keySigma_bounds : 1.433 ≤ keySigma ∧ keySigma ≤ 1.4331 := by unfold keySigma; constructor <;> norm_num

theorem keyDss_bounds : 24 / 100 ≤ keyDss ∧ keyDss ≤ 25 / 100 := by unfold keyDss keySigma; constructor <;> norm_num

theorem maxDss_bounds : 15 / 100 ≤ maxDss ∧ maxDss ≤ 16 / 100 := by unfold maxDss; constructor <;> norm_num

/-- The tolerated relative error. -/
noncomputable def tol : ℝ := 1 / 10 ^ 6

section
variable {O : FloatOps} (A : Approx O tol)

theorem tol_nonneg : 0 ≤ tol := by unfold tol; norm_num

theorem near_sigma : Near A tol (O.lit 1.43300980528773) keySigma :=
  near_lit A _ (core_of (by norm_num) (by norm_num))

theorem near_two : Near A tol (O.lit 2) 2 := by
  have := near_lit A 2 (core_of (by norm_num) (by norm_num))
  exact_mod_cast this

theorem near_one : Near A tol (O.lit 1) 1 := by
  have := near_lit A 1 (core_of (by norm_num) (by norm_num))
  exact_mod_cast this

theorem near_dss : Near A (1 / 10 ^ 5) (O.div (O.lit 1) (O.mul (O.mul (O.lit 2) (O.lit 1.43300980528773)) (O.lit 1.43300980528773))) keyDss := by
  obtain ⟨s1, s2⟩ := keySigma_bounds
  obtain ⟨d1, d2⟩ := keyDss_bounds
  have c1 : Core (2 * keySigma) := core_of (by linarith) (by linarith)
  have cs : Core keySigma := core_of (by linarith) (by linarith)
  have c2 : Core (2 * keySigma * keySigma) := core_of (by nlinarith) (by nlinarith)
  have h1 : Near A (4 / 10 ^ 6) _ _ := near_mul A tol_nonneg _ (near_two A) (near_sigma A) (core_of (by norm_num) (by norm_num)) cs c1
    (by unfold tol; norm_num) (by unfold tol; norm_num) (by unfold tol; norm_num) (by unfold tol; norm_num)
  have h2 : Near A (7 / 10 ^ 6) _ _ := near_mul A tol_nonneg _ h1 (near_sigma A) c1 cs c2
    (by norm_num) (by unfold tol; norm_num) (by unfold tol; norm_num) (by unfold tol; norm_num)
  exact near_div A tol_nonneg (85 / 10 ^ 7) _ (near_one A) h2 (core_of (by norm_num) (by norm_num)) c2 (core_of (by unfold keyDss at d1; linarith) (by unfold keyDss at d2; linarith))
    (by nlinarith) (by unfold tol; norm_num) (by norm_num) (by unfold tol; norm_num) (by norm_num) (by unfold tol; norm_num)

theorem near_inv : Near A (1 / 10 ^ 5) (inv2sigma2 O) maxDss := by
  obtain ⟨d1, d2⟩ := maxDss_bounds
  have cm : Core ((1.8205 : ℚ) : ℝ) := core_of (by norm_num) (by norm_num)
  have c1 : Core (((1.8205 : ℚ) : ℝ) ^ 2) := core_of (by norm_num) (by norm_num)
  have c2 : Core (2 * ((1.8205 : ℚ) : ℝ) ^ 2) := core_of (by norm_num) (by norm_num)
  have h1 : Near A (4 / 10 ^ 6) _ _ := near_pow2 A tol_nonneg _ (near_lit A 1.8205 cm) cm c1
    (by unfold tol; norm_num) (by unfold tol; norm_num) (by unfold tol; norm_num)
  have h2 : Near A (7 / 10 ^ 6) _ _ := near_mul A tol_nonneg _ (near_two A) h1 (core_of (by norm_num) (by norm_num)) c1 c2
    (by unfold tol; norm_num) (by norm_num) (by unfold tol; norm_num) (by unfold tol; norm_num)
  exact near_div A tol_nonneg (85 / 10 ^ 7) _ (near_one A) h2 (core_of (by norm_num) (by norm_num)) c2 (core_of (by unfold maxDss at d1; linarith) (by unfold maxDss at d2; linarith))
    (by norm_num) (by unfold tol; norm_num) (by norm_num) (by unfold tol; norm_num) (by norm_num) (by unfold tol; norm_num)

theorem core_int (k : Int) (h : -20 ≤ k) (h' : k ≤ 20) : Core (k : ℝ) ∧ Core ((k : ℝ) ^ 2) := by
  by_cases h0 : k = 0
  · subst h0; exact ⟨.inl (by simp), .inl (by simp)⟩
  · have h1 : (1 : ℝ) ≤ |(k : ℝ)| := by exact_mod_cast Int.one_le_abs h0
    have h2 : |(k : ℝ)| ≤ 20 := by
      rw [abs_le]
      exact ⟨by exact_mod_cast h, by exact_mod_cast h'⟩
    refine ⟨.inr ⟨by linarith [show (1 : ℝ) / 10 ^ 20 ≤ 1 by norm_num], by linarith [show (20 : ℝ) ≤ 10 ^ 20 by norm_num]⟩, core_of ?_ ?_⟩
    · rw [← sq_abs]; nlinarith
    · rw [← sq_abs]; nlinarith

theorem core_sq (k : Int) (h : -20 ≤ k) (h' : k ≤ 20) (d : ℝ) (hd : 1 / 10 ≤ d) (hd' : d ≤ 1) : Core ((k : ℝ) ^ 2 * d) ∧ |(k : ℝ) ^ 2 * d| ≤ 400 * d := by
  have h2 : |(k : ℝ)| ≤ 20 := by
    rw [abs_le]
    exact ⟨by exact_mod_cast h, by exact_mod_cast h'⟩
  have h3 : (k : ℝ) ^ 2 ≤ 400 := by rw [← sq_abs]; nlinarith [abs_nonneg (k : ℝ)]
  have h4 : (k : ℝ) ^ 2 * d ≤ 400 * d := mul_le_mul_of_nonneg_right h3 (by linarith)
  have h5 : 0 ≤ (k : ℝ) ^ 2 * d := mul_nonneg (sq_nonneg _) (by linarith)
  refine ⟨?_, by rw [abs_of_nonneg h5]; exact h4⟩
  by_cases h0 : k = 0
  · subst h0; exact .inl (by simp)
  · have h1 : (1 : ℝ) ≤ |(k : ℝ)| := by exact_mod_cast Int.one_le_abs h0
    apply core_of
    · have : (1 : ℝ) ≤ (k : ℝ) ^ 2 := by rw [← sq_abs]; nlinarith
      nlinarith
    · linarith [show (400 : ℝ) ≤ 10 ^ 20 by norm_num]

/-- The exact exponent. -/
noncomputable def exponent (k z0 : Int) : ℝ := (k : ℝ) ^ 2 * keyDss - (z0 : ℝ) ^ 2 * maxDss

/-- The computed exponent differs from the exact one by less than 1/150, and is zero if both squares are. -/
theorem exponent_near (b z0 : Nat) (hb : b < 2) (hz : z0 < 19) : ∃ x, A.is (sampleExponent O (O.ofInt 0) (O.lit 1.43300980528773) b z0) x ∧
    |x - exponent ((b : Int) + (2 * (b : Int) - 1) * (z0 : Int)) z0| ≤ 1 / 150 ∧ ((b = 0 ∧ z0 = 0) → x = 0) := by
  set k : Int := (b : Int) + (2 * (b : Int) - 1) * (z0 : Int) with hk
  have k1 : -20 ≤ k ∧ k ≤ 20 := by
    have : b = 0 ∨ b = 1 := by omega
    rcases this with rfl | rfl <;> simp only [hk] <;> push_cast <;> omega
  have i0 := A.ofInt 0 (by norm_num) (by norm_num)
  have e0 : O.toInt (O.floor (O.ofInt 0)) = 0 := A.toInt _ 0 (by norm_num) (by norm_num) (A.floorInt _ 0 (by norm_num) (by norm_num) i0)
  -- r
  obtain ⟨r, ir, er⟩ := near_sub A tol_nonneg (tol) (near_int A 0 (by norm_num) (by norm_num)) (near_int A 0 (by norm_num) (by norm_num))
    (.inl (by simp)) (.inl (by simp)) (by norm_num) (by norm_num) (by unfold tol; norm_num) (by unfold tol; norm_num)
  have r0 : r = 0 := by simpa using er
  subst r0
  have nr : Near A 0 (O.sub (O.ofInt 0) (O.ofInt 0)) 0 := ⟨0, ir, by simp⟩
  obtain ⟨ck, ck2⟩ := core_int k k1.1 k1.2
  obtain ⟨w, iw, ew⟩ := near_sub A tol_nonneg (tol) (near_int A k (by omega) (by omega)) nr ck (.inl rfl) (by norm_num) (by norm_num)
    (by unfold tol; norm_num) (by unfold tol; norm_num)
  rw [sub_zero, abs_zero, add_zero] at ew
  have n1 : Near A tol (O.sub (O.ofInt k) (O.sub (O.ofInt 0) (O.ofInt 0))) k := ⟨w, iw, ew⟩
  have n2 : Near A (4 / 10 ^ 6) _ _ := near_pow2 A tol_nonneg _ n1 ck ck2 (by unfold tol; norm_num) (by unfold tol; norm_num) (by unfold tol; norm_num)
  obtain ⟨d1, d2⟩ := keyDss_bounds
  obtain ⟨m1, m2⟩ := maxDss_bounds
  have cd : Core keyDss := core_of (by linarith) (by linarith)
  have cm : Core maxDss := core_of (by linarith) (by linarith)
  obtain ⟨c1, b1⟩ := core_sq k k1.1 k1.2 keyDss (by linarith) (by linarith)
  obtain ⟨c2, b2⟩ := core_sq z0 (by omega) (by omega) maxDss (by linarith) (by linarith)
  obtain ⟨cz, cz2⟩ := core_int z0 (by omega) (by omega)
  have n3 : Near A (2 / 10 ^ 5) _ _ := near_mul A tol_nonneg _ n2 (near_dss A) ck2 cd c1 (by norm_num) (by norm_num) (by norm_num) (by unfold tol; norm_num)
  have n4 : Near A (4 / 10 ^ 6) _ _ := near_pow2 A tol_nonneg _ (near_int A z0 (by omega) (by omega)) cz cz2 (by norm_num) (by norm_num)
    (by unfold tol; norm_num)
  have n5 : Near A (2 / 10 ^ 5) _ _ := near_mul A tol_nonneg _ n4 (near_inv A) cz2 cm c2 (by norm_num) (by norm_num) (by norm_num) (by unfold tol; norm_num)
  obtain ⟨x, ix, ex⟩ := near_sub A tol_nonneg (3 / 10 ^ 5) n3 n5 c1 c2 (by norm_num) (by norm_num) (by unfold tol; norm_num) (by unfold tol; norm_num)
  refine ⟨x, ?_, ?_, ?_⟩
  · unfold sampleExponent
    rw [e0]
    exact ix
  · refine ex.trans ?_
    have : |(k : ℝ) ^ 2 * keyDss| + |((z0 : Int) : ℝ) ^ 2 * maxDss| ≤ 400 * (25 / 100) + 400 * (16 / 100) := by linarith
    nlinarith
  · rintro ⟨rfl, rfl⟩
    have kz : k = 0 := by simp [hk]
    rw [kz] at ex
    simpa using ex

theorem keyDss_rat : keyDss = ((1 / (2 * 1.43300980528773 * 1.43300980528773) : ℚ) : ℝ) := by unfold keyDss keySigma; push_cast; rfl

theorem maxDss_rat : maxDss = ((1 / (2 * 1.8205 ^ 2) : ℚ) : ℝ) := by unfold maxDss; push_cast; rfl

/-- The exact exponents lie well inside intervals between consecutive multiples of `ln 2`. -/
theorem exponent_margin : ∀ b < 2, ∀ z0 < 19, (b = 0 ∧ z0 = 0) ∨
    ((keyShift b z0 : ℚ) + 1 / 50 ≤ (((((b : Int) + (2 * (b : Int) - 1) * (z0 : Int) : Int) : ℚ)) ^ 2 * (1 / (2 * 1.43300980528773 * 1.43300980528773)) -
      (((z0 : Int) : ℚ)) ^ 2 * (1 / (2 * 1.8205 ^ 2))) * 1.44269504089 ∧
    (((((b : Int) + (2 * (b : Int) - 1) * (z0 : Int) : Int) : ℚ)) ^ 2 * (1 / (2 * 1.43300980528773 * 1.43300980528773)) -
      (((z0 : Int) : ℚ)) ^ 2 * (1 / (2 * 1.8205 ^ 2))) * 1.44269504089 ≤ keyShift b z0 + 49 / 50) := by
  decide +kernel

/-- `1/ln 2` as in the code. -/
noncomputable def keyIln : ℝ := ((1.44269504089 : ℚ) : ℝ)

theorem keyIln_bounds : 1.44 ≤ keyIln ∧ keyIln ≤ 1.443 := by unfold keyIln; constructor <;> norm_num

theorem margin_real (b z0 : Nat) (m n : ℚ) (h1 : m ≤ (((((b : Int) + (2 * (b : Int) - 1) * (z0 : Int) : Int) : ℚ)) ^ 2 * (1 / (2 * 1.43300980528773 * 1.43300980528773)) -
      (((z0 : Int) : ℚ)) ^ 2 * (1 / (2 * 1.8205 ^ 2))) * 1.44269504089)
    (h2 : (((((b : Int) + (2 * (b : Int) - 1) * (z0 : Int) : Int) : ℚ)) ^ 2 * (1 / (2 * 1.43300980528773 * 1.43300980528773)) -
      (((z0 : Int) : ℚ)) ^ 2 * (1 / (2 * 1.8205 ^ 2))) * 1.44269504089 ≤ n) :
    (m : ℝ) ≤ exponent ((b : Int) + (2 * (b : Int) - 1) * (z0 : Int)) z0 * keyIln ∧
      exponent ((b : Int) + (2 * (b : Int) - 1) * (z0 : Int)) z0 * keyIln ≤ (n : ℝ) := by
  unfold exponent keyIln
  rw [keyDss_rat, maxDss_rat]
  have e1 := (Rat.cast_le (K := ℝ)).2 h1
  have e2 := (Rat.cast_le (K := ℝ)).2 h2
  rw [Rat.cast_mul, Rat.cast_sub, Rat.cast_mul, Rat.cast_mul, Rat.cast_pow, Rat.cast_pow, Rat.cast_intCast, Rat.cast_intCast] at e1 e2
  exact ⟨e1, e2⟩

theorem keyShift_le : ∀ b < 2, ∀ z0 < 19, keyShift b z0 ≤ 56 := by decide +kernel

include A in
/-- The shift amounts are the same in every such arithmetic. -/
theorem approx_shift (b z0 : Nat) (hb : b < 2) (hz : z0 < 19) :
    berShift O (sampleExponent O (O.ofInt 0) (O.lit 1.43300980528773) b z0) = keyShift b z0 := by
  obtain ⟨x, ix, ex, e0⟩ := exponent_near A b z0 hb hz
  set a := sampleExponent O (O.ofInt 0) (O.lit 1.43300980528773) b z0
  set s := keyShift b z0 with hs
  have hs56 : s ≤ 56 := keyShift_le b hb z0 hz
  -- the floor has the value s
  have key : A.is (O.floor (O.mul a (ILN2 O))) ((s : Int) : ℝ) := by
    obtain ⟨l1, l2⟩ := keyIln_bounds
    set l := keyIln
    have cl : Core l := core_of (by linarith) (by linarith)
    have nl : Near A tol (ILN2 O) l := near_lit A _ cl
    rcases exponent_margin b hb z0 hz with h | ⟨h1, h2⟩
    · have x0 := e0 h
      rw [x0] at ix
      obtain ⟨y, iy, ey⟩ := near_mul A tol_nonneg (4 / 10 ^ 6) (⟨0, ix, by simp⟩ : Near A 0 a 0) nl (.inl rfl) cl (.inl (by simp)) (by norm_num)
        (by unfold tol; norm_num) (by unfold tol; norm_num) (by unfold tol; norm_num)
      have y0 : y = 0 := by simpa using ey
      subst y0
      have := A.floorInt _ 0 (by norm_num) (by norm_num) (by simpa using iy)
      have s0 : s = 0 := by rw [hs, h.1, h.2]; decide
      rw [s0]
      exact this
    · have h1' := (margin_real b z0 _ _ h1 h2).1
      have h2' := (margin_real b z0 _ _ h1 h2).2
      clear h1 h2
      push_cast at h1' h2'
      set t := exponent ((b : Int) + (2 * (b : Int) - 1) * (z0 : Int)) z0
      obtain ⟨ex1, ex2⟩ := abs_le.1 ex
      have sr : (s : ℝ) ≤ 56 := by exact_mod_cast hs56
      have s0 : (0 : ℝ) ≤ s := by positivity
      -- x is between s and s + 1 after scaling
      have a1 : (s : ℝ) + 1 / 100 ≤ x * l := by nlinarith
      have a2 : x * l ≤ s + 99 / 100 := by nlinarith
      have xp : 1 / 1000 ≤ x := by nlinarith
      have xu : x ≤ 57 := by nlinarith
      have cx : Core x := core_of xp (by linarith)
      have cxl : Core (x * l) := core_of (by linarith) (by linarith)
      obtain ⟨y, iy, ey⟩ := near_mul A tol_nonneg (4 / 10 ^ 6) (⟨x, ix, by simp⟩ : Near A 0 a x) nl cx cl cxl (by norm_num)
        (by unfold tol; norm_num) (by unfold tol; norm_num) (by unfold tol; norm_num)
      obtain ⟨my, uy, -⟩ := mid_of_near (by norm_num) ey cxl
      obtain ⟨r, er, ir⟩ := A.floor _ y my iy
      rw [abs_of_nonneg (show 0 ≤ x * l by linarith)] at ey uy
      obtain ⟨ey1, ey2⟩ := abs_le.1 ey
      obtain ⟨er1, er2⟩ := abs_le.1 er
      have ty : tol * |y| ≤ 1 / 10 ^ 4 := by unfold tol; nlinarith
      have : ⌊r⌋ = (s : Int) := by
        rw [Int.floor_eq_iff]
        push_cast
        constructor <;> nlinarith
      rw [this] at ir
      exact ir
  have n63 : Near A tol (O.lit 63) 63 := by
    have := near_lit A 63 (core_of (by norm_num) (by norm_num))
    exact_mod_cast this
  obtain ⟨y, iy, ey⟩ := n63
  obtain ⟨my, uy, -⟩ := mid_of_near (by unfold tol; norm_num) ey (core_of (by norm_num) (by norm_num))
  have ms : Mid ((s : Int) : ℝ) := by
    by_cases h : s = 0
    · left; simp [h]
    · right
      have h1 : (1 : ℝ) ≤ (s : ℝ) := by exact_mod_cast Nat.one_le_iff_ne_zero.2 h
      have sr : (s : ℝ) ≤ 56 := by exact_mod_cast hs56
      rw [Int.cast_natCast, abs_of_nonneg (by linarith)]
      exact ⟨by linarith [show (1 : ℝ) / 10 ^ 30 ≤ 1 by norm_num], by linarith [show (56 : ℝ) ≤ 10 ^ 30 by norm_num]⟩
  unfold berShift goMin
  rw [A.lt _ _ _ _ ms my key iy ?_, if_pos rfl]
  · exact A.toInt _ _ (by omega) (by omega) key
  · have sr : (s : ℝ) ≤ 56 := by exact_mod_cast hs56
    have s0 : (0 : ℝ) ≤ s := by positivity
    rw [Int.cast_natCast, abs_of_nonneg s0]
    unfold tol at ey uy ⊢
    norm_num at ey uy ⊢
    obtain ⟨e1, e2⟩ := abs_le.1 ey
    linarith

include A in
theorem approx_ccs : ∃ r : ℝ, 2 ^ 62 + 1 ≤ r ∧ r ≤ 2 ^ 63 ∧
    (O.toUInt64 (O.mul (O.div (O.sub (O.lit 1.43300980528773) (O.lit 0.001)) (O.lit 1.43300980528773)) (O.lit (2 ^ 63)))).toNat = ⌊r⌋₊ := by
  set c : ℝ := ((0.001 : ℚ) : ℝ) with hc
  have cv : c = 1 / 1000 := by rw [hc]; norm_num
  obtain ⟨s1, s2⟩ := keySigma_bounds
  have cs : Core keySigma := core_of (by linarith) (by linarith)
  have cc : Core c := core_of (by rw [cv]) (by rw [cv]; norm_num)
  obtain ⟨x, ix, ex⟩ := near_sub A tol_nonneg (3 / 10 ^ 6) (near_sigma A) (near_lit A 0.001 cc) cs cc (by unfold tol; norm_num) (by unfold tol; norm_num)
    (by unfold tol; norm_num) (by unfold tol; norm_num)
  rw [← hc, cv, abs_of_nonneg (show 0 ≤ keySigma by linarith), abs_of_nonneg (show (0 : ℝ) ≤ 1 / 1000 by norm_num)] at ex
  clear cc cv hc
  obtain ⟨x1, x2⟩ := abs_le.1 ex
  have cx : Core x := core_of (by linarith) (by linarith)
  have q1 : x / keySigma ≤ 9994 / 10000 := by
    rw [div_le_iff₀ (by linarith)]
    linarith
  have q2 : 99 / 100 ≤ x / keySigma := by
    rw [le_div_iff₀ (by linarith)]
    linarith
  have cq : Core (x / keySigma) := core_of (by linarith) (by linarith)
  have n1 : Near A (3 / 10 ^ 6) _ _ := near_div A tol_nonneg (15 / 10 ^ 7) _ (⟨x, ix, by simp⟩ : Near A 0 _ x) (near_sigma A) cx cs cq (by linarith) (by norm_num)
    (by unfold tol; norm_num) (by unfold tol; norm_num) (by norm_num) (by unfold tol; norm_num)
  have cb : Core (((2 : ℚ) ^ 63 : ℚ) : ℝ) := core_of (by norm_num) (by norm_num)
  have eb : (((2 : ℚ) ^ 63 : ℚ) : ℝ) = 2 ^ 63 := by norm_num
  have n2 := near_lit A (2 ^ 63) cb
  rw [eb] at n2 cb
  obtain ⟨y, iy, ey⟩ := near_mul A tol_nonneg (1 / 10 ^ 5) n1 n2 cq cb (core_of (by nlinarith) (by nlinarith)) (by norm_num) (by unfold tol; norm_num)
    (by unfold tol; norm_num) (by unfold tol; norm_num)
  rw [abs_of_nonneg (show 0 ≤ x / keySigma * 2 ^ 63 by nlinarith)] at ey
  obtain ⟨y1, y2⟩ := abs_le.1 ey
  have y3 : y ≤ 9995 / 10000 * 2 ^ 63 := by nlinarith
  have y4 : 98 / 100 * 2 ^ 63 ≤ y := by nlinarith
  obtain ⟨r, er, ir⟩ := A.toUInt64 _ y (by nlinarith) (by nlinarith) iy
  rw [abs_of_nonneg (show 0 ≤ y by nlinarith)] at er
  obtain ⟨r1, r2⟩ := abs_le.1 er
  unfold tol at r1 r2
  exact ⟨r, by nlinarith, by nlinarith, ir⟩

include A in
/-- C94: relative errors of `10^-6` are good enough: in every arithmetic with that precision or better the sampler of key generation takes the
same decisions as in exact arithmetic. -/
theorem C94_precision : KeyArith O where
  ints k h1 h2 := by
    have i := A.ofInt k (by omega) (by omega)
    exact ⟨A.toInt _ k h1 h2 i, A.toInt _ k h1 h2 (A.floorInt _ k (by omega) (by omega) i)⟩
  shift b hb z0 hz := approx_shift A b z0 hb hz
  lo := by
    obtain ⟨r, r1, -, h⟩ := approx_ccs A
    rw [h]
    have : 2 ^ 62 + 1 ≤ ⌊r⌋₊ := Nat.le_floor (by push_cast; linarith)
    omega
  hi := by
    obtain ⟨r, r1, r2, h⟩ := approx_ccs A
    rw [h]
    have h63 : r ≤ ((2 ^ 63 : Nat) : ℝ) := by push_cast; linarith
    exact Nat.floor_le_of_le h63

end

/-! ### The candidates do not depend on the arithmetic -/

theorem baseSampler_le (d : Draw) : BaseSampler (splitRandBytes d).1 < 19 := by
  have := C44_range (splitRandBytes d).1
  omega

/-- The rejection step as a function of the shift amount and the byte. -/
theorem key_berexp {O : FloatOps} (k : KeyArith O) (b z0 : Nat) (hb : b < 2) (hz : z0 < 19) (c : UInt8) :
    berexp O (sampleExponent O (O.ofInt 0) (O.lit 1.43300980528773) b z0)
      (O.div (O.sub (O.lit 1.43300980528773) (O.lit 0.001)) (O.lit 1.43300980528773)) [c] =
      .ok (decide (berexpLoop c.toNat (shr64 (0 - 1) (keyShift b z0)) berexpShifts 0 < 0)) := by
  have hs := k.shift b hb z0 hz
  have e := berexp_eq O (sampleExponent O (O.ofInt 0) (O.lit 1.43300980528773) b z0)
    (O.div (O.sub (O.lit 1.43300980528773) (O.lit 0.001)) (O.lit 1.43300980528773)) (by rw [hs]; omega) c.toNat c.toNat_lt
  rw [UInt8.ofNat_toNat, hs, C45_value_partial O _ _ k.lo k.hi, Int.toNat_natCast] at e
  exact e

theorem keySample_eq {O P : FloatOps} (k : KeyArith O) (l : KeyArith P) (rand : Rand) (fuel pos : Nat) :
    keySample O rand fuel pos = keySample P rand fuel pos := by
  unfold keySample
  induction fuel generalizing pos with
  | zero => rfl
  | succ fuel ih =>
    cases hr : rand pos with
    | none => rw [Samplerz, Samplerz, hr]
    | some d =>
      have hb : (d 9).toNat % 2 < 2 := Nat.mod_lt _ (by norm_num)
      have hz := baseSampler_le d
      rw [Samplerz_step O _ _ _ _ fuel pos d hr, Samplerz_step P _ _ _ _ fuel pos d hr, key_berexp k _ _ hb hz, key_berexp l _ _ hb hz, ih]
      have hv : sampleValue O (O.ofInt 0) ((d 9).toNat % 2) (BaseSampler (splitRandBytes d).1) =
          sampleValue P (P.ofInt 0) ((d 9).toNat % 2) (BaseSampler (splitRandBytes d).1) := by
        unfold sampleValue
        have r1 : ∀ b < 2, ∀ z < 19, -(2 ^ 31) ≤ ((b : Nat) : Int) + (2 * (b : Int) - 1) * ((z : Nat) : Int) ∧
            ((b : Nat) : Int) + (2 * (b : Int) - 1) * ((z : Nat) : Int) < 2 ^ 31 := by
          intro b hb z hz
          have : b = 0 ∨ b = 1 := by omega
          rcases this with rfl | rfl <;> push_cast <;> omega
        obtain ⟨a1, a2⟩ := r1 _ hb _ hz
        rw [key_floor k, key_floor l, (k.ints _ a1 a2).1, (l.ints _ a1 a2).1]
      rw [hv]

theorem genSamples_eq {O P : FloatOps} (k : KeyArith O) (l : KeyArith P) (rand : Rand) (fuel m pos : Nat) :
    genSamples O rand fuel m pos = genSamples P rand fuel m pos := by
  induction m generalizing pos with
  | zero => rfl
  | succ m ih =>
    rw [genSamples, genSamples]
    have := keySample_eq k l rand fuel pos
    unfold keySample at this
    rw [this]
    simp only [ih]

/-- C94: `GenPoly` returns the same polynomial and leaves the random source at the same place in any two such arithmetics, for every
behaviour of the random source: the candidates are a function of the random bytes alone. -/
theorem C94_candidates {O P : FloatOps} (k : KeyArith O) (l : KeyArith P) (rand : Rand) (fuel : Nat) (n : UInt16) (pos : Nat) :
    GenPoly O rand fuel n pos = GenPoly P rand fuel n pos := by
  unfold GenPoly
  rw [genSamples_eq k l]

/-- C94: in any such arithmetic `GeneratePrivateKey` panics only if the random source fails. -/
theorem C94_panics {O : FloatOps} (k : KeyArith O) (rand : Rand) (fuel : Nat) (n : UInt16) (pos : Nat)
    (h : GeneratePrivateKey O rand fuel n pos = .panic) : ∃ i, pos ≤ i ∧ rand i = none := by
  obtain ⟨fuel', p, hp, e⟩ := C59_only_sampler O rand fuel n pos h
  obtain ⟨i, hi, hn⟩ := C59_sampler_key k rand fuel' p e
  exact ⟨i, by omega, hn⟩

end Falcon
