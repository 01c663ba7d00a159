import Verif.Lemmas.FftNear
import Verif.Lemmas.CDiv
import Mathlib.Tactic.Ring
import Mathlib.Tactic.Linarith
/-!
# IEEE arithmetic on constant vectors

The transforms of a constant polynomial only multiply by zero and add zero, so that they are exact in IEEE arithmetic, up to the signs of
zeros.
-/

namespace Falcon
namespace F64

/-- A finite datum with the given value; the sign of a zero is left open. -/
def Is (a : F64) (v : ℚ) : Prop := (v = 0 ∧ ∃ s, a = .zero s) ∨ (v ≠ 0 ∧ a = .fin v)

/-- The value of the rounded rational. -/
def rd (v : ℚ) : ℚ := (ofRat v).val

theorem Is.val {a : F64} {v : ℚ} (h : Is a v) : a.val = v := by
  rcases h with ⟨rfl, s, rfl⟩ | ⟨-, rfl⟩ <;> rfl

theorem Is.nan {a : F64} {v : ℚ} (h : Is a v) : a.isNaN = false := by
  rcases h with ⟨rfl, s, rfl⟩ | ⟨-, rfl⟩ <;> rfl

theorem Is.inf {a : F64} {v : ℚ} (h : Is a v) : a.isInf = false := by
  rcases h with ⟨rfl, s, rfl⟩ | ⟨-, rfl⟩ <;> rfl

theorem Is.fin {a : F64} {v : ℚ} (h : Is a v) : a.isFinite = true := by
  rcases h with ⟨rfl, s, rfl⟩ | ⟨-, rfl⟩ <;> rfl

theorem Is.zero {a : F64} {v : ℚ} (h : Is a v) : a.isZero = decide (v = 0) := by
  rcases h with ⟨rfl, s, rfl⟩ | ⟨h0, rfl⟩
  · rfl
  · simp [isZero, h0]

theorem Is.neg {a : F64} {v : ℚ} (h : Is a v) : Is a.neg (-v) := by
  rcases h with ⟨rfl, s, rfl⟩ | ⟨h0, rfl⟩
  · exact .inl ⟨by simp, _, rfl⟩
  · exact .inr ⟨by simpa using h0, rfl⟩

/-- The result of a rounding is not the non-zero datum of value zero. -/
theorem is_ofRat (v : ℚ) (h : (ofRat v).isFinite = true) : Is (ofRat v) (rd v) := by
  have hr : ∀ x : ℚ, (rnd x).isFinite = true → Is (rnd x) (rnd x).val := by
    intro x h
    unfold rnd at h ⊢
    simp only at h ⊢
    split
    · exact .inl ⟨rfl, _, rfl⟩
    · rename_i hz
      rw [if_neg hz] at h
      split
      · rename_i h2
        rw [if_pos h2] at h
        cases h
      · refine .inr ⟨?_, rfl⟩
        show (if x < 0 then -nearest |x| else nearest |x|) ≠ 0
        split
        · simpa using hz
        · exact hz
  unfold rd ofRat at *
  split
  · exact .inl ⟨rfl, _, rfl⟩
  · rename_i h0
    rw [if_neg h0] at h
    exact hr v h

/-- The limit of the values below. -/
@[irreducible] def lim : ℚ := 2 ^ (1000 : Int)

theorem is_ofRat_le (v : ℚ) (h : |v| ≤ lim) : Is (ofRat v) (rd v) := by
  apply is_ofRat
  unfold ofRat
  split
  · rfl
  · rename_i h0
    unfold lim at h
    exact (rnd_near_rat v h0 h).1

theorem rd_zero : rd 0 = 0 := by simp [rd, ofRat, val]

theorem rd_le (v : ℚ) (h : |v| ≤ lim) : |rd v| ≤ 2 * |v| + 1 := by
  by_cases h0 : v = 0
  · rw [h0, rd_zero]; simp
  have h1 := (rnd_near_rat v h0 (by unfold lim at h; exact h)).2
  have e : rd v = (rnd v).val := by unfold rd ofRat; rw [if_neg h0]
  rw [e]
  have h2 : (2 : ℚ) ^ (-53 : Int) ≤ 1 := by norm_num
  have h3 : (2 : ℚ) ^ (-1075 : Int) ≤ 1 := zpow_le_one_of_nonpos₀ (by norm_num) (by norm_num)
  have h4 := abs_sub_abs_le_abs_sub (rnd v).val v
  have h5 := mul_le_mul_of_nonneg_right h2 (abs_nonneg v)
  linarith

/-- Exactly represented values. -/
def Rp (v : ℚ) : Prop := ∃ m e : Int, v = m * (2 : ℚ) ^ e ∧ |v| < (2 : ℚ) ^ (e + 53) ∧ -1074 ≤ e

theorem rp_zero : Rp 0 := ⟨0, 0, by simp, by positivity, by norm_num⟩

theorem Rp.neg {v : ℚ} (h : Rp v) : Rp (-v) := by
  obtain ⟨m, e, h1, h2, h3⟩ := h
  exact ⟨-m, e, by rw [h1]; push_cast; ring, by rwa [abs_neg], h3⟩

theorem Rp.double {v : ℚ} (h : Rp v) : Rp (2 * v) := by
  obtain ⟨m, e, h1, h2, h3⟩ := h
  have e2 : ∀ k : Int, (2 : ℚ) ^ (k + 1) = 2 * 2 ^ k := fun k => by rw [zpow_add_one₀ (by norm_num), mul_comm]
  refine ⟨m, e + 1, by rw [h1, e2]; ring, ?_, by omega⟩
  rw [show e + 1 + 53 = e + 53 + 1 by ring, e2, abs_mul]
  have : |(2 : ℚ)| = 2 := by norm_num
  rw [this]
  linarith

theorem Rp.rd {v : ℚ} (h : Rp v) (hv : |v| ≤ lim) : rd v = v := by
  by_cases h0 : v = 0
  · rw [h0, rd_zero]
  obtain ⟨m, e, h1, h2, h3⟩ := h
  have hp : 0 < |v| := abs_pos.2 h0
  have hn : nearest |v| = |v| := by
    rcases le_or_gt 0 v with h | h
    · rw [abs_of_nonneg h] at hp h2 ⊢
      exact nearest_exact v m e hp h1 h2 h3
    · rw [abs_of_neg h] at hp h2 ⊢
      exact nearest_exact (-v) (-m) e hp (by rw [h1]; push_cast; ring) h2 h3
  have hl : ¬ two 1024 ≤ |v| := by
    rw [two_eq]
    have h5 : (2 : ℚ) ^ (1000 : Int) < (2 : ℚ) ^ (1024 : Int) := zpow_lt_zpow_right₀ (by norm_num) (by norm_num)
    unfold lim at hv
    exact not_le.2 (lt_of_le_of_lt hv h5)
  unfold F64.rd ofRat
  rw [if_neg h0]
  unfold rnd
  simp only [hn]
  rw [if_neg hp.ne', if_neg hl]
  show (if v < 0 then -|v| else |v|) = v
  split
  · rename_i h
    rw [abs_of_neg h]; ring
  · rename_i h
    exact abs_of_nonneg (not_lt.1 h)

theorem nearest_rp (x : ℚ) (hx : 0 < x) : Rp (nearest x) := by
  obtain ⟨h1, h2⟩ := flog2_spec x hx
  have hu : -1074 ≤ ulpExp x := by unfold ulpExp; omega
  have hle : x ≤ (2 : ℚ) ^ (ulpExp x + 53) := by
    refine h2.le.trans (zpow_le_zpow_right₀ (by norm_num) ?_)
    unfold ulpExp; omega
  have e53 : (2 : ℚ) ^ (ulpExp x + 53) = 2 ^ 53 * 2 ^ ulpExp x := by rw [zpow_add₀ (by norm_num), mul_comm]; norm_num
  have hpos : (0 : ℚ) < 2 ^ ulpExp x := by positivity
  have hq : x / two (ulpExp x) ≤ 2 ^ 53 := by
    rw [two_eq, div_le_iff₀ hpos, ← e53]
    exact hle
  have hq0 : 0 ≤ x / two (ulpExp x) := div_nonneg hx.le (two_pos _).le
  have hr0 := roundEven_nonneg _ hq0
  have hr : roundEven (x / two (ulpExp x)) ≤ 2 ^ 53 := by
    have h3 := (abs_le.1 (roundEven_spec (x / two (ulpExp x)))).2
    have h4 : ((roundEven (x / two (ulpExp x)) : ℤ) : ℚ) < ((2 ^ 53 + 1 : ℤ) : ℚ) := by push_cast; linarith
    have h5 : roundEven (x / two (ulpExp x)) < 2 ^ 53 + 1 := by exact_mod_cast h4
    omega
  unfold nearest
  generalize roundEven (x / two (ulpExp x)) = r at *
  generalize ulpExp x = u at *
  rw [two_eq]
  have e2 : ∀ k : Int, (2 : ℚ) ^ (k + 1) = 2 * 2 ^ k := fun k => by rw [zpow_add_one₀ (by norm_num), mul_comm]
  rcases eq_or_lt_of_le hr with e | e
  · refine ⟨2 ^ 52, u + 1, by rw [e, e2]; push_cast; ring, ?_, by omega⟩
    rw [abs_of_nonneg (by rw [e]; positivity), e, show u + 1 + 53 = u + 53 + 1 by ring, e2, e53]
    push_cast
    linarith
  · refine ⟨r, u, rfl, ?_, hu⟩
    have h6 : (r : ℚ) < 2 ^ 53 := by exact_mod_cast e
    have h7 : (0 : ℚ) ≤ r := by exact_mod_cast hr0
    rw [abs_of_nonneg (by positivity), e53]
    exact mul_lt_mul_of_pos_right h6 hpos

theorem rp_rd (v : ℚ) : Rp (rd v) := by
  unfold rd ofRat
  split
  · exact rp_zero
  · rename_i h0
    unfold rnd
    simp only
    split
    · exact rp_zero
    split
    · exact rp_zero
    · show Rp (if v < 0 then -nearest |v| else nearest |v|)
      have := nearest_rp |v| (abs_pos.2 h0)
      split
      · exact this.neg
      · exact this

/-! ### Operations -/

theorem Is.add {a b : F64} {u v : ℚ} (ha : Is a u) (hb : Is b v) (h : |u + v| ≤ lim) : Is (add a b) (rd (u + v)) := by
  have h1 := is_ofRat_le (u + v) h
  unfold F64.add
  rw [ha.nan, hb.nan, ha.inf, hb.inf, ha.val, hb.val]
  simp only [Bool.or_self, Bool.false_eq_true, if_false]
  by_cases h0 : u + v = 0
  · rw [if_pos h0, h0, rd_zero]
    exact .inl ⟨rfl, _, rfl⟩
  · rw [if_neg h0]
    unfold ofRat at h1
    rwa [if_neg h0] at h1

theorem Is.sub {a b : F64} {u v : ℚ} (ha : Is a u) (hb : Is b v) (h : |u - v| ≤ lim) : Is (sub a b) (rd (u - v)) := by
  rw [sub_eq_add_neg] at h ⊢
  exact ha.add hb.neg h

theorem Is.mul {a b : F64} {u v : ℚ} (ha : Is a u) (hb : Is b v) (h : |u * v| ≤ lim) : Is (mul a b) (rd (u * v)) := by
  have h1 := is_ofRat_le (u * v) h
  unfold F64.mul
  rw [ha.nan, hb.nan, ha.inf, hb.inf, ha.val, hb.val, ha.zero, hb.zero]
  simp only [Bool.or_self, Bool.false_eq_true, if_false]
  by_cases h0 : u * v = 0
  · have : (decide (u = 0) || decide (v = 0)) = true := by simpa using mul_eq_zero.1 h0
    rw [if_pos this, h0, rd_zero]
    exact .inl ⟨rfl, _, rfl⟩
  · have : (decide (u = 0) || decide (v = 0)) = false := by
      simpa [not_or] using h0
    rw [this, if_neg (by decide)]
    unfold ofRat at h1
    rwa [if_neg h0] at h1

theorem Is.div {a b : F64} {u v : ℚ} (ha : Is a u) (hb : Is b v) (h0 : v ≠ 0) (h : |u / v| ≤ lim) : Is (div a b) (rd (u / v)) := by
  have h1 := is_ofRat_le (u / v) h
  unfold F64.div
  rw [ha.nan, hb.nan, ha.inf, hb.inf, ha.val, hb.val, ha.zero, hb.zero]
  simp only [Bool.or_self, Bool.false_eq_true, if_false, decide_eq_true_eq]
  rw [if_neg h0]
  by_cases hu : u = 0
  · rw [if_pos hu, hu, zero_div, rd_zero]
    exact .inl ⟨rfl, _, rfl⟩
  · rw [if_neg hu]
    unfold ofRat at h1
    rwa [if_neg (div_ne_zero hu h0)] at h1

/-! ### Complex numbers -/

/-- A complex number with the given real part and imaginary part zero. -/
def Cst (v : ℚ) (z : F64 × F64) : Prop := Is z.1 v ∧ Is z.2 0

/-- A finite complex number, not too large. -/
def Fit (z : F64 × F64) : Prop := (∃ u, Is z.1 u) ∧ ∃ u, Is z.2 u

theorem lim_pos : (0 : ℚ) < lim := by unfold lim; positivity

theorem is_zero_rd {a : F64} {v : ℚ} (h : Is a (rd v)) (hv : v = 0) : Is a 0 := by
  rw [hv, rd_zero] at h
  exact h

theorem Cst.add {x y : F64 × F64} {u v : ℚ} (hx : Cst u x) (hy : Cst v y) (h : |u + v| ≤ lim) : Cst (rd (u + v)) (ieeeOps.cadd x y) :=
  ⟨hx.1.add hy.1 h, is_zero_rd (hx.2.add hy.2 (by simpa using lim_pos.le)) (by simp)⟩

theorem Cst.sub {x y : F64 × F64} {u v : ℚ} (hx : Cst u x) (hy : Cst v y) (h : |u - v| ≤ lim) : Cst (rd (u - v)) (ieeeOps.csub x y) :=
  ⟨hx.1.sub hy.1 h, is_zero_rd (hx.2.sub hy.2 (by simpa using lim_pos.le)) (by simp)⟩

theorem Cst.conj {x : F64 × F64} {u : ℚ} (hx : Cst u x) : Cst u (ieeeOps.conj x) :=
  ⟨hx.1, by have := hx.2.neg; rwa [neg_zero] at this⟩

theorem Is.mul_zero {a b : F64} {u : ℚ} (ha : Is a u) (hb : Is b 0) : Is (F64.mul a b) 0 :=
  is_zero_rd (ha.mul hb (by simpa using lim_pos.le)) (by simp)

theorem Is.zero_mul {a b : F64} {u : ℚ} (ha : Is a 0) (hb : Is b u) : Is (F64.mul a b) 0 :=
  is_zero_rd (ha.mul hb (by simpa using lim_pos.le)) (by simp)

theorem Is.zero_add {a b : F64} (ha : Is a 0) (hb : Is b 0) : Is (F64.add a b) 0 :=
  is_zero_rd (ha.add hb (by simpa using lim_pos.le)) (by simp)

theorem Is.zero_sub {a b : F64} (ha : Is a 0) (hb : Is b 0) : Is (F64.sub a b) 0 :=
  is_zero_rd (ha.sub hb (by simpa using lim_pos.le)) (by simp)

theorem Cst.mul {x y : F64 × F64} {u v : ℚ} (hx : Cst u x) (hy : Cst v y) (h : |u * v| ≤ lim / 4) (h1 : 2 ≤ lim):
    Cst (rd (u * v)) (ieeeOps.cmul x y) := by
  have hl : |u * v| ≤ lim := by linarith [lim_pos]
  have hb := rd_le _ hl
  have hb' : |rd (u * v)| ≤ lim := by linarith
  refine ⟨?_, (hx.1.mul_zero hy.2).zero_add (hx.2.zero_mul hy.1)⟩
  have := (hx.1.mul hy.1 hl).sub (hx.2.mul_zero hy.2) (by rwa [sub_zero])
  rw [sub_zero, (rp_rd _).rd hb'] at this
  exact this

theorem Fit.mul_cst {w y : F64 × F64} (hw : Fit w) (hy : Cst 0 y) : Cst 0 (ieeeOps.cmul w y) := by
  obtain ⟨⟨a, ha⟩, b, hb⟩ := hw
  exact ⟨(ha.mul_zero hy.1).zero_sub (hb.mul_zero hy.2), (ha.mul_zero hy.2).zero_add (hb.mul_zero hy.1)⟩

theorem Fit.cst_mul {w y : F64 × F64} (hw : Fit w) (hy : Cst 0 y) : Cst 0 (ieeeOps.cmul y w) := by
  obtain ⟨⟨a, ha⟩, b, hb⟩ := hw
  exact ⟨(hy.1.zero_mul ha).zero_sub (hy.2.zero_mul hb), (hy.1.zero_mul hb).zero_add (hy.2.zero_mul ha)⟩

theorem Fit.conj {w : F64 × F64} (hw : Fit w) : Fit (ieeeOps.conj w) := by
  obtain ⟨ha, b, hb⟩ := hw
  exact ⟨ha, _, hb.neg⟩

theorem root_fit (k i : Nat) (h1 : 1 ≤ k) (h2 : k ≤ 10) (hi : i < 2 ^ k) : Fit (ieeeOps.root (2 ^ k) i) := by
  have h := (root_cnear k i h1 h2 hi).1
  exact ⟨⟨_, is_ofRat _ h.1⟩, _, is_ofRat _ h.2⟩

theorem Is.lt_abs {c d : F64} {v : ℚ} (hc : Is c v) (hd : Is d 0) : F64.lt (F64.abs c) (F64.abs d) = false := by
  obtain ⟨c1, c2⟩ := abs_fin c hc.fin
  obtain ⟨d1, d2⟩ := abs_fin d hd.fin
  obtain ⟨c3, c4⟩ := finite_flags _ c1
  obtain ⟨d3, d4⟩ := finite_flags _ d1
  unfold F64.lt
  rw [c3, c4, d3, d4, c2, d2, hc.val, hd.val]
  simp

theorem Cst.div {x y : F64 × F64} {u v : ℚ} (hx : Cst u x) (hy : Cst v y) (h0 : v ≠ 0) (hu : Rp u) (hv : Rp v) (bu : |u| ≤ lim) (bv : |v| ≤ lim)
    (h : |u / v| ≤ lim) : Cst (rd (u / v)) (ieeeOps.cdiv x y) := by
  obtain ⟨a, b⟩ := x
  obtain ⟨c, d⟩ := y
  obtain ⟨ha, hb⟩ := hx
  obtain ⟨hc, hd⟩ := hy
  simp only at ha hb hc hd
  have hr : Is (F64.div d c) 0 := is_zero_rd (hd.div hc h0 (by simpa using lim_pos.le)) (by simp)
  have hden : Is (F64.add c (F64.mul (F64.div d c) d)) v := by
    have := hc.add (hr.zero_mul hd) (by simpa using bv)
    rwa [add_zero, hv.rd bv] at this
  have he : Is (F64.add a (F64.mul b (F64.div d c))) u := by
    have := ha.add (hb.zero_mul hr) (by simpa using bu)
    rwa [add_zero, hu.rd bu] at this
  have hf : Is (F64.sub b (F64.mul a (F64.div d c))) 0 := hb.zero_sub (ha.mul_zero hr)
  have h1 := he.div hden h0 h
  have h2 : Is (F64.div (F64.sub b (F64.mul a (F64.div d c))) (F64.add c (F64.mul (F64.div d c) d))) 0 :=
    is_zero_rd (hf.div hden h0 (by simpa using lim_pos.le)) (by simp)
  show Cst _ (F64.cdiv (a, b) (c, d))
  unfold F64.cdiv
  simp only [hc.lt_abs hd, hc.nan, hd.nan, Bool.not_false, Bool.and_self, if_true]
  rw [h1.nan, h2.nan, Bool.or_self, if_neg (by decide)]
  exact ⟨h1, h2⟩

end F64
end Falcon
