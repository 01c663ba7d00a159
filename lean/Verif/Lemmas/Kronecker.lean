import Verif.Spec.Verify
import Mathlib.Algebra.Polynomial.Inductions
import Mathlib.Algebra.Polynomial.Eval.Coeff
import Mathlib.Algebra.Polynomial.Eval.Degree
import Mathlib.Algebra.Order.BigOperators.Group.List
import Mathlib.Tactic.Ring
import Mathlib.Tactic.Linarith
import Mathlib.Tactic.LinearCombination
/-!
# Checking identities of polynomials at one point

An integer polynomial whose coefficients are smaller than `B` in absolute value and which vanishes at `B` is zero. This turns the
equation a signature satisfies into one equation between integers, which the kernel can check for vectors of 512 coefficients.
-/

namespace Falcon.Kronecker

open Polynomial Spec

theorem eq_zero_of_eval (B M : ℤ) (hB : M < B) (n : Nat) : ∀ p : ℤ[X], p.natDegree < n → (∀ k, |p.coeff k| ≤ M) → p.eval B = 0 →
    p = 0 := by
  induction n with
  | zero => intro p h; omega
  | succ n ih =>
    intro p hd hc he
    have hsplit := divX_mul_X_add p
    have hM : 0 ≤ M := le_trans (abs_nonneg _) (hc 0)
    have h0 : p.coeff 0 = 0 := by
      have : B ∣ p.coeff 0 := by
        rw [← hsplit] at he
        rw [eval_add, eval_mul, eval_X, eval_C] at he
        exact ⟨-(p.divX.eval B), by linarith⟩
      exact Int.eq_zero_of_abs_lt_dvd this (lt_of_le_of_lt (hc 0) hB)
    have hq : p.divX.eval B = 0 := by
      rw [← hsplit, h0] at he
      simp only [map_zero, add_zero, eval_mul, eval_X] at he
      rcases mul_eq_zero.1 he with h | h
      · exact h
      · omega
    rcases Nat.eq_zero_or_pos n with rfl | hn
    · have : p.natDegree = 0 := by omega
      rw [eq_C_of_natDegree_eq_zero this, h0, map_zero]
    · have hz : p.divX = 0 := by
        refine ih p.divX ?_ (fun k => ?_) hq
        · rw [natDegree_divX_eq_natDegree_tsub_one]; omega
        · rw [coeff_divX]; exact hc _
      rw [← hsplit, hz, h0]
      simp

/-- Value at `B`. -/
def value (B : ℤ) : List ℤ → ℤ
  | [] => 0
  | a :: r => a + B * value B r

/-- Sum of absolute values. -/
def sumAbs : List ℤ → ℕ
  | [] => 0
  | a :: r => a.natAbs + sumAbs r

/-- All absolute values at most `M`. -/
def small (M : ℕ) (l : List ℤ) : Bool := l.all fun a => a.natAbs ≤ M

theorem eval_poly (B : ℤ) (l : List ℤ) : (poly l).eval B = value B l := by
  induction l with
  | nil => simp [poly, value]
  | cons a r ih => simp [poly, value, ih]

theorem coeff_poly (M : ℕ) (l : List ℤ) (h : small M l = true) (k : ℕ) : |(poly l).coeff k| ≤ M := by
  induction l generalizing k with
  | nil => simp [poly]
  | cons a r ih =>
    simp only [small, List.all_cons, Bool.and_eq_true, decide_eq_true_eq] at h
    rcases k with _ | k
    · simp only [poly, coeff_add, coeff_C_zero, mul_coeff_zero, coeff_X_zero, zero_mul, add_zero]
      rw [Int.abs_eq_natAbs]; exact_mod_cast h.1
    · simp only [poly, coeff_add, coeff_C_succ, coeff_X_mul, zero_add]
      exact ih h.2 k

theorem coeff_mul (M : ℕ) (l : List ℤ) (p : ℤ[X]) (h : ∀ k, |p.coeff k| ≤ M) (k : ℕ) :
    |(poly l * p).coeff k| ≤ sumAbs l * M := by
  induction l generalizing k with
  | nil => simp [poly, sumAbs]
  | cons a r ih =>
    have e : (poly (a :: r) * p).coeff k = a * p.coeff k + (X * (poly r * p)).coeff k := by
      rw [poly, add_mul, coeff_add, coeff_C_mul, mul_assoc]
    rw [e, sumAbs]
    push_cast
    have h1 : |a * p.coeff k| ≤ (a.natAbs : ℤ) * M := by
      rw [abs_mul, Int.abs_eq_natAbs]
      exact mul_le_mul_of_nonneg_left (h k) (by positivity)
    have h2 : |(X * (poly r * p)).coeff k| ≤ (sumAbs r : ℤ) * M := by
      rcases k with _ | k
      · simp only [mul_coeff_zero, coeff_X_zero, zero_mul, abs_zero]; positivity
      · rw [coeff_X_mul]; exact ih k
    calc |a * p.coeff k + (X * (poly r * p)).coeff k| ≤ _ := abs_add_le _ _
      _ ≤ (a.natAbs : ℤ) * M + sumAbs r * M := add_le_add h1 h2
      _ = _ := by simp only [Int.natCast_natAbs]; ring

/-- The certificate: `a*b + c = q*k + (x^n+1)*l`, checked at `B`, with the bounds that make this an identity of polynomials. -/
def certified (n : ℕ) (q : ℤ) (a b c k l : List ℤ) : Bool :=
  let B : ℤ := 2 ^ 64
  decide (value B a * value B b + value B c = q * value B k + (B ^ n + 1) * value B l) &&
    small (2 ^ 16) b && small (2 ^ 16) c && small (2 ^ 32) k && small (2 ^ 48) l && decide (sumAbs a ≤ 2 ^ 32) &&
    decide (q.natAbs ≤ 2 ^ 16)

theorem certified_eq {n : ℕ} {q : ℤ} {a b c k l : List ℤ} (h : certified n q a b c k l = true) :
    poly a * poly b + poly c = C q * poly k + (X ^ n + 1) * poly l := by
  simp only [certified, Bool.and_eq_true, decide_eq_true_eq] at h
  obtain ⟨⟨⟨⟨⟨⟨he, hb⟩, hc⟩, hk⟩, hl⟩, ha⟩, hq⟩ := h
  have hz : poly a * poly b + poly c - C q * poly k - (X ^ n + 1) * poly l = 0 := by
    refine eq_zero_of_eval (2 ^ 64) (2 ^ 48 + 2 ^ 16 + 2 ^ 48 + 2 ^ 49) (by norm_num) _ _ (Nat.lt_succ_self _) (fun i => ?_) ?_
    · have h1 := coeff_mul _ a (poly b) (coeff_poly _ _ hb) i
      have h2 := coeff_poly _ _ hc i
      have h3 : |(C q * poly k).coeff i| ≤ 2 ^ 48 := by
        rw [coeff_C_mul, abs_mul, Int.abs_eq_natAbs q]
        have := coeff_poly _ _ hk i
        have hq' : ((q.natAbs : ℕ) : ℤ) ≤ 2 ^ 16 := by exact_mod_cast hq
        calc (q.natAbs : ℤ) * |(poly k).coeff i| ≤ 2 ^ 16 * 2 ^ 32 := by
              refine mul_le_mul hq' (by exact_mod_cast this) (abs_nonneg _) (by norm_num)
          _ = _ := by norm_num
      have h4 : |((X ^ n + 1) * poly l).coeff i| ≤ 2 ^ 49 := by
        rw [add_mul, one_mul, coeff_add, coeff_X_pow_mul']
        have hl' := coeff_poly _ _ hl
        have e1 : |if n ≤ i then (poly l).coeff (i - n) else 0| ≤ 2 ^ 48 := by
          split
          · exact_mod_cast hl' _
          · norm_num
        have e2 : |(poly l).coeff i| ≤ 2 ^ 48 := by exact_mod_cast hl' i
        calc _ ≤ _ := abs_add_le _ _
          _ ≤ 2 ^ 48 + 2 ^ 48 := add_le_add e1 e2
          _ = _ := by norm_num
      have h1' : |(poly a * poly b).coeff i| ≤ 2 ^ 48 := by
        refine le_trans h1 ?_
        have : ((sumAbs a : ℕ) : ℤ) ≤ 2 ^ 32 := by exact_mod_cast ha
        push_cast
        linarith
      have h2' : |(poly c).coeff i| ≤ 2 ^ 16 := by exact_mod_cast h2
      rw [coeff_sub, coeff_sub, coeff_add]
      rw [abs_le] at h1' h2' h3 h4 ⊢
      constructor <;> linarith [h1'.1, h1'.2, h2'.1, h2'.2, h3.1, h3.2, h4.1, h4.2]
    · simp only [eval_sub, eval_add, eval_mul, eval_C, eval_pow, eval_X, eval_one, eval_poly]
      linarith
  linear_combination hz

theorem map_poly {R S : Type*} [CommRing R] [CommRing S] (φ : R →+* S) (l : List R) : (poly l).map φ = poly (l.map φ) := by
  induction l with
  | nil => simp [poly]
  | cons a r ih => simp [poly, ih]

/-- The certificate for the equation of a signature. -/
theorem sigEq_of_certified {n : ℕ} {c h : List Int16} {s1 s0 k l : List ℤ}
    (e : certified n 12289 s1 (h.map Int16.toInt) (List.zipWith (· - ·) s0 (c.map Int16.toInt)) k l = true)
    (hl : s0.length = c.length) : SigEq n c h s1 s0 := by
  have h1 := congrArg (Polynomial.map (Int.castRingHom Zq)) (certified_eq e)
  have hsub : ∀ (u v : List ℤ), u.length = v.length → poly (List.zipWith (· - ·) u v) = poly u - poly v := by
    intro u
    induction u with
    | nil => intro v hv; cases v <;> simp_all [poly]
    | cons x u ih =>
      intro v hv
      cases v with
      | nil => simp at hv
      | cons y v =>
        simp only [List.zipWith_cons_cons, poly, ih v (by simpa using hv), map_sub]
        ring
  rw [hsub _ _ (by simpa using hl)] at h1
  simp only [Polynomial.map_add, Polynomial.map_mul, Polynomial.map_sub, Polynomial.map_pow, Polynomial.map_one, map_X, map_C,
    map_poly] at h1
  have hq : (Int.castRingHom Zq) 12289 = 0 := by decide
  rw [hq, C_0, zero_mul, zero_add] at h1
  refine ⟨poly (l.map (Int.castRingHom Zq)), ?_⟩
  rw [← h1]
  have eh : polyQ h = poly ((h.map Int16.toInt).map (Int.castRingHom Zq)) := by
    rw [polyQ, List.map_map]; rfl
  have ec : polyQ c = poly ((c.map Int16.toInt).map (Int.castRingHom Zq)) := by
    rw [polyQ, List.map_map]; rfl
  rw [eh, ec]
  have e1 : polyI s1 = poly (s1.map (Int.castRingHom Zq)) := rfl
  have e0 : polyI s0 = poly (s0.map (Int.castRingHom Zq)) := rfl
  rw [e1, e0]
  ring

end Falcon.Kronecker
