import Mathlib.Algebra.BigOperators.Fin
import Mathlib.Algebra.BigOperators.Ring.Finset
import Mathlib.Algebra.Order.BigOperators.Ring.Finset
import Mathlib.Algebra.Order.Chebyshev
import Mathlib.Tactic.Ring
import Mathlib.Tactic.Linarith
import Mathlib.Tactic.FieldSimp
import Mathlib.Tactic.Positivity
/-!
# Counting vectors whose sum lies in an interval

A lower bound for the number of vectors `p` with `Σ X (p i)` close to `C`, by a change of weights: the second moment of the
sum with weights `∏ l (p i)` and the Cauchy-Schwarz inequality.
-/

namespace Falcon

theorem sum_cons {α : Type} [Fintype α] {n : Nat} (F : (Fin (n + 1) → α) → ℚ) :
    ∑ p, F p = ∑ a, ∑ p : Fin n → α, F (Fin.cons a p) := by
  rw [← Fintype.sum_prod_type']
  exact (Fintype.sum_equiv (Fin.consEquiv fun _ => α) _ _ fun _ => rfl).symm

/-- The second moment of a sum of independent terms about any point. -/
theorem second_moment {α : Type} [Fintype α] (l X : α → ℚ) (w M V : ℚ) (h0 : ∑ a, l a = w) (h1 : ∑ a, l a * X a = w * M)
    (h2 : ∑ a, l a * X a ^ 2 = w * (V + M ^ 2)) (n : Nat) (C : ℚ) :
    ∑ p : Fin n → α, (∏ i, l (p i)) * ((∑ i, X (p i)) - C) ^ 2 = w ^ n * (n * V + (n * M - C) ^ 2) := by
  induction n generalizing C with
  | zero => simp
  | succ n ih =>
    rw [sum_cons]
    have e : ∀ a : α, ∑ p : Fin n → α, (∏ i : Fin (n + 1), l ((Fin.cons a p : Fin (n + 1) → α) i)) *
        ((∑ i : Fin (n + 1), X ((Fin.cons a p : Fin (n + 1) → α) i)) - C) ^ 2 =
        w ^ n * ((n * V + (n * M - C) ^ 2) * l a + 2 * (n * M - C) * (l a * X a) + l a * X a ^ 2) := by
      intro a
      have : ∀ p : Fin n → α, (∏ i : Fin (n + 1), l ((Fin.cons a p : Fin (n + 1) → α) i)) *
          ((∑ i : Fin (n + 1), X ((Fin.cons a p : Fin (n + 1) → α) i)) - C) ^ 2 =
          l a * ((∏ i, l (p i)) * ((∑ i, X (p i)) - (C - X a)) ^ 2) := by
        intro p
        rw [Fin.prod_univ_succ, Fin.sum_univ_succ]
        simp only [Fin.cons_zero, Fin.cons_succ]
        ring
      rw [Finset.sum_congr rfl fun p _ => this p, ← Finset.mul_sum, ih]
      ring
    rw [Finset.sum_congr rfl fun a _ => e a, ← Finset.mul_sum, Finset.sum_add_distrib, Finset.sum_add_distrib,
      ← Finset.mul_sum, ← Finset.mul_sum, h0, h1, h2]
    push_cast
    ring

/-- At least `κ^2 (w^2 / Σ l^2)^n` vectors have a sum at distance less than `r` from `C`. -/
theorem count_near {α : Type} [Fintype α] (l X : α → ℚ) (hl : ∀ a, 0 ≤ l a) (w M V : ℚ) (h0 : ∑ a, l a = w)
    (h1 : ∑ a, l a * X a = w * M) (h2 : ∑ a, l a * X a ^ 2 = w * (V + M ^ 2)) (n : Nat) (C r κ : ℚ) (hr : 0 < r) (hκ : 0 ≤ κ)
    (hw : 0 ≤ w) (h : n * V + (n * M - C) ^ 2 ≤ (1 - κ) * r ^ 2) (G : Finset (Fin n → α))
    (hG : ∀ p : Fin n → α, p ∉ G → r ≤ |(∑ i, X (p i)) - C|) :
    κ ^ 2 * (w ^ 2) ^ n ≤ G.card * (∑ a, l a ^ 2) ^ n := by
  classical
  have t0 : ∑ p : Fin n → α, ∏ i, l (p i) = w ^ n := by rw [← Fintype.sum_pow, h0]
  have t2 : ∑ p : Fin n → α, (∏ i, l (p i)) ^ 2 = (∑ a, l a ^ 2) ^ n := by
    rw [Fintype.sum_pow]
    exact Finset.sum_congr rfl fun p _ => (Finset.prod_pow _ _ _).symm
  have hp : ∀ p : Fin n → α, 0 ≤ ∏ i, l (p i) := fun p => Finset.prod_nonneg fun i _ => hl _
  have hwn : 0 ≤ w ^ n := pow_nonneg hw n
  have bad : (∑ p ∈ Gᶜ, ∏ i, l (p i)) * r ^ 2 ≤ w ^ n * ((1 - κ) * r ^ 2) := by
    calc (∑ p ∈ Gᶜ, ∏ i, l (p i)) * r ^ 2 = ∑ p ∈ Gᶜ, (∏ i, l (p i)) * r ^ 2 := Finset.sum_mul _ _ _
      _ ≤ ∑ p ∈ Gᶜ, (∏ i, l (p i)) * ((∑ i, X (p i)) - C) ^ 2 := by
          apply Finset.sum_le_sum
          intro p hpG
          apply mul_le_mul_of_nonneg_left _ (hp p)
          rw [← sq_abs ((∑ i, X (p i)) - C)]
          exact pow_le_pow_left₀ hr.le (hG p (Finset.mem_compl.1 hpG)) 2
      _ ≤ ∑ p : Fin n → α, (∏ i, l (p i)) * ((∑ i, X (p i)) - C) ^ 2 :=
          Finset.sum_le_univ_sum_of_nonneg fun p => mul_nonneg (hp p) (sq_nonneg _)
      _ = w ^ n * (n * V + (n * M - C) ^ 2) := second_moment l X w M V h0 h1 h2 n C
      _ ≤ _ := mul_le_mul_of_nonneg_left h hwn
  have bad' : (∑ p ∈ Gᶜ, ∏ i, l (p i)) ≤ w ^ n * (1 - κ) := by
    have : 0 < r ^ 2 := by positivity
    rw [← mul_assoc] at bad
    exact le_of_mul_le_mul_right bad this
  have good : κ * w ^ n ≤ ∑ p ∈ G, ∏ i, l (p i) := by
    have := Finset.sum_add_sum_compl G fun p : Fin n → α => ∏ i, l (p i)
    rw [t0] at this
    linarith
  calc κ ^ 2 * (w ^ 2) ^ n = (κ * w ^ n) ^ 2 := by ring
    _ ≤ (∑ p ∈ G, ∏ i, l (p i)) ^ 2 := pow_le_pow_left₀ (mul_nonneg hκ hwn) good 2
    _ ≤ G.card * ∑ p ∈ G, (∏ i, l (p i)) ^ 2 := sq_sum_le_card_mul_sum_sq
    _ ≤ G.card * ∑ p : Fin n → α, (∏ i, l (p i)) ^ 2 := by
        apply mul_le_mul_of_nonneg_left _ (Nat.cast_nonneg _)
        exact Finset.sum_le_univ_sum_of_nonneg fun p => sq_nonneg _
    _ = _ := by rw [t2]

end Falcon
