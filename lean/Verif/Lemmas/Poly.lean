import Verif.Spec.Poly
import Mathlib.Algebra.Polynomial.Roots
import Mathlib.Algebra.Polynomial.Div
import Mathlib.LinearAlgebra.Lagrange
import Mathlib.Tactic.Ring
import Mathlib.Tactic.LinearCombination
import Verif.Model.Ntt
/-! Facts about coefficient lists as polynomials. -/

namespace Falcon
open Spec Polynomial

section
variable {R : Type*} [CommRing R]

@[simp] theorem poly_nil : poly ([] : List R) = 0 := rfl
@[simp] theorem poly_cons (a : R) (f : List R) : poly (a :: f) = C a + X * poly f := rfl

theorem poly_coeff (f : List R) (i : Nat) : (poly f).coeff i = f.getD i 0 := by
  induction f generalizing i with
  | nil => simp
  | cons a f ih =>
    cases i with
    | zero => simp
    | succ i => simp [coeff_X_mul, ih]

theorem poly_degree_lt (f : List R) : (poly f).degree < f.length := by
  rw [degree_lt_iff_coeff_zero]
  intro m hm
  rw [poly_coeff]
  simp [List.getD_eq_getElem?_getD, hm]

theorem poly_injective {f g : List R} (hl : f.length = g.length) (h : poly f = poly g) : f = g := by
  apply List.ext_getElem hl
  intro i h1 h2
  have := congrArg (fun p => p.coeff i) h
  simp only [poly_coeff] at this
  simpa [h1, h2] using this

theorem poly_append (f g : List R) : poly (f ++ g) = poly f + X ^ f.length * poly g := by
  induction f with
  | nil => simp
  | cons a f ih => simp [ih, pow_succ]; ring

/-- The polynomial of a list given by its coefficients. -/
theorem exists_list (n : Nat) (p : R[X]) (hp : p.degree < n) : ∃ f : List R, f.length = n ∧ poly f = p := by
  refine ⟨(List.range n).map p.coeff, by simp, ?_⟩
  ext i
  rw [poly_coeff]
  by_cases hi : i < n
  · simp [hi]
  · have : p.coeff i = 0 := coeff_eq_zero_of_degree_lt (lt_of_lt_of_le hp (by exact_mod_cast not_lt.1 hi))
    simp [hi, this]

theorem splitPolys_map {α β : Type*} (g : α → β) (f : List α) :
    splitPolys (f.map g) = ((splitPolys f).1.map g, (splitPolys f).2.map g) := by
  induction f using List.twoStepInduction with
  | nil => rfl
  | singleton a => rfl
  | cons_cons a b rest ih _ => simp [splitPolys, ih]

theorem poly_eval_split (f : List R) (h : 2 ∣ f.length) (x : R) :
    (poly f).eval x = (poly (splitPolys f).1).eval (x ^ 2) + x * (poly (splitPolys f).2).eval (x ^ 2) := by
  induction f using List.twoStepInduction with
  | nil => simp [splitPolys]
  | singleton a => simp at h
  | cons_cons a b rest ih _ =>
    have := ih (by simp at h; omega)
    simp [splitPolys, this]
    ring

theorem mergePolys_ok {α : Type*} {f0 f1 : List α} (h : f0.length = f1.length) :
    ∃ f, mergePolys f0 f1 = .ok f ∧ f.length = 2 * f0.length ∧ splitPolys f = (f0, f1) ∧
      ∀ x, x ∈ f ↔ x ∈ f0 ∨ x ∈ f1 := by
  induction f0 generalizing f1 with
  | nil =>
    cases f1 with
    | nil => exact ⟨[], rfl, rfl, rfl, by simp⟩
    | cons b f1 => simp at h
  | cons a f0 ih =>
    cases f1 with
    | nil => simp at h
    | cons b f1 =>
      obtain ⟨f, h1, h2, h3, h4⟩ := ih (f1 := f1) (by simpa using h)
      refine ⟨a :: b :: f, by simp [mergePolys, h1], by simp [h2]; omega, by simp [splitPolys, h3], ?_⟩
      intro x
      simp [h4]
      tauto
end

/-- Polynomials of degree below `n` that agree on `n` distinct points are equal. -/
theorem eq_of_eval_eq {K : Type*} [Field K] {n : Nat} {p q : K[X]} (hp : p.degree < n) (hq : q.degree < n)
    (l : List K) (hl : l.length = n) (hd : l.Nodup) (h : ∀ x ∈ l, p.eval x = q.eval x) : p = q := by
  classical
  apply eq_of_degrees_lt_of_eval_finset_eq l.toFinset
  · rw [List.toFinset_card_of_nodup hd, hl]; exact hp
  · rw [List.toFinset_card_of_nodup hd, hl]; exact hq
  · intro x hx; exact h x (by simpa using hx)

/-- Divisibility by `X^n+1` can be tested at `n` distinct roots of it. -/
theorem dvd_iff_eval {K : Type*} [Field K] {n : Nat} (hn : 0 < n) (l : List K) (hl : l.length = n) (hd : l.Nodup)
    (hr : ∀ x ∈ l, x ^ n = -1) (p : K[X]) : (X ^ n + 1 : K[X]) ∣ p ↔ ∀ x ∈ l, p.eval x = 0 := by
  have hm : (X ^ n + 1 : K[X]).Monic := by
    simpa using monic_X_pow_add_C (1 : K) (by omega : n ≠ 0)
  constructor
  · rintro ⟨r, rfl⟩ x hx
    simp [hr x hx]
  · intro h
    rw [← modByMonic_eq_zero_iff_dvd hm]
    apply eq_of_eval_eq (n := n) _ _ l hl hd
    · intro x hx
      have h1 := congrArg (eval x) (modByMonic_add_div p (X ^ n + 1 : K[X]))
      simp [hr x hx, h x hx] at h1
      simpa using h1
    · have := degree_modByMonic_lt p hm
      have hdeg : (X ^ n + 1 : K[X]).degree = n := by
        simpa using degree_X_pow_add_C (by omega : 0 < n) (1 : K)
      rwa [hdeg] at this
    · simp only [degree_zero]
      exact WithBot.bot_lt_coe _

end Falcon
