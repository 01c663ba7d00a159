import Verif.Props.HaltExact
/-!
# Quotients with an odd denominator

If the coefficients of `f` and `g` add up to an odd number, then `f f* + g g*` divides an odd number in Z[x]/(x^n+1), and no coefficient of a quotient
by it is halfway between two integers.
-/

namespace Falcon
open Spec Polynomial

/-- Every polynomial is `E(x^2) + x O(x^2)`. -/
theorem even_odd (A : ℤ[X]) : ∃ E O : ℤ[X], A = E.comp (X ^ 2) + X * O.comp (X ^ 2) := by
  induction A using Polynomial.induction_on' with
  | add p q hp hq =>
    obtain ⟨E, O, h⟩ := hp
    obtain ⟨E', O', h'⟩ := hq
    refine ⟨E + E', O + O', ?_⟩
    rw [h, h', add_comp, add_comp]
    ring
  | monomial n a =>
    rcases Nat.even_or_odd' n with ⟨m, rfl | rfl⟩
    · refine ⟨C a * X ^ m, 0, ?_⟩
      rw [← C_mul_X_pow_eq_monomial]
      simp [pow_mul]
    · refine ⟨0, C a * X ^ m, ?_⟩
      rw [← C_mul_X_pow_eq_monomial]
      simp [pow_mul, pow_succ]
      ring

/-- The product of a polynomial with the conjugate is a polynomial in `x^2`. -/
theorem conj_square (A : ℤ[X]) : ∃ B : ℤ[X], A * A.comp (-X) = B.comp (X ^ 2) ∧ B.eval 1 = A.eval 1 * A.eval (-1) := by
  obtain ⟨E, O, h⟩ := even_odd A
  have e : A * A.comp (-X) = (E ^ 2 - X * O ^ 2).comp (X ^ 2) := by
    rw [h]
    simp only [add_comp, mul_comp, comp_assoc, X_comp, sub_comp, pow_comp, even_two.neg_pow]
    ring
  refine ⟨_, e, ?_⟩
  have := congrArg (eval 1) e
  simp only [eval_mul, eval_comp, eval_pow, eval_X, eval_neg, one_pow] at this
  rw [← this]

theorem eval_parity (A : ℤ[X]) : A.eval (-1) % 2 = A.eval 1 % 2 := by
  have h := A.sub_dvd_eval_sub 1 (-1)
  norm_num at h
  omega

/-- A polynomial with an odd value at 1 divides an odd number modulo `x^n+1`. -/
theorem odd_norm (k : Nat) (A : ℤ[X]) (h : A.eval 1 % 2 = 1) :
    ∃ (B : ℤ[X]) (N : ℤ), N % 2 = 1 ∧ (X ^ 2 ^ k + 1 : ℤ[X]) ∣ A * B - C N := by
  induction k generalizing A with
  | zero =>
    refine ⟨1, A.eval (-1), by rw [eval_parity, h], ?_⟩
    have : (X ^ 2 ^ 0 + 1 : ℤ[X]) = X - C (-1) := by simp
    rw [this, mul_one]
    exact X_sub_C_dvd_sub_C_eval
  | succ k ih =>
    obtain ⟨A', e, h'⟩ := conj_square A
    have p := eval_parity A
    obtain ⟨B, N, hN, c, hc⟩ := ih A' (by rw [h', Int.mul_emod, p, h]; rfl)
    refine ⟨A.comp (-X) * B.comp (X ^ 2), N, hN, c.comp (X ^ 2), ?_⟩
    have := congrArg (fun p : ℤ[X] => p.comp (X ^ 2)) hc
    simp only [sub_comp, mul_comp, C_comp, add_comp, pow_comp, X_comp, one_comp, ← pow_mul] at this
    rw [← mul_assoc, e, pow_succ' 2 k]
    exact this

/-- `adjList` on integers. -/
def adjZ : List Int → List Int
  | [] => []
  | a :: t => a :: (t.reverse.map fun x => -x)

theorem realI_adj (f : List Int) : adjList (realI f) = realI (adjZ f) := by
  rcases f with _ | ⟨a, t⟩
  · rfl
  · simp [realI, adjList, adjZ, List.map_reverse]

theorem eval_one (f : List Int) : (polyZ f).eval 1 = f.sum := by
  unfold polyZ
  induction f with
  | nil => simp
  | cons a t ih => simp [ih]

theorem adj_parity (f : List Int) : (adjZ f).sum % 2 = f.sum % 2 := by
  rcases f with _ | ⟨a, t⟩
  · rfl
  · have : ∀ t : List Int, (t.map fun x => -x).sum = -t.sum := by
      intro t
      induction t with
      | nil => rfl
      | cons b t ih => simp [ih]; ring
    simp only [adjZ, List.sum_cons, this, List.sum_reverse]
    omega

/-- The integer polynomial `f f* + g g*`. -/
noncomputable def gramZ (f g : List Int) : ℤ[X] := polyZ f * polyZ (adjZ f) + polyZ g * polyZ (adjZ g)

theorem gramZ_map (f g : List Int) : (gramZ f g).map (Int.castRingHom ℝ) = gramPoly (realI f) (realI g) := by
  unfold gramZ gramPoly polyZ
  rw [realI_adj, realI_adj, poly_realI, poly_realI, poly_realI, poly_realI]
  simp

theorem gramZ_parity (f g : List Int) (h : (f.sum + g.sum) % 2 = 1) : (gramZ f g).eval 1 % 2 = 1 := by
  unfold gramZ
  have a := adj_parity f
  have b := adj_parity g
  rw [eval_add, eval_mul, eval_mul, eval_one, eval_one, eval_one, eval_one, Int.add_emod, Int.mul_emod, Int.mul_emod g.sum, a, b]
  rcases Int.emod_two_eq_zero_or_one f.sum with h1 | h1 <;> rcases Int.emod_two_eq_zero_or_one g.sum with h2 | h2 <;> rw [h1, h2] <;> omega

theorem exists_modZ (k : Nat) (p : ℤ[X]) : ∃ h : List Int, h.length = 2 ^ k ∧ CongrZ (2 ^ k) p (polyZ h) := by
  have hm : (X ^ 2 ^ k + 1 : ℤ[X]).Monic := by
    simpa using monic_X_pow_add_C (1 : ℤ) (by positivity : 2 ^ k ≠ 0)
  have hdeg : (p %ₘ (X ^ 2 ^ k + 1)).degree < (2 ^ k : Nat) := by
    have := degree_modByMonic_lt p hm
    have e : (X ^ 2 ^ k + 1 : ℤ[X]).degree = (2 ^ k : Nat) := by
      have := degree_X_pow_add_C (by positivity : 0 < 2 ^ k) (1 : ℤ)
      simpa using this
    rwa [e] at this
  obtain ⟨h, hl, hp⟩ := exists_list (2 ^ k) _ hdeg
  refine ⟨h, hl, p /ₘ (X ^ 2 ^ k + 1), ?_⟩
  unfold polyZ
  rw [hp]
  have := modByMonic_add_div p (X ^ 2 ^ k + 1)
  linear_combination -this

/-- No coefficient of a quotient by `f f* + g g*` is halfway between two integers, if the coefficients of `f` and `g` add up to an odd number. -/
theorem parity_no_tie (k : Nat) (f g F G : List Int) (h : (f.sum + g.sum) % 2 = 1) (κ : List ℝ)
    (hκ : IsQuot k (realI f) (realI g) (realI F) (realI G) κ) : ¬ ∃ x ∈ κ, IsTie x := by
  rintro ⟨x, hx, m, hm⟩
  obtain ⟨B, N, hN, c, hc⟩ := odd_norm k (gramZ f g) (gramZ_parity f g h)
  obtain ⟨lκ, d, hd⟩ := hκ
  obtain ⟨r, lr, e, he⟩ := exists_modZ k ((polyZ F * polyZ (adjZ f) + polyZ G * polyZ (adjZ g)) * B)
  have hcR := congrArg (Polynomial.map (Int.castRingHom ℝ)) hc
  have heR := congrArg (Polynomial.map (Int.castRingHom ℝ)) he
  unfold polyZ at heR
  simp only [Polynomial.map_sub, Polynomial.map_mul, Polynomial.map_add, Polynomial.map_pow, Polynomial.map_X, Polynomial.map_one, Polynomial.map_C,
    gramZ_map, Int.coe_castRingHom, ← poly_realI, ← realI_adj] at hcR heR
  have hs : poly (κ.map fun y : ℝ => (N : ℝ) * y) = C (N : ℝ) * poly κ := poly_smul _ _
  have key : κ.map (fun y : ℝ => (N : ℝ) * y) = realI r := by
    apply C50_unique k _ _ (by simp [lκ]) (by rw [realI_length, lr])
    rw [hs]
    refine ⟨-(poly κ * c.map (Int.castRingHom ℝ)) + d * B.map (Int.castRingHom ℝ) + e.map (Int.castRingHom ℝ), ?_⟩
    linear_combination -poly κ * hcR + B.map (Int.castRingHom ℝ) * hd + heR
  have hmem : (N : ℝ) * x ∈ realI r := by
    rw [← key]
    exact List.mem_map_of_mem hx
  obtain ⟨y, -, hy⟩ := List.mem_map.1 hmem
  have e2 : 2 * y = N * (2 * m + 1) := by
    have : (2 * y : ℝ) = N * (2 * m + 1) := by
      rw [hm] at hy
      linear_combination 2 * hy
    exact_mod_cast this
  have := congrArg (· % 2) e2
  simp only [Int.mul_emod_right] at this
  rw [Int.mul_emod, hN] at this
  omega

end Falcon
