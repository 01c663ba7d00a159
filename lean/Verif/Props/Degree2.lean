import Verif.Props.HaltIeee
import Verif.Props.HaltExact
import Verif.Props.Effort
import Verif.Props.Halt
import Verif.Props.GsAccept
import Verif.Props.Ntrugen
import Verif.Props.Determ
import Verif.Lemmas.VariantKey
/-!
# Degree 2

At degree 2 the quotient that `reduce` rounds inside `NtruSolve` is never halfway between two integers, so `NtruSolve` returns on every
candidate that passes the quality check and key generation goes on until a candidate is accepted.
-/

namespace Falcon
open Spec Polynomial F64

/-- `u nf + v ng = 1`: no odd multiple of half of `nf + ng` is a multiple `q (u - v) e` with `e^2 <= nf ng`. -/
theorem no_tie (nf ng u v e : Int) (hN : 1 ≤ nf + ng) (hu : ¬ (nf = 1 ∧ ng = 1)) (hle : nf + ng ≤ 16822) (hb : u * nf + v * ng = 1)
    (he : e * e ≤ nf * ng) : 2 * (12289 * (u - v) * e) % (2 * (nf + ng)) ≠ nf + ng := by
  intro h
  set N := nf + ng with hNd
  obtain ⟨k, hk⟩ : ∃ k, 2 * (12289 * (u - v) * e) = N * (2 * k + 1) := by
    refine ⟨2 * (12289 * (u - v) * e) / (2 * N), ?_⟩
    have := Int.emod_add_mul_ediv (2 * (12289 * (u - v) * e)) (2 * N)
    rw [h] at this
    linarith
  obtain ⟨m, hm⟩ : ∃ m, N = 2 * m := by
    rcases Int.even_or_odd' N with ⟨m, hm | hm⟩
    · exact ⟨m, hm⟩
    · exfalso
      have : 2 * (12289 * (u - v) * e) = 2 * (2 * m * k + m + k) + 1 := by rw [hk, hm]; ring
      omega
  have hm4 : 1 ≤ m := by omega
  have hml : m ≤ 8411 := by omega
  have h2 : 12289 * (u - v) * e = m * (2 * k + 1) := by
    have : 2 * (12289 * (u - v) * e) = 2 * (m * (2 * k + 1)) := by rw [hk, hm]; ring
    omega
  -- `u - v` is invertible modulo `N`
  have c1 : IsCoprime m (u - v) := by
    refine ⟨2 * v, nf, ?_⟩
    have : ng = 2 * m - nf := by omega
    rw [this] at hb
    linear_combination hb
  have c2 : IsCoprime m 12289 := by
    have hp : Nat.Prime 12289 := by norm_num
    rw [Int.isCoprime_iff_gcd_eq_one, Int.gcd_comm]
    rw [Int.gcd_eq_natAbs]
    refine (Nat.Prime.coprime_iff_not_dvd hp).2 fun hd => ?_
    have := Nat.le_of_dvd (by omega) hd
    omega
  have hd : m ∣ e := by
    have h3 : m ∣ 12289 * ((u - v) * e) := ⟨2 * k + 1, by rw [← h2]; ring⟩
    exact c1.dvd_of_dvd_mul_left (c2.dvd_of_dvd_mul_left h3)
  obtain ⟨t, ht⟩ := hd
  -- `|e| <= m`
  by_cases ht0 : t = 0
  · rw [ht0, mul_zero] at ht
    rw [ht, mul_zero] at h2
    have : m * (2 * k + 1) ≠ 0 := mul_ne_zero (by omega) (by omega)
    omega
  · have ht1 : 1 ≤ t * t := by
      rcases lt_or_gt_of_ne ht0 with h | h <;> nlinarith
    have e1 : m * m ≤ e * e := by rw [ht]; nlinarith [mul_self_nonneg m]
    have e2 : nf * ng ≤ m * m - (nf - m) * (nf - m) := by
      have : ng = 2 * m - nf := by omega
      rw [this]
      nlinarith
    have e3 : nf = m := by nlinarith [mul_self_nonneg (nf - m)]
    have e4 : ng = m := by omega
    rw [e3, e4] at hb
    have : m ∣ 1 := ⟨u + v, by linarith⟩
    have := Int.le_of_dvd (by norm_num) this
    exact hu ⟨by omega, by omega⟩

theorem bigInt64_small (x : Int) (h : 0 ≤ x) (h2 : x ≤ 2 ^ 62) : bigInt64 x = x := by
  unfold bigInt64
  simp only
  rw [if_neg (by omega), i64_eq (s := (x.natAbs : Int)) (by omega) (by omega)]
  omega

theorem kara_one (x y : Int) : Karatsuba [x] [y] 1 = .ok [x * y, 0] := by
  rw [Karatsuba]
  simp [idx]

theorem fieldNorm_two (a b : Int) : fieldNorm [a, b] = .ok [a * a + b * b] := by
  have h : ∀ x : Int, karamul [x] [x] = .ok [x * x] := by
    intro x
    unfold karamul
    simp [kara_one, foldLoop, idx]
  simp [fieldNorm, splitPolys, h, normLoop, idx, addAt]

theorem karamul_two (x c d : Int) : karamul (lift [x]) (galoisConjugate [c, d]) = .ok [x * c, -(x * d)] := by
  unfold karamul
  simp [lift, galoisConjugate, Karatsuba, foldLoop, slice, idx, addHalves, karaCorrect, karaCombine, addAt]
  ring

theorem xgcdLoop_small (A M : Int) (b n x0 x1 y0 y1 : Int) (hb : 0 < b) (hn : 0 ≤ n) (hx : |x1| * b + |x0| * n ≤ M) (hy : |y1| * b + |y0| * n ≤ A)
    (sx : x0 * x1 ≤ 0) (sy : y0 * y1 ≤ 0) (mx : |x0| ≤ M) (my : |y0| ≤ A) :
    |(xgcdLoop b n x0 x1 y0 y1).2.1| ≤ M ∧ |(xgcdLoop b n x0 x1 y0 y1).2.2| ≤ A := by
  fun_induction xgcdLoop with
  | case1 b x0 x1 y0 y1 => exact ⟨mx, my⟩
  | case2 b n x0 x1 y0 y1 h q ih =>
    have hn0 : 0 < n := by omega
    have q0 : 0 ≤ q := Int.ediv_nonneg hb.le hn
    have hm : b % n = b - n * q := by have := Int.emod_add_mul_ediv b n; simp only [q]; omega
    have abs2 : ∀ x y : Int, x * y ≤ 0 → |x - q * y| = |x| + q * |y| := by
      intro x y hxy
      rcases le_total 0 x with h1 | h1 <;> rcases le_total 0 y with h2 | h2
      · rcases eq_or_lt_of_le h1 with rfl | h1
        · rw [zero_sub, abs_neg, abs_mul, abs_of_nonneg q0]; simp
        · have : y = 0 := by nlinarith
          subst this; simp
      · rw [abs_of_nonneg h1, abs_of_nonpos h2, abs_of_nonneg (by nlinarith)]; ring
      · rw [abs_of_nonpos h1, abs_of_nonneg h2, abs_of_nonpos (by nlinarith)]; ring
      · rcases eq_or_lt_of_le h2 with rfl | h2
        · simp
        · have : x = 0 := by nlinarith
          subst this
          rw [zero_sub, abs_neg, abs_mul, abs_of_nonneg q0]; simp
    have sgn : ∀ x y : Int, x * y ≤ 0 → y * (x - q * y) ≤ 0 := by
      intro x y hxy
      nlinarith [mul_nonneg q0 (mul_self_nonneg y)]
    have le1 : ∀ x y K : Int, |y| * b + |x| * n ≤ K → |y| ≤ K := by
      intro x y K hK
      nlinarith [abs_nonneg x, abs_nonneg y, mul_nonneg (abs_nonneg x) hn, mul_nonneg (abs_nonneg y) (by omega : 0 ≤ b - 1)]
    refine ih hn0 (by rw [hm]; have := Int.emod_nonneg b h; omega) ?_ ?_ (sgn _ _ sx) (sgn _ _ sy) (le1 _ _ _ hx) (le1 _ _ _ hy)
    · rw [abs2 _ _ sx, hm]
      linarith
    · rw [abs2 _ _ sy, hm]
      linarith

/-- C37: the coefficients found by `xgcd` are small: for `b > 0` and `n >= 0` they are at most `max n 1` and `b`. -/
theorem C37_small (b n : Int) (hb : 0 < b) (hn : 0 ≤ n) : |(xgcd b n).2.1| ≤ max n 1 ∧ |(xgcd b n).2.2| ≤ b := by
  unfold xgcd
  exact xgcdLoop_small b (max n 1) b n 1 0 0 1 hb hn (by simp) (by simp) (by simp) (by simp) (by simp) (by simpa using hb.le)

example : xgcd 12 7 = (1, 3, -5) := by simp [xgcd, xgcdLoop]

/-- The steps of `NtruSolve` at degree 2, in any arithmetic. -/
theorem solve_two_small (a b c d : Int) (hle : a * a + b * b + (c * c + d * d) ≤ 2 ^ 62) (hpos : a * a + b * b ≠ 0) :
    (Int.gcd (a * a + b * b) (c * c + d * d) ≠ 1 ∧ ∀ O fuel, NtruSolve O (fuel + 2) [a, b] [c, d] = .ok none) ∨
    ∃ u v : Int, (|u| ≤ max (c * c + d * d) 1 ∧ |v| ≤ a * a + b * b) ∧ u * (a * a + b * b) + v * (c * c + d * d) = 1 ∧ ∀ O fuel, NtruSolve O (fuel + 2) [a, b] [c, d] = (do
      let r ← reduce O (fuel + 2) [a, b] [c, d] [-12289 * v * c, -(-12289 * v * d)] [12289 * u * a, -(12289 * u * b)]
      pure (some r)) := by
  obtain ⟨x1, x2, x3⟩ := C37_xgcd (a * a + b * b) (c * c + d * d)
  have n1 : 0 ≤ a * a + b * b := add_nonneg (mul_self_nonneg _) (mul_self_nonneg _)
  have n2 : 0 ≤ c * c + d * d := add_nonneg (mul_self_nonneg _) (mul_self_nonneg _)
  have n3 := x3 n1 n2
  have hb : (xgcd (a * a + b * b) (c * c + d * d)).1 ≤ 2 ^ 62 := by
    have h1 : (Int.gcd (a * a + b * b) (c * c + d * d) : Int) ≤ a * a + b * b := Int.le_of_dvd (by omega) (Int.gcd_dvd_left ..)
    omega
  have hs := bigInt64_small _ n3 hb
  have step : ∀ O fuel, NtruSolve O (fuel + 1) [a * a + b * b] [c * c + d * d] =
      if Int.gcd (a * a + b * b) (c * c + d * d) ≠ 1 then .ok none
      else .ok (some ([-12289 * (xgcd (a * a + b * b) (c * c + d * d)).2.2], [12289 * (xgcd (a * a + b * b) (c * c + d * d)).2.1])) := by
    intro O fuel
    rw [NtruSolve, if_pos (by simp)]
    simp only [idx, List.getElem?_cons_zero, Go.ok_bind]
    rw [hs]
    by_cases hg : Int.gcd (a * a + b * b) (c * c + d * d) = 1
    · rw [if_neg (by omega), if_neg (by omega)]
      rfl
    · rw [if_pos (by omega), if_pos hg]
      rfl
  by_cases hg : Int.gcd (a * a + b * b) (c * c + d * d) = 1
  · right
    refine ⟨(xgcd (a * a + b * b) (c * c + d * d)).2.1, (xgcd (a * a + b * b) (c * c + d * d)).2.2, C37_small _ _ (by omega) n2, by omega, fun O fuel => ?_⟩
    · rw [NtruSolve, if_neg (by simp), fieldNorm_two, fieldNorm_two, Go.ok_bind, Go.ok_bind, step O fuel, if_neg (by omega), Go.ok_bind]
      simp only [karamul_two, Go.ok_bind]
  · left
    refine ⟨hg, fun O fuel => ?_⟩
    rw [NtruSolve, if_neg (by simp), fieldNorm_two, fieldNorm_two, Go.ok_bind, Go.ok_bind, step O fuel, if_pos hg, Go.ok_bind]
    rfl

theorem solve_two (a b c d : Int) (hle : a * a + b * b + (c * c + d * d) ≤ 2 ^ 62) (hpos : a * a + b * b ≠ 0) :
    (Int.gcd (a * a + b * b) (c * c + d * d) ≠ 1 ∧ ∀ O fuel, NtruSolve O (fuel + 2) [a, b] [c, d] = .ok none) ∨
    ∃ u v : Int, u * (a * a + b * b) + v * (c * c + d * d) = 1 ∧ ∀ O fuel, NtruSolve O (fuel + 2) [a, b] [c, d] = (do
      let r ← reduce O (fuel + 2) [a, b] [c, d] [-12289 * v * c, -(-12289 * v * d)] [12289 * u * a, -(12289 * u * b)]
      pure (some r)) :=
  (solve_two_small a b c d hle hpos).imp id fun ⟨u, v, _, h⟩ => ⟨u, v, h⟩

/-- At degree 2 the quotients of `reduce` fit into 32 bits. -/
theorem two_small (a b c d u v N : Int) (hN : N = a * a + b * b + c * c + d * d) (h1 : 1 ≤ N) (hle : N ≤ 16822) (hu : |u| ≤ max (c * c + d * d) 1)
    (hv : |v| ≤ a * a + b * b) :
    |-12289 * v * c| + |-(-12289 * v * d)| + |12289 * u * a| + |-(12289 * u * b)| ≤ 2 ^ 44 ∧
    |-12289 * v * c * a + -(-12289 * v * d) * b + (12289 * u * a * c + -(12289 * u * b) * d)| ≤ 10 ^ 9 * N ∧
    |-(-12289 * v * d) * a - -12289 * v * c * b + (-(12289 * u * b) * c - 12289 * u * a * d)| ≤ 10 ^ 9 * N := by
  have sa := mul_self_nonneg a
  have sb := mul_self_nonneg b
  have sc := mul_self_nonneg c
  have sd := mul_self_nonneg d
  have u1 : |u| ≤ 16822 := by omega
  have v1 : |v| ≤ 16822 := by omega
  have sq : ∀ x : Int, |x| ≤ x * x := by
    intro x
    rcases eq_or_ne x 0 with rfl | hx
    · simp
    · have := Int.one_le_abs hx
      rw [← abs_mul_abs_self]
      nlinarith
  have uv : |u - v| ≤ 33644 := (abs_sub u v).trans (by omega)
  refine ⟨?_, ?_, ?_⟩
  · simp only [abs_neg, abs_mul]
    have e : |(12289 : Int)| = 12289 := rfl
    rw [e]
    have k1 := sq a
    have k2 := sq b
    have k3 := sq c
    have k4 := sq d
    have m1 : |v| * (|c| + |d|) ≤ 16822 * 16822 := mul_le_mul v1 (by omega) (by positivity) (by norm_num)
    have m2 : |u| * (|a| + |b|) ≤ 16822 * 16822 := mul_le_mul u1 (by omega) (by positivity) (by norm_num)
    linarith
  · rw [show -12289 * v * c * a + -(-12289 * v * d) * b + (12289 * u * a * c + -(12289 * u * b) * d) = 12289 * ((u - v) * (a * c - b * d)) by ring,
      abs_mul, abs_mul]
    have e : |(12289 : Int)| = 12289 := rfl
    have k : |a * c - b * d| ≤ N := by
      rw [abs_le]
      constructor <;> nlinarith [mul_self_nonneg (a - c), mul_self_nonneg (a + c), mul_self_nonneg (b - d), mul_self_nonneg (b + d)]
    have m := mul_le_mul uv k (abs_nonneg _) (by norm_num)
    rw [e]
    linarith
  · rw [show -(-12289 * v * d) * a - -12289 * v * c * b + (-(12289 * u * b) * c - 12289 * u * a * d) = -(12289 * ((u - v) * (a * d + b * c))) by ring,
      abs_neg, abs_mul, abs_mul]
    have e : |(12289 : Int)| = 12289 := rfl
    have k : |a * d + b * c| ≤ N := by
      rw [abs_le]
      constructor <;> nlinarith [mul_self_nonneg (a - d), mul_self_nonneg (a + d), mul_self_nonneg (b - c), mul_self_nonneg (b + c)]
    have m := mul_le_mul uv k (abs_nonneg _) (by norm_num)
    rw [e]
    linarith

/-- The facts about the vectors passed to `reduce` at degree 2. -/
theorem two_facts (a b c d u v N : Int) (hN : N = a * a + b * b + c * c + d * d) (h1 : 1 ≤ N) (hle : N ≤ 16822)
    (hu : ¬ (a * a + b * b = 1 ∧ c * c + d * d = 1)) (hb : u * (a * a + b * b) + v * (c * c + d * d) = 1) :
    CongrZ (2 ^ 1) (ntruDet [a, b] [c, d] [-12289 * v * c, -(-12289 * v * d)] [12289 * u * a, -(12289 * u * b)]) (C 12289) ∧
    2 * (-12289 * v * c * a + -(-12289 * v * d) * b + (12289 * u * a * c + -(12289 * u * b) * d)) % (2 * N) ≠ N ∧
    2 * (-(-12289 * v * d) * a - -12289 * v * c * b + (-(12289 * u * b) * c - 12289 * u * a * d)) % (2 * N) ≠ N := by
  have hN' : N = a * a + b * b + (c * c + d * d) := by rw [hN]; ring
  have n1 : 0 ≤ a * a + b * b := add_nonneg (mul_self_nonneg _) (mul_self_nonneg _)
  have n2 : 0 ≤ c * c + d * d := add_nonneg (mul_self_nonneg _) (mul_self_nonneg _)
  refine ⟨⟨C (-(12289 * u * b * b) - 12289 * v * d * d), ?_⟩, ?_, ?_⟩
  · simp only [ntruDet, polyZ, poly_cons, poly_nil]
    have hC : ((u : ℤ[X]) * (a * a + b * b) + v * (c * c + d * d)) = 1 := by exact_mod_cast congrArg (Int.cast : ℤ → ℤ[X]) hb
    simp
    linear_combination 12289 * hC
  · have := no_tie (a * a + b * b) (c * c + d * d) u v (a * c - b * d) (by omega) hu (by omega) hb (by nlinarith [mul_self_nonneg (a * d + b * c)])
    rw [hN']
    convert this using 3
    ring
  · have := no_tie (a * a + b * b) (c * c + d * d) u v (-(a * d + b * c)) (by omega) hu (by omega) hb (by nlinarith [mul_self_nonneg (a * c - b * d)])
    rw [hN']
    convert this using 3
    ring

theorem sq_ne (a b : Int) (h0 : a ≠ 0 ∨ b ≠ 0) : a * a + b * b ≠ 0 := by
  rcases h0 with h | h
  · have := mul_self_pos.2 h
    have := mul_self_nonneg b
    omega
  · have := mul_self_pos.2 h
    have := mul_self_nonneg a
    omega

theorem unit_two (a b : Int) (h : a * a + b * b = 1) : IsUnitZ (2 ^ 1) [a, b] := by
  refine ⟨[a, -b], rfl, C (-(b * b)), ?_⟩
  have hC : ((a : ℤ[X]) * a + b * b) = 1 := by exact_mod_cast congrArg (Int.cast : ℤ → ℤ[X]) h
  simp only [polyZ, poly_cons, poly_nil]
  simp
  linear_combination hC

/-- C70 at degree 2, exact arithmetic: for short `f, g` with `f` not zero, `NtruSolve` returns unless `f` and `g` are both units. -/
theorem C70_degree2_exact (a b c d : Int) (h0 : a ≠ 0 ∨ b ≠ 0) (hle : a * a + b * b + c * c + d * d ≤ 16822) :
    (∃ fuel r, NtruSolve exactOps fuel [a, b] [c, d] = .ok r) ↔ ¬ (a * a + b * b = 1 ∧ c * c + d * d = 1) := by
  have hpos := sq_ne a b h0
  constructor
  · rintro ⟨fuel, r, h⟩ ⟨h1, h2⟩
    rw [C70_violated_exact 1 (by decide) [a, b] [c, d] rfl rfl (unit_two a b h1) (unit_two c d h2)] at h
    cases h
  · intro hu
    have n1 : 0 ≤ a * a + b * b := add_nonneg (mul_self_nonneg _) (mul_self_nonneg _)
    have n2 : 0 ≤ c * c + d * d := add_nonneg (mul_self_nonneg _) (mul_self_nonneg _)
    rcases solve_two a b c d (by omega) hpos with ⟨-, h⟩ | ⟨u, v, hb, h⟩
    · exact ⟨2, none, h _ 0⟩
    · obtain ⟨hd, t1, t2⟩ := two_facts a b c d u v _ rfl (by omega) hle hu hb
      obtain ⟨fuel, F, G, hr⟩ := (C70_degree2 a b c d _ _ _ _ h0 _ rfl hle hd).2 ⟨t1, t2⟩
      have e := (C72_outcome exactOps fuel (fuel + 2) (by omega)).2.2.2.1 _ _ _ _ (by rw [hr]; simp)
      exact ⟨fuel + 2, some (F, G), by rw [h _ fuel, e, hr]; rfl⟩

/-- `C70_degree2_ieee` for every variant of the arithmetic. -/
theorem variant_C70_degree2_ieee (va : Variant) (a b c d : Int) (h0 : a ≠ 0 ∨ b ≠ 0) (hge : 8 ≤ a * a + b * b + c * c + d * d)
    (hle : a * a + b * b + c * c + d * d ≤ 16822) : ∃ fuel r, NtruSolve va.ops fuel [a, b] [c, d] = .ok r := by
  have hpos := sq_ne a b h0
  rcases solve_two_small a b c d (by omega) hpos with ⟨-, h⟩ | ⟨u, v, ⟨hu, hv⟩, hb, h⟩
  · exact ⟨2, none, h _ 0⟩
  · obtain ⟨hd, t1, t2⟩ := two_facts a b c d u v _ rfl (by omega) hle (by omega) hb
    obtain ⟨S, hS⟩ := sizeOf2_ok [-12289 * v * c, -(-12289 * v * d)] [12289 * u * a, -(12289 * u * b)] (by simp) (by simp)
    obtain ⟨F, G, hr⟩ := (variant_C70_ieee_degree2 va) a b c d _ _ _ _ _ rfl hge hle hd t1 t2
      (.inr (two_small a b c d u v _ rfl (by omega) hle hu hv)) S hS (S + 2) (by omega)
    exact ⟨S + 2, some (F, G), by rw [h _ S, hr]; rfl⟩

/-- C70 at degree 2: in IEEE arithmetic `NtruSolve` returns for all `f, g` of squared norm between 8 and the bound of the quality check. -/
theorem C70_degree2_ieee (a b c d : Int) (h0 : a ≠ 0 ∨ b ≠ 0) (hge : 8 ≤ a * a + b * b + c * c + d * d)
    (hle : a * a + b * b + c * c + d * d ≤ 16822) : ∃ fuel r, NtruSolve ieeeOps fuel [a, b] [c, d] = .ok r :=
  variant_C70_degree2_ieee amd64V a b c d h0 hge hle

/-- `C68_degree2` for every variant of the arithmetic. -/
theorem variant_C68_degree2 (va : Variant) (f g : List Int16) (a b c d : Int) (hf : int16ToBigInt f = [a, b]) (hg : int16ToBigInt g = [c, d]) (h0 : a ≠ 0 ∨ b ≠ 0) (norm : F64)
    (h : GsNorm va.ops (Int16ToFloat64 va.ops f) (Int16ToFloat64 va.ops g) (va.ops.ofInt Q) = .ok norm)
    (hlt : va.ops.lt (va.ops.mul (va.ops.pow2 (va.ops.lit 1.17)) (va.ops.ofInt Q)) norm = false) :
    9 ≤ a * a + b * b + c * c + d * d ∧ a * a + b * b + c * c + d * d ≤ 16822 := by
  have lf : f.length = 2 ^ 1 := by simpa [int16ToBigInt] using congrArg List.length hf
  have lg : g.length = 2 ^ 1 := by simpa [int16ToBigInt] using congrArg List.length hg
  have hpos := sq_ne a b h0
  have n1 : 0 ≤ a * a + b * b := add_nonneg (mul_self_nonneg _) (mul_self_nonneg _)
  have n2 : 0 ≤ c * c := mul_self_nonneg _
  have n3 : 0 ≤ d * d := mul_self_nonneg _
  have hN : 1 ≤ a * a + b * b + c * c + d * d := by omega
  have e1 := (variant_C68_first va) 1 (by decide) f g lf lg norm h hlt
  have e2 := (variant_C68_spread va) 1 (by decide) (by decide) f g lf lg norm h hlt (by
    intro w hw
    rw [hf, hg, gramAt_two a b c d w (by simpa using rootsC_root 1 w hw), show a ^ 2 + b ^ 2 + c ^ 2 + d ^ 2 = a * a + b * b + c * c + d * d by ring]
    have : (1 : ℝ) ≤ ((a * a + b * b + c * c + d * d : Int) : ℝ) := by exact_mod_cast hN
    linarith)
  obtain ⟨w, hw⟩ : ∃ w, w ∈ rootsC 1 := List.exists_mem_of_length_pos (by rw [rootsC_length]; decide)
  have e3 := e2 w hw
  rw [hf, hg] at e1 e3
  rw [gramAt_two a b c d w (by simpa using rootsC_root 1 w hw), show a ^ 2 + b ^ 2 + c ^ 2 + d ^ 2 = a * a + b * b + c * c + d * d by ring] at e3
  constructor
  · by_contra hc
    have : ((a * a + b * b + c * c + d * d : Int) : ℝ) ≤ ((8 : Int) : ℝ) := by exact_mod_cast (by omega)
    norm_num at this e3
    linarith
  · have : sqNorm (realI [a, b]) + sqNorm (realI [c, d]) = ((a * a + b * b + c * c + d * d : Int) : ℝ) := by
      simp only [sqNorm, realI, List.map_cons, List.map_nil, List.sum_cons, List.sum_nil]
      push_cast
      ring
    rw [this] at e1
    exact_mod_cast e1

/-- C68 at degree 2: the quality check bounds the squared norm from both sides, with no hypothesis other than that `f` is not zero. -/
theorem C68_degree2 (f g : List Int16) (a b c d : Int) (hf : int16ToBigInt f = [a, b]) (hg : int16ToBigInt g = [c, d]) (h0 : a ≠ 0 ∨ b ≠ 0) (norm : F64)
    (h : GsNorm ieeeOps (Int16ToFloat64 ieeeOps f) (Int16ToFloat64 ieeeOps g) (ieeeOps.ofInt Q) = .ok norm)
    (hlt : ieeeOps.lt (ieeeOps.mul (ieeeOps.pow2 (ieeeOps.lit 1.17)) (ieeeOps.ofInt Q)) norm = false) :
    9 ≤ a * a + b * b + c * c + d * d ∧ a * a + b * b + c * c + d * d ≤ 16822 :=
  variant_C68_degree2 amd64V f g a b c d hf hg h0 norm h hlt

theorem NtruGen_step (O : FloatOps) (rand : Rand) (fuel : Nat) (n : UInt16) (pos p1 p2 : Nat) (f g : List Int16) (norm : O.F) (t : List Int16)
    (e1 : GenPoly O rand (fuel + 1) n pos = .ok (f, p1)) (e2 : GenPoly O rand (fuel + 1) n p1 = .ok (g, p2))
    (hn : GsNorm O (Int16ToFloat64 O f) (Int16ToFloat64 O g) (O.ofInt Q) = .ok norm) (ht : NTT wrap64 f = .ok t) :
    NtruGen O rand (fuel + 1) n pos =
      if O.lt (O.mul (O.pow2 (O.lit 1.17)) (O.ofInt Q)) norm then NtruGen O rand fuel n p2
      else if anyZeroes t then NtruGen O rand fuel n p2
      else (do
        match ← NtruSolve O (fuel + 1) (int16ToBigInt f) (int16ToBigInt g) with
        | none => NtruGen O rand fuel n p2
        | some (F, G) => pure (⟨f, g, bigIntToInt16 F, bigIntToInt16 G⟩, p2)) := by
  rw [NtruGen, e1, Go.ok_bind]
  simp only
  rw [e2, Go.ok_bind]
  simp only
  rw [hn, Go.ok_bind, ht, Go.ok_bind]
  rfl

theorem NtruGen_fails (O : FloatOps) (rand : Rand) (fuel : Nat) (n : UInt16) (pos p1 : Nat) (f : List Int16)
    (e1 : GenPoly O rand (fuel + 1) n pos = .ok (f, p1)) (e2 : GenPoly O rand (fuel + 1) n p1 = .panic) :
    NtruGen O rand (fuel + 1) n pos = .panic := by
  rw [NtruGen, e1, Go.ok_bind]
  simp only
  rw [e2]
  rfl

/-- Key generation ends on every finite source of random bytes if `NtruSolve` returns on every candidate that passes the two tests before it. -/
theorem NtruGen_ends_variant (va : Variant) (j : Nat) (h1 : 1 ≤ j) (hj : j ≤ 10) (n : UInt16) (hn : n.toNat = 2 ^ j)
    (hsol : ∀ f g : List Int16, f.length = 2 ^ j → g.length = 2 ^ j → ∀ norm t,
      GsNorm va.ops (Int16ToFloat64 va.ops f) (Int16ToFloat64 va.ops g) (va.ops.ofInt Q) = .ok norm →
      va.ops.lt (va.ops.mul (va.ops.pow2 (va.ops.lit 1.17)) (va.ops.ofInt Q)) norm = false → NTT wrap64 f = .ok t → anyZeroes t = false →
      ∃ fuel r, NtruSolve va.ops fuel (int16ToBigInt f) (int16ToBigInt g) = .ok r)
    (rand : Rand) (m : Nat) (ds : List Draw) (hm : ds.length < m) (pos : Nat) (hr : ∀ i, rand (pos + i) = ds[i]?) :
    ∃ fuel, NtruGen va.ops rand fuel n pos ≠ .diverge := by
  have hn4 : n.toNat ≤ 4096 := by
    rw [hn]
    exact (Nat.pow_le_pow_right (by decide) hj).trans (by decide)
  induction m generalizing ds pos with
  | zero => omega
  | succ m ih =>
    have e1 := fun fuel (hf : ds.length < fuel) => GenPoly_run (key_variant va) n hn4 rand ds fuel pos hf hr
    rcases hrun : run va.ops 4096 ds with _ | ⟨l, rest⟩
    · refine ⟨ds.length + 1, ?_⟩
      rw [NtruGen, e1 _ (by omega), hrun]
      simp
    obtain ⟨hl, used, hu⟩ := run_length _ _ _ _ _ hrun
    have us := run_used _ _ _ _ _ hrun
    have hlen : ds.length = used.length + rest.length := by rw [hu, List.length_append]
    rw [hrun] at e1
    simp only at e1
    generalize hp : pos + (ds.length - rest.length) = p at e1
    generalize hf : (blockSums (4096 / n.toNat) n.toNat l).map Int16.ofInt = f at e1
    have hr1 : ∀ i, rand (p + i) = rest[i]? := by
      intro i
      rw [← hp, show pos + (ds.length - rest.length) + i = pos + (used.length + i) by omega, hr, hu,
        List.getElem?_append_right (by omega)]
      congr 1
      omega
    have e2 := fun fuel (hf : rest.length < fuel) => GenPoly_run (key_variant va) n hn4 rand rest fuel p hf hr1
    rcases hrun2 : run va.ops 4096 rest with _ | ⟨l2, rest2⟩
    · refine ⟨ds.length + 1, ?_⟩
      rw [NtruGen_fails va.ops rand ds.length n pos p f (e1 _ (by omega)) (by rw [e2 _ (by omega), hrun2])]
      simp
    obtain ⟨hl2, used2, hu2⟩ := run_length _ _ _ _ _ hrun2
    have us2 := run_used _ _ _ _ _ hrun2
    have hlen2 : rest.length = used2.length + rest2.length := by rw [hu2, List.length_append]
    rw [hrun2] at e2
    simp only at e2
    generalize hp2 : p + (rest.length - rest2.length) = p2 at e2
    generalize hg : (blockSums (4096 / n.toNat) n.toNat l2).map Int16.ofInt = g at e2
    have hr2 : ∀ i, rand (p2 + i) = rest2[i]? := by
      intro i
      rw [← hp2, show p + (rest.length - rest2.length) + i = p + (used2.length + i) by omega, hr1, hu2,
        List.getElem?_append_right (by omega)]
      congr 1
      omega
    have lf : f.length = 2 ^ j := by rw [← hf, List.length_map, blockSums_length, hn]
    have lg : g.length = 2 ^ j := by rw [← hg, List.length_map, blockSums_length, hn]
    obtain ⟨fu, hfu⟩ := ih rest2 (by omega) p2 hr2
    have next : ∀ fuel, fu ≤ fuel → NtruGen va.ops rand fuel n p2 ≠ .diverge := fun fuel h =>
      ((mono_of_succ (F := fun k => NtruGen va.ops rand k n p2) (fun k => NtruGen_succ ..) h).outcome hfu).trans_ne hfu
    obtain ⟨norm, hnorm⟩ := GsNorm_ok va.ops j h1 hj (Int16ToFloat64 va.ops f) (Int16ToFloat64 va.ops g) (va.ops.ofInt Q)
      (by rw [← lf]; simp [Int16ToFloat64]) (by rw [← lg]; simp [Int16ToFloat64])
    obtain ⟨t, ht, -⟩ := NTT_spec wrap64_good j h1 hj f lf
    have start : ∀ fuel, ds.length ≤ fuel → NtruGen va.ops rand (fuel + 1) n pos =
        if va.ops.lt (va.ops.mul (va.ops.pow2 (va.ops.lit 1.17)) (va.ops.ofInt Q)) norm then NtruGen va.ops rand fuel n p2
        else if anyZeroes t then NtruGen va.ops rand fuel n p2
        else (do
          match ← NtruSolve va.ops (fuel + 1) (int16ToBigInt f) (int16ToBigInt g) with
          | none => NtruGen va.ops rand fuel n p2
          | some (F, G) => pure (⟨f, g, bigIntToInt16 F, bigIntToInt16 G⟩, p2)) := by
      intro fuel hfuel
      exact NtruGen_step va.ops rand fuel n pos p p2 f g norm t (e1 _ (by omega)) (e2 _ (by omega)) hnorm ht
    by_cases hlt : va.ops.lt (va.ops.mul (va.ops.pow2 (va.ops.lit 1.17)) (va.ops.ofInt Q)) norm = true
    · refine ⟨fu + ds.length + 1, ?_⟩
      rw [start _ (by omega), if_pos hlt]
      exact next _ (by omega)
    by_cases hz : anyZeroes t = true
    · refine ⟨fu + ds.length + 1, ?_⟩
      rw [start _ (by omega), if_neg hlt, if_pos hz]
      exact next _ (by omega)
    obtain ⟨fs, r, hs⟩ := hsol f g lf lg norm t hnorm (by simpa using hlt) ht (by simpa using hz)
    refine ⟨fu + ds.length + fs + 1, ?_⟩
    have hs' := (C72_outcome va.ops fs (fu + ds.length + fs + 1) (by omega)).2.2.2.2.1 _ _ (by rw [hs]; simp)
    rw [start _ (by omega), if_neg hlt, if_neg hz, hs', hs, Go.ok_bind]
    match r with
    | none => exact next _ (by omega)
    | some (F, G) => simp

theorem NtruGen_ends (j : Nat) (h1 : 1 ≤ j) (hj : j ≤ 10) (n : UInt16) (hn : n.toNat = 2 ^ j)
    (hsol : ∀ f g : List Int16, f.length = 2 ^ j → g.length = 2 ^ j → ∀ norm t,
      GsNorm ieeeOps (Int16ToFloat64 ieeeOps f) (Int16ToFloat64 ieeeOps g) (ieeeOps.ofInt Q) = .ok norm →
      ieeeOps.lt (ieeeOps.mul (ieeeOps.pow2 (ieeeOps.lit 1.17)) (ieeeOps.ofInt Q)) norm = false → NTT wrap64 f = .ok t → anyZeroes t = false →
      ∃ fuel r, NtruSolve ieeeOps fuel (int16ToBigInt f) (int16ToBigInt g) = .ok r)
    (rand : Rand) (m : Nat) (ds : List Draw) (hm : ds.length < m) (pos : Nat) (hr : ∀ i, rand (pos + i) = ds[i]?) :
    ∃ fuel, NtruGen ieeeOps rand fuel n pos ≠ .diverge :=
  NtruGen_ends_variant amd64V j h1 hj n hn hsol rand m ds hm pos hr

/-- `C70_degree2_keygen` for every variant of the arithmetic. -/
theorem variant_C70_degree2_keygen (va : Variant) (N : Nat) (d : Fin N → Draw) : ∃ fuel, GeneratePrivateKey va.ops (source d) fuel 2 0 = .panic ∨
    ∃ key pos, GeneratePrivateKey va.ops (source d) fuel 2 0 = .ok (.ok (key, pos)) := by
  obtain ⟨fuel, h⟩ := (NtruGen_ends_variant va) 1 (by decide) (by decide) 2 (by decide) (by
    intro f g lf lg norm t hn hlt ht hz
    obtain ⟨x, y, rfl⟩ : ∃ x y, f = [x, y] := by
      match f, lf with
      | [x, y], _ => exact ⟨x, y, rfl⟩
    obtain ⟨z, w, rfl⟩ : ∃ z w, g = [z, w] := by
      match g, lg with
      | [z, w], _ => exact ⟨z, w, rfl⟩
    have h0 : x.toInt ≠ 0 ∨ y.toInt ≠ 0 := by
      by_contra hc
      push Not at hc
      have hx : x = 0 := Int16.toInt_inj.1 (by rw [hc.1]; rfl)
      have hy : y = 0 := Int16.toInt_inj.1 (by rw [hc.2]; rfl)
      rw [hx, hy] at ht
      have : (do
        let t ← NTT wrap64 [0, 0]
        pure (anyZeroes t)) = .ok true := by decide +kernel
      rw [ht] at this
      have h2 : anyZeroes t = true := Go.ok.inj this
      rw [hz] at h2
      cases h2
    obtain ⟨b1, b2⟩ := (variant_C68_degree2 va) [x, y] [z, w] x.toInt y.toInt z.toInt w.toInt rfl rfl h0 norm hn hlt
    exact (variant_C70_degree2_ieee va) _ _ _ _ h0 (by omega) b2) (source d) (N + 1) (List.ofFn d) (by rw [List.length_ofFn]; omega) 0 (by
    intro i
    rw [Nat.zero_add, List.getElem?_ofFn]
    rfl)
  refine ⟨fuel, ?_⟩
  unfold GeneratePrivateKey
  rw [if_neg (by decide)]
  rcases hq : NtruGen va.ops (source d) fuel 2 0 with ⟨q, p⟩ | _ | _
  · exact Or.inr ⟨_, _, rfl⟩
  · exact Or.inl rfl
  · exact absurd hq h

/-- C70 at degree 2: key generation in IEEE arithmetic ends on every finite source of random bytes, with a key or with the panic on a failed
read; it never loops inside a candidate. -/
theorem C70_degree2_keygen (N : Nat) (d : Fin N → Draw) : ∃ fuel, GeneratePrivateKey ieeeOps (source d) fuel 2 0 = .panic ∨
    ∃ key pos, GeneratePrivateKey ieeeOps (source d) fuel 2 0 = .ok (.ok (key, pos)) :=
  variant_C70_degree2_keygen amd64V N d

/-- The pair of the known-answer key returns in both arithmetics; two units loop; a pair with squared norm 3 returns. -/
example : (∃ fuel r, NtruSolve ieeeOps fuel [72, 5] [60, 31] = .ok r) ∧ (∃ fuel r, NtruSolve exactOps fuel [1, 1] [0, 1] = .ok r) ∧
    ¬ ∃ fuel r, NtruSolve exactOps fuel [0, -1] [1, 0] = .ok r :=
  ⟨C70_degree2_ieee 72 5 60 31 (by decide) (by decide) (by decide), (C70_degree2_exact 1 1 0 1 (by decide) (by decide)).2 (by decide),
    fun h => (C70_degree2_exact 0 (-1) 1 0 (by decide) (by decide)).1 h (by decide)⟩

end Falcon
