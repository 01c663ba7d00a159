import Verif.Lemmas.Ntrugen2
/-!
# Properties of the big-integer part of key generation (C34-C41)
-/

namespace Falcon
open Spec Polynomial

theorem getD_default (l : List Int) (i : Nat) (h : l.length ≤ i) : l.getD i 0 = 0 := by
  simp [List.getD_eq_getElem?_getD, h]

/-! ### C34, C35: multiplication -/

/-- C34: `Karatsuba` on power-of-two lengths returns `2n` coefficients of the integer product. -/
theorem C34_karatsuba (k : Nat) (a b : List Int) (ha : a.length = 2 ^ k) (hb : b.length = 2 ^ k) :
    ∃ r, Karatsuba a b (2 ^ k) = .ok r ∧ r.length = 2 * 2 ^ k ∧ polyZ r = polyZ a * polyZ b := by
  obtain ⟨r, h1, h2, h3⟩ := Karatsuba_ok k a b ha hb
  exact ⟨r, h1, by rw [h2, pow_succ, mul_comm], h3⟩

/-- C34: coefficient by coefficient, this is the convolution; in particular the top coefficient is zero. -/
theorem C34_coefficients (k : Nat) (a b : List Int) (ha : a.length = 2 ^ k) (hb : b.length = 2 ^ k) :
    ∃ r, Karatsuba a b (2 ^ k) = .ok r ∧ r.length = 2 * 2 ^ k ∧ r.getD (2 * 2 ^ k - 1) 0 = 0 ∧
      ∀ m, r.getD m 0 = ∑ p ∈ Finset.antidiagonal m, a.getD p.1 0 * b.getD p.2 0 := by
  obtain ⟨r, h1, h2, h3⟩ := C34_karatsuba k a b ha hb
  have hc : ∀ m, r.getD m 0 = ∑ p ∈ Finset.antidiagonal m, a.getD p.1 0 * b.getD p.2 0 := by
    intro m
    rw [← poly_coeff, show poly r = poly a * poly b from h3, coeff_mul]
    simp only [poly_coeff]
  refine ⟨r, h1, h2, ?_, hc⟩
  rw [hc]
  apply Finset.sum_eq_zero
  intro p hp
  rw [Finset.mem_antidiagonal] at hp
  have hpos := Nat.two_pow_pos k
  by_cases h : p.1 < 2 ^ k
  · rw [getD_default b _ (by omega), mul_zero]
  · rw [getD_default a _ (by omega), zero_mul]

example : Karatsuba [1, 2, -3, 10 ^ 30] [5, -6, 7, 8] 4 =
    .ok [5, 4, -20, 40 + 5 * 10 ^ 30, -5 - 6 * 10 ^ 30, -24 + 7 * 10 ^ 30, 8 * 10 ^ 30, 0] := by decide +kernel

/-- C35: `karamul` returns the `n` coefficients of the product modulo `x^n+1`. -/
theorem C35_karamul (k : Nat) (a b : List Int) (ha : a.length = 2 ^ k) (hb : b.length = 2 ^ k) :
    ∃ r, karamul a b = .ok r ∧ r.length = 2 ^ k ∧ CongrZ (2 ^ k) (polyZ a * polyZ b) (polyZ r) :=
  karamul_ok k a b ha hb

/-- C35: that list is the only one: the result is determined by its length and its class. -/
theorem C35_unique (n : Nat) (r s : List Int) (hr : r.length = n) (hs : s.length = n) (h : CongrZ n (polyZ r) (polyZ s)) :
    r = s := by
  rcases Nat.eq_zero_or_pos n with rfl | hn
  · rw [List.length_eq_zero_iff] at hr hs; rw [hr, hs]
  apply poly_injective (hr.trans hs.symm)
  have hm : (X ^ n + 1 : ℤ[X]).Monic := by simpa using monic_X_pow_add_C (1 : ℤ) (by omega : n ≠ 0)
  have hd : (poly r - poly s : ℤ[X]).degree < (X ^ n + 1 : ℤ[X]).degree := by
    have e : (X ^ n + 1 : ℤ[X]).degree = n := by simpa using degree_X_pow_add_C hn (1 : ℤ)
    rw [e]
    refine lt_of_le_of_lt (degree_sub_le _ _) (max_lt ?_ ?_)
    · simpa [hr] using poly_degree_lt r
    · simpa [hs] using poly_degree_lt s
  have h0 := eq_zero_of_dvd_of_degree_lt h (by simpa using hd)
  exact sub_eq_zero.1 h0

example : karamul [1, 2, -3, 4] [5, -6, 7, 8] = .ok [34, 0, -52, 60] := by decide +kernel

/-! ### C36: tower maps -/

/-- C36: `galoisConjugate(a)` is `a(-x)` and an involution. -/
theorem C36_galois (a : List Int) : (galoisConjugate a).length = a.length ∧ polyZ (galoisConjugate a) = (polyZ a).comp (-X) ∧
    galoisConjugate (galoisConjugate a) = a :=
  ⟨galois_length a, poly_galois a, galois_galois a⟩

/-- C36: `lift(a)` is `a(x^2)`. -/
theorem C36_lift (a : List Int) : (lift a).length = 2 * a.length ∧ polyZ (lift a) = (polyZ a).comp (X ^ 2) :=
  ⟨lift_length a, poly_lift a⟩

/-- C36: `fieldNorm(a)` has half the length, and lifted it is `a * galoisConjugate(a)`. -/
theorem C36_norm (k : Nat) (a : List Int) (ha : a.length = 2 ^ (k + 1)) :
    ∃ r, fieldNorm a = .ok r ∧ r.length = 2 ^ k ∧
      CongrZ (2 ^ (k + 1)) (polyZ (lift r)) (polyZ a * polyZ (galoisConjugate a)) := by
  obtain ⟨r, h1, h2, h3⟩ := fieldNorm_ok k a ha
  refine ⟨r, h1, h2, ?_⟩
  obtain ⟨c, hc⟩ := fieldNorm_conj k a r ha h3
  refine ⟨-c, ?_⟩
  unfold polyZ
  rw [poly_lift, poly_galois]
  linear_combination -hc

/-- C36: hence multiplying with the code itself: `karamul(a, galoisConjugate(a)) = lift(fieldNorm(a))`, as lists. -/
theorem C36_code (k : Nat) (a : List Int) (ha : a.length = 2 ^ (k + 1)) :
    ∃ r, fieldNorm a = .ok r ∧ karamul a (galoisConjugate a) = .ok (lift r) := by
  obtain ⟨r, h1, h2, ⟨c, hc⟩⟩ := C36_norm k a ha
  obtain ⟨m, h4, h5, ⟨d, hd⟩⟩ := C35_karamul (k + 1) a (galoisConjugate a) ha (by rw [galois_length, ha])
  refine ⟨r, h1, ?_⟩
  rw [h4, C35_unique (2 ^ (k + 1)) m (lift r) h5 (by rw [lift_length, h2, pow_succ, mul_comm]) ⟨-c - d, ?_⟩]
  linear_combination -hc - hd

example : fieldNorm [1, 2, -3, 4] = .ok [8, 6] := by decide +kernel
example : galoisConjugate [1, 2, -3, 4] = [1, -2, -3, -4] := by decide +kernel
example : lift [8, 6] = [8, 0, 6, 0] := by decide +kernel
example : karamul [1, 2, -3, 4] [1, -2, -3, -4] = .ok [8, 0, 6, 0] := by decide +kernel

/-! ### C37: xgcd -/

/-- C37: Bezout identity and gcd, for all integers. Termination is part of the definition of the model (no fuel). -/
theorem C37_xgcd (b n : Int) : (xgcd b n).1 = (xgcd b n).2.1 * b + (xgcd b n).2.2 * n ∧
    (xgcd b n).1.natAbs = Int.gcd b n ∧ (0 ≤ b → 0 ≤ n → 0 ≤ (xgcd b n).1) :=
  xgcdLoop_spec b n b n 1 0 0 1 (by ring) (by ring)

/-- C37: the sign condition is needed: the returned gcd may be negative. -/
theorem C37_negative : (xgcd 3 (-1)).1 = -1 ∧ (xgcd (-5) 0).1 = -5 := by decide +kernel

example : xgcd 240 46 = (2, -9, 47) := by decide +kernel

/-! ### C38: bitsize -/

/-- C38: `bitsize(a)` is the least multiple of 8 with `|a| < 2^bitsize(a)`. -/
theorem C38_bitsize (a : Int) : 8 ∣ bitsize a ∧ |a| < 2 ^ bitsize a ∧ ∀ m, 8 ∣ m → |a| < 2 ^ m → bitsize a ≤ m := by
  obtain ⟨h1, h2, h3⟩ := bitsizeLoop_spec a.natAbs
  have e : |a| = (a.natAbs : Int) := Int.abs_eq_natAbs a
  refine ⟨h1, by rw [e]; exact_mod_cast h2, fun m hm h => h3 m hm ?_⟩
  rw [e] at h
  exact_mod_cast h

example : bitsize 0 = 0 ∧ bitsize (-255) = 8 ∧ bitsize 256 = 16 ∧ bitsize (-(2 ^ 64)) = 72 := by decide +kernel

/-! ### C39: reduce -/

/-- C39: for every behaviour `O` of the floating-point operations and every number of iterations, `reduce` on supported
power-of-two lengths does not panic, and what it returns has the same lengths and the same NTRU determinant. -/
theorem C39_reduce (O : FloatOps) (k : Nat) (hk : k ≤ 10) (f g F G : List Int) (hf : f.length = 2 ^ k) (hg : g.length = 2 ^ k)
    (hF : F.length = 2 ^ k) (hG : G.length = 2 ^ k) (fuel : Nat) :
    reduce O fuel f g F G ≠ .panic ∧
    ∀ F' G', reduce O fuel f g F G = .ok (F', G') →
      F'.length = 2 ^ k ∧ G'.length = 2 ^ k ∧ CongrZ (2 ^ k) (ntruDet f g F' G') (ntruDet f g F G) := by
  obtain ⟨h1, h2⟩ := reduce_ok (O := O) k hk f g hf hg fuel F G hF hG
  exact ⟨h1, fun F' G' h => ⟨(h2 F' G' h).1, (h2 F' G' h).2.1, (h2 F' G' h).2.2.det⟩⟩

/-- C39: more precisely one and the same multiple of `f` and `g` is subtracted from `F` and `G`. -/
theorem C39_lattice (O : FloatOps) (k : Nat) (hk : k ≤ 10) (f g F G : List Int) (hf : f.length = 2 ^ k) (hg : g.length = 2 ^ k)
    (hF : F.length = 2 ^ k) (hG : G.length = 2 ^ k) (fuel : Nat) (F' G' : List Int) (h : reduce O fuel f g F G = .ok (F', G')) :
    ∃ K : ℤ[X], CongrZ (2 ^ k) (polyZ F') (polyZ F - polyZ f * K) ∧ CongrZ (2 ^ k) (polyZ G') (polyZ G - polyZ g * K) :=
  ((reduce_ok (O := O) k hk f g hf hg fuel F G hF hG).2 F' G' h).2.2

theorem FFT_large (O : FloatOps) (k : Nat) (hk : 11 ≤ k) (f : List O.F) (hf : f.length = 2 ^ k) : FFT O f = .panic := by
  induction k, hk using Nat.le_induction generalizing f with
  | base =>
    rw [FFT, dif_pos (by rw [hf]; decide)]
    obtain ⟨a, ha, la⟩ := FFT_ok (O := O) 10 (by decide) (by decide) (splitPolys f).1 (by rw [splitPolys_length1, hf]; decide)
    obtain ⟨b, hb, lb⟩ := FFT_ok (O := O) 10 (by decide) (by decide) (splitPolys f).2 (by rw [splitPolys_length2, hf]; decide)
    rw [ha, Go.ok_bind, hb, Go.ok_bind]
    have hl : 2 * a.length = 2048 := by rw [la]; decide
    unfold MergeFFT
    simp only [hl]
    cases a with
    | nil => simp at hl
    | cons x a => cases b with
      | nil => simp at lb
      | cons y b =>
        rw [mergeFFTLoop]
        have : O.rootAt 2048 (2 * 0) = .panic := by
          unfold FloatOps.rootAt
          rw [show isRootKey 2048 = false by decide]
          simp
        rw [this, Go.panic_bind]
  | succ k hk ih =>
    have e := pow_succ 2 k
    have : 2 ^ 11 ≤ 2 ^ k := Nat.pow_le_pow_right (by decide) hk
    rw [FFT, dif_pos (by omega), ih _ (by rw [splitPolys_length1]; omega), Go.panic_bind]

/-- C39: the bound on the length is sharp: beyond degree 1024 `reduce` always panics (no table of roots). -/
theorem C39_large (O : FloatOps) (k : Nat) (hk : 11 ≤ k) (f g F G : List Int) (hf : f.length = 2 ^ k) (hg : g.length = 2 ^ k)
    (fuel : Nat) : reduce O fuel f g F G = .panic := by
  obtain ⟨s, hs⟩ := sizeOf2_ok f g (ne_nil_of_length hf) (ne_nil_of_length hg)
  unfold reduce
  rw [hs, Go.ok_bind, FFT_large O k hk _ (by simp [adjust, hf]), Go.panic_bind]

/-! ### C40, C41: NtruSolve -/

theorem bigInt64_eq_one (x : Int) : bigInt64 x = 1 ↔ x % 2 ^ 64 = 1 := by
  unfold bigInt64 i64
  simp only [Int.bmod_def]
  split <;> split <;> (try split) <;> omega

theorem towerNorm_of_isNorm (k : Nat) (f : List Int) (hf : f.length = 2 ^ k) (N : Int) (h : IsNorm (2 ^ k) (polyZ f) N) :
    towerNorm k f = .ok N := by
  obtain ⟨M, h1, h2⟩ := towerNorm_ok k f hf
  rw [isNorm_unique h h2, h1]

/-- The norm of a polynomial to the integers always exists. -/
theorem exists_isNorm (k : Nat) (f : List Int) (hf : f.length = 2 ^ k) : ∃ N, IsNorm (2 ^ k) (polyZ f) N := by
  obtain ⟨M, _, h2⟩ := towerNorm_ok k f hf
  exact ⟨M, h2⟩

theorem xgcd_eq_gcd (k : Nat) (f g : List Int) (hf : f.length = 2 ^ (k + 1)) (hg : g.length = 2 ^ (k + 1)) (Nf Ng : Int)
    (h1 : towerNorm (k + 1) f = .ok Nf) (h2 : towerNorm (k + 1) g = .ok Ng) : (xgcd Nf Ng).1 = (Int.gcd Nf Ng : Int) := by
  obtain ⟨_, h, hn⟩ := C37_xgcd Nf Ng
  have := hn (towerNorm_nonneg k f hf Nf h1) (towerNorm_nonneg k g hg Ng h2)
  omega

/-- C40, general identity: for degrees 2..1024, whatever the floating-point operations do, `NtruSolve` does not panic, and
solutions it returns satisfy `f*G - g*F = 12289*d` where `d`, the gcd of the norms of `f` and `g`, is 1 modulo `2^64`. -/
theorem C40_identity_partial (O : FloatOps) (k : Nat) (h1 : 1 ≤ k) (hk : k ≤ 10) (f g : List Int) (hf : f.length = 2 ^ k)
    (hg : g.length = 2 ^ k) (Nf Ng : Int) (hNf : IsNorm (2 ^ k) (polyZ f) Nf) (hNg : IsNorm (2 ^ k) (polyZ g) Ng) (fuel : Nat) :
    NtruSolve O fuel f g ≠ .panic ∧
    ∀ F G, NtruSolve O fuel f g = .ok (some (F, G)) → F.length = 2 ^ k ∧ G.length = 2 ^ k ∧
      Int.gcd Nf Ng % 2 ^ 64 = 1 ∧ CongrZ (2 ^ k) (ntruDet f g F G) (C (12289 * (Int.gcd Nf Ng : Int))) := by
  have t1 := towerNorm_of_isNorm k f hf Nf hNf
  have t2 := towerNorm_of_isNorm k g hg Ng hNg
  obtain ⟨a1, _, a3⟩ := NtruSolve_ok (O := O) k hk f g hf hg Nf Ng t1 t2 fuel
  obtain ⟨k, rfl⟩ : ∃ j, k = j + 1 := ⟨k - 1, by omega⟩
  refine ⟨a1, fun F G h => ?_⟩
  obtain ⟨b1, b2, b3, b4⟩ := a3 F G h
  rw [xgcd_eq_gcd k f g hf hg Nf Ng t1 t2] at b1 b4
  rw [bigInt64_eq_one] at b1
  exact ⟨b2, b3, by omega, b4⟩

/-- C40 holds whenever the gcd of the norms is below `2^64 + 1`. -/
theorem C40_solution_partial (O : FloatOps) (k : Nat) (h1 : 1 ≤ k) (hk : k ≤ 10) (f g : List Int) (hf : f.length = 2 ^ k)
    (hg : g.length = 2 ^ k) (Nf Ng : Int) (hNf : IsNorm (2 ^ k) (polyZ f) Nf) (hNg : IsNorm (2 ^ k) (polyZ g) Ng)
    (hgcd : Int.gcd Nf Ng ≤ 2 ^ 64) (fuel : Nat) (F G : List Int) (h : NtruSolve O fuel f g = .ok (some (F, G))) :
    F.length = 2 ^ k ∧ G.length = 2 ^ k ∧ CongrZ (2 ^ k) (ntruDet f g F G) (C 12289) := by
  obtain ⟨b2, b3, b1, b4⟩ := (C40_identity_partial O k h1 hk f g hf hg Nf Ng hNf hNg fuel).2 F G h
  have : Int.gcd Nf Ng = 1 := by omega
  rw [this] at b4
  exact ⟨b2, b3, by simpa using b4⟩

/-- C40: degree 1, reached at the bottom of the recursion. -/
theorem C40_degree1_partial (O : FloatOps) (f g : List Int) (hf : f.length = 1) (hg : g.length = 1) (fuel : Nat)
    (F G : List Int) (h : NtruSolve O fuel f g = .ok (some (F, G))) :
    ∃ d : Int, d.natAbs = Int.gcd (f.getD 0 0) (g.getD 0 0) ∧ d % 2 ^ 64 = 1 ∧ F.length = 1 ∧ G.length = 1 ∧
      CongrZ 1 (ntruDet f g F G) (C (12289 * d)) := by
  match f, g, hf, hg with
  | [a], [b], _, _ =>
    obtain ⟨_, _, h3⟩ := NtruSolve_ok (O := O) 0 (by decide) [a] [b] rfl rfl a b rfl rfl fuel
    obtain ⟨b1, b2, b3, b4⟩ := h3 F G h
    exact ⟨(xgcd a b).1, (C37_xgcd a b).2.1, (bigInt64_eq_one _).1 b1, b2, b3, b4⟩

theorem isNorm_congr {n : Nat} (hn : 0 < n) {p q : ℤ[X]} (h : CongrZ n p q) {N : ℤ} (hN : IsNorm n p N) : IsNorm n q N := by
  unfold IsNorm at *
  rw [hN]
  congr 1
  apply Multiset.map_congr rfl
  intro w hw
  have hmonic : (X ^ n + 1 : ℂ[X]).Monic := by
    simpa using monic_X_pow_add_C (1 : ℂ) (by omega : n ≠ 0)
  have hw' : w ^ n + 1 = 0 := by simpa using (mem_roots hmonic.ne_zero).1 hw
  obtain ⟨c, hc⟩ := h
  have h1 := congrArg (eval₂ (Int.castRingHom ℂ) w) hc
  simp only [eval₂_sub, eval₂_mul, eval₂_X, eval₂_pow, eval₂_add, eval₂_one, hw', zero_mul] at h1
  linear_combination h1

theorem isNorm_mul {n : Nat} {p q : ℤ[X]} {N M : ℤ} (h1 : IsNorm n p N) (h2 : IsNorm n q M) : IsNorm n (p * q) (N * M) := by
  unfold IsNorm at *
  simp only [eval₂_mul, Multiset.prod_map_mul, ← h1, ← h2]
  push_cast
  rfl

theorem isNorm_const (n : Nat) (c : ℤ) : IsNorm n (C c) (c ^ n) := by
  unfold IsNorm
  simp only [eval₂_C, Multiset.map_const', Multiset.prod_replicate]
  have : Multiset.card (X ^ n + 1 : ℂ[X]).roots = n := by
    rw [IsAlgClosed.card_roots_eq_natDegree]
    simpa using natDegree_X_pow_add_C (n := n) (r := (1 : ℂ))
  rw [this]
  simp

/-- The degree-64 polynomial `c*(1 + 2x)`. -/
def bad (c : Int) : List Int := c :: 2 * c :: List.replicate 62 0

theorem bad_tower : towerNorm 6 (bad 1) = .ok (2 ^ 64 + 1) ∧ towerNorm 6 (bad 3) = .ok (3 ^ 64 * (2 ^ 64 + 1)) := by
  decide +kernel

/-- C40 is violated: for `f = 1+2x` and `g = 3+6x` in degree 64 the NTRU equation has no solution at all (the norms have the
common factor `2^64+1`), yet `NtruSolve` never reports that: whenever it returns, it returns a pair `(F,G)`, with
`f*G - g*F = 12289*(2^64+1)`. -/
theorem C40_violated (O : FloatOps) (fuel : Nat) :
    (∀ F G : List Int, ¬ CongrZ 64 (ntruDet (bad 1) (bad 3) F G) (C 12289)) ∧
    (∀ r, NtruSolve O fuel (bad 1) (bad 3) = .ok r → ∃ F G, r = some (F, G) ∧
      CongrZ 64 (ntruDet (bad 1) (bad 3) F G) (C (12289 * (2 ^ 64 + 1)))) := by
  obtain ⟨t1, t2⟩ := bad_tower
  have l1 : (bad 1).length = 2 ^ 6 := by decide
  have l3 : (bad 3).length = 2 ^ 6 := by decide
  have hN : IsNorm (2 ^ 6) (polyZ (bad 1)) (2 ^ 64 + 1) := by
    obtain ⟨N, h1, h2⟩ := towerNorm_ok 6 (bad 1) l1
    rw [t1] at h1
    rw [Go.ok.inj h1]
    exact h2
  have hgcd : (xgcd (2 ^ 64 + 1) (3 ^ 64 * (2 ^ 64 + 1))).1 = 2 ^ 64 + 1 := by decide +kernel
  constructor
  · intro F G h
    have e3 : polyZ (bad 3) = C 3 * polyZ (bad 1) := by
      unfold bad polyZ
      simp only [poly_cons, poly_replicate_zero, mul_zero, add_zero, mul_one, C_mul, C_1]
      ring
    have ed : ntruDet (bad 1) (bad 3) F G = polyZ (bad 1) * (polyZ G - C 3 * polyZ F) := by
      unfold ntruDet
      rw [e3]; ring
    -- replace the second factor by a list of length 64
    have hmon : (X ^ 64 + 1 : ℤ[X]).Monic := by simpa using monic_X_pow_add_C (1 : ℤ) (by decide : 64 ≠ 0)
    set p := polyZ G - C 3 * polyZ F with hp
    have hdeg : (p %ₘ (X ^ 64 + 1 : ℤ[X])).degree < (64 : Nat) := by
      have := degree_modByMonic_lt p hmon
      have hd : (X ^ 64 + 1 : ℤ[X]).degree = (64 : Nat) := by
        simpa using degree_X_pow_add_C (by decide : 0 < 64) (1 : ℤ)
      rwa [hd] at this
    obtain ⟨r, hr, hrp⟩ := exists_list 64 _ hdeg
    obtain ⟨M, hM⟩ := exists_isNorm 6 r hr
    have hc : CongrZ 64 (polyZ (bad 1) * polyZ r) (C 12289) := by
      obtain ⟨c, hc⟩ := h
      rw [ed] at hc
      have h2 := modByMonic_add_div p (X ^ 64 + 1 : ℤ[X])
      refine ⟨c - polyZ (bad 1) * (p /ₘ (X ^ 64 + 1)), ?_⟩
      unfold polyZ at *
      rw [hrp]
      linear_combination hc + poly (bad 1) * h2
    have hprod := isNorm_congr (by decide) hc (isNorm_mul hN hM)
    have := isNorm_unique hprod (isNorm_const 64 12289)
    have hdvd : ((2 : Int) ^ 64 + 1) ∣ 12289 ^ 64 := ⟨M, this.symm⟩
    revert hdvd
    decide +kernel
  · intro r hr
    obtain ⟨_, h2, h3⟩ := NtruSolve_ok (O := O) 6 (by decide) (bad 1) (bad 3) l1 l3 _ _ t1 t2 fuel
    rw [hgcd] at h2 h3
    cases r with
    | none => exact absurd ((bigInt64_eq_one _).2 (by decide)) (h2 hr)
    | some FG =>
      obtain ⟨F, G⟩ := FG
      exact ⟨F, G, rfl, (h3 F G hr).2.2.2⟩

theorem NtruSolve_none (O : FloatOps) (k : Nat) (f g : List Int) (hf : f.length = 2 ^ k) (hg : g.length = 2 ^ k) (Nf Ng : Int)
    (hNf : towerNorm k f = .ok Nf) (hNg : towerNorm k g = .ok Ng) (h : bigInt64 (xgcd Nf Ng).1 ≠ 1) (fuel : Nat) (hfu : k < fuel) :
    NtruSolve O fuel f g = .ok none := by
  induction k generalizing f g fuel with
  | zero =>
    obtain ⟨m, rfl⟩ : ∃ m, fuel = m + 1 := ⟨fuel - 1, by omega⟩
    match f, g, hf, hg with
    | [a], [b], _, _ =>
      have h1 := Go.ok.inj hNf
      have h2 := Go.ok.inj hNg
      subst h1 h2
      rw [NtruSolve, if_pos (by simp)]
      simp only [idx, List.getElem?_cons_zero, Go.ok_bind]
      rw [if_pos h]
      rfl
  | succ k ih =>
    obtain ⟨m, rfl⟩ : ∃ m, fuel = m + 1 := ⟨fuel - 1, by omega⟩
    have hp := Nat.two_pow_pos k
    have e := pow_succ 2 k
    obtain ⟨fp, ef, lf, cf⟩ := fieldNorm_ok k f hf
    obtain ⟨gp, eg, lg, cg⟩ := fieldNorm_ok k g hg
    rw [towerNorm, ef, Go.ok_bind] at hNf
    rw [towerNorm, eg, Go.ok_bind] at hNg
    rw [NtruSolve, if_neg (by omega), ef, Go.ok_bind, eg, Go.ok_bind, ih fp gp lf lg hNf hNg m (by omega)]
    rfl

/-- C41: for degrees 2..1024, `ErrEquation` is the outcome (given enough steps) exactly when the gcd of the two norms is not 1
modulo `2^64`, whatever the floating-point operations do. -/
theorem C41_iff (O : FloatOps) (k : Nat) (h1 : 1 ≤ k) (hk : k ≤ 10) (f g : List Int) (hf : f.length = 2 ^ k)
    (hg : g.length = 2 ^ k) (Nf Ng : Int) (hNf : IsNorm (2 ^ k) (polyZ f) Nf) (hNg : IsNorm (2 ^ k) (polyZ g) Ng) :
    (∃ fuel, NtruSolve O fuel f g = .ok none) ↔ Int.gcd Nf Ng % 2 ^ 64 ≠ 1 := by
  have t1 := towerNorm_of_isNorm k f hf Nf hNf
  have t2 := towerNorm_of_isNorm k g hg Ng hNg
  obtain ⟨k, rfl⟩ : ∃ j, k = j + 1 := ⟨k - 1, by omega⟩
  have e := xgcd_eq_gcd k f g hf hg Nf Ng t1 t2
  constructor
  · rintro ⟨fuel, h⟩
    have := (NtruSolve_ok (O := O) (k + 1) hk f g hf hg Nf Ng t1 t2 fuel).2.1 h
    rw [e, Ne, bigInt64_eq_one] at this
    omega
  · intro h
    refine ⟨k + 2, NtruSolve_none O (k + 1) f g hf hg Nf Ng t1 t2 ?_ _ (by omega)⟩
    rw [e, Ne, bigInt64_eq_one]
    omega

/-- C41: if the norms are coprime, every result `NtruSolve` returns is a solution of the NTRU equation. -/
theorem C41_coprime (O : FloatOps) (k : Nat) (h1 : 1 ≤ k) (hk : k ≤ 10) (f g : List Int) (hf : f.length = 2 ^ k)
    (hg : g.length = 2 ^ k) (Nf Ng : Int) (hNf : IsNorm (2 ^ k) (polyZ f) Nf) (hNg : IsNorm (2 ^ k) (polyZ g) Ng)
    (hco : IsCoprime Nf Ng) (fuel : Nat) (r) (h : NtruSolve O fuel f g = .ok r) :
    ∃ F G, r = some (F, G) ∧ F.length = 2 ^ k ∧ G.length = 2 ^ k ∧ CongrZ (2 ^ k) (ntruDet f g F G) (C 12289) := by
  have hg1 := Int.isCoprime_iff_gcd_eq_one.1 hco
  cases r with
  | none =>
    have := (C41_iff O k h1 hk f g hf hg Nf Ng hNf hNg).1 ⟨fuel, h⟩
    rw [hg1] at this
    exact absurd rfl this
  | some FG =>
    exact ⟨FG.1, FG.2, rfl, C40_solution_partial O k h1 hk f g hf hg Nf Ng hNf hNg (by rw [hg1]; decide) fuel FG.1 FG.2 h⟩

/-- C41: in degree 1 coprime inputs can be rejected, because `xgcd` may return -1. -/
theorem C41_degree1 (O : FloatOps) (fuel : Nat) : NtruSolve O (fuel + 1) [3] [-1] = .ok none ∧ Int.gcd 3 (-1) = 1 := by
  constructor
  · rw [NtruSolve, if_pos (by simp)]
    simp only [idx, List.getElem?_cons_zero, Go.ok_bind]
    rw [if_pos (by decide +kernel)]
    rfl
  · decide

/-- The degree-2 key of the known-answer tests (signKAT.go) has coprime norms and satisfies the equation. -/
example : towerNorm 1 [72, -37] = .ok 6553 ∧ towerNorm 1 [73, -4] = .ok 5345 ∧ Int.gcd 6553 5345 = 1 := by decide +kernel
example : CongrZ (2 ^ 1) (ntruDet [72, -37] [73, -4] [-80, 11] [65, 49]) (C 12289) := by
  refine ⟨C (-1769), ?_⟩
  unfold ntruDet polyZ
  simp
  ring

/-- A case of C41 in which the norms have a common factor: `f = 2`, `g = 2x`. -/
example (O : FloatOps) : NtruSolve O 3 [2, 0] [0, 2] = .ok none :=
  NtruSolve_none O 1 [2, 0] [0, 2] rfl rfl 4 4 (by decide +kernel) (by decide +kernel) (by decide +kernel) 3 (by decide)

end Falcon
