import Verif.Props.EquationAll
import Verif.Props.KeySize
/-!
# The NTRU equation at degrees up to 8 (C42)

At degrees 2, 4 and 8 the norms of `f` and `g` are below `2^64`, so that the low 64 bits of their greatest common divisor decide.
-/

namespace Falcon
open Spec Polynomial ComplexConjugate F64

theorem prod_range_pairs (m : Nat) (u : Nat → ℝ) : ∏ i ∈ Finset.range (2 * m), u i = ∏ i ∈ Finset.range m, (u (2 * i) * u (2 * i + 1)) := by
  induction m with
  | zero => simp
  | succ m ih =>
    rw [show 2 * (m + 1) = 2 * m + 1 + 1 by ring, Finset.prod_range_succ, Finset.prod_range_succ, ih, Finset.prod_range_succ]
    ring

/-- The inequality of the arithmetic and geometric means, for `2^k` numbers. -/
theorem means (k : Nat) (u : Nat → ℝ) (h : ∀ i, 0 ≤ u i) :
    ∏ i ∈ Finset.range (2 ^ k), u i ≤ ((∑ i ∈ Finset.range (2 ^ k), u i) / 2 ^ k) ^ 2 ^ k := by
  induction k generalizing u with
  | zero => simp
  | succ k ih =>
    have e : (2 : Nat) ^ (k + 1) = 2 * 2 ^ k := by ring
    rw [e, prod_range_pairs, sum_range_pairs]
    have h1 := ih (fun i => (u (2 * i) + u (2 * i + 1)) / 2) fun i => by have := h (2 * i); have := h (2 * i + 1); positivity
    have h2 : ∏ i ∈ Finset.range (2 ^ k), (u (2 * i) * u (2 * i + 1)) ≤ ∏ i ∈ Finset.range (2 ^ k), ((u (2 * i) + u (2 * i + 1)) / 2) ^ 2 :=
      Finset.prod_le_prod (fun i _ => mul_nonneg (h _) (h _)) fun i _ => by nlinarith [sq_nonneg (u (2 * i) - u (2 * i + 1))]
    rw [Finset.prod_pow] at h2
    have h3 := pow_le_pow_left₀ (Finset.prod_nonneg fun i _ => by have := h (2 * i); have := h (2 * i + 1); positivity) h1 2
    refine h2.trans (h3.trans (le_of_eq ?_))
    rw [← pow_mul, mul_comm (2 ^ k) 2, ← Finset.sum_div, div_div, pow_succ' (2 : ℝ) k]

theorem roots_eq (k : Nat) : (X ^ 2 ^ k + 1 : ℂ[X]).roots = (rootsC k : Multiset ℂ) := by
  have hmonic : (X ^ 2 ^ k + 1 : ℂ[X]).Monic := by
    simpa using monic_X_pow_add_C (1 : ℂ) (Nat.two_pow_pos k).ne'
  symm
  apply Multiset.eq_of_le_of_card_le
  · rw [Multiset.le_iff_subset (Multiset.coe_nodup.2 (rootsC_nodup k))]
    intro w hw
    rw [mem_roots hmonic.ne_zero]
    simp [rootsC_root k w (Multiset.mem_coe.1 hw)]
  · refine (card_roots' _).trans ?_
    rw [Multiset.coe_card, rootsC_length]
    exact (natDegree_X_pow_add_C (n := 2 ^ k) (r := (1 : ℂ))).le

/-- The norm of `f` is at most `|f|^n`. -/
theorem norm_le (k : Nat) (h1 : 1 ≤ k) (f : List Int) (hf : f.length = 2 ^ k) (N : Int) (hN : IsNorm (2 ^ k) (polyZ f) N) :
    |(N : ℝ)| ≤ sqNorm (realI f) ^ 2 ^ (k - 1) := by
  unfold IsNorm at hN
  rw [roots_eq, Multiset.map_coe, Multiset.prod_coe] at hN
  have h2 := congrArg Complex.normSq hN
  have e1 : Complex.normSq ((N : ℂ)) = (N : ℝ) ^ 2 := by
    rw [Complex.normSq_eq_norm_sq, Complex.norm_intCast, sq_abs]
  have e2 : ∀ L : List ℂ, Complex.normSq (L.map fun w => (polyZ f).eval₂ (Int.castRingHom ℂ) w).prod = (L.map fun w => Complex.normSq (evalR (realI f) w)).prod := by
    intro L
    induction L with
    | nil => simp
    | cons w L ih =>
      rw [List.map_cons, List.prod_cons, List.map_cons, List.prod_cons, Complex.normSq_mul, ih, realI_eval₂]
  have e3 : ((rootsC k).map fun w => Complex.normSq (evalR (realI f) w)).prod =
      ∏ i ∈ Finset.range (2 ^ k), Complex.normSq (evalR (realI f) (rootC k i)) := by
    unfold rootsC
    rw [List.map_map, Finset.prod_eq_multiset_prod, Finset.range_val, Multiset.range, Multiset.map_coe, Multiset.prod_coe]
    rfl
  rw [e1, e2, e3] at h2
  have h3 := means k (fun i => Complex.normSq (evalR (realI f) (rootC k i))) fun i => Complex.normSq_nonneg _
  rw [parseval k _ (by simp [realI, hf]), mul_div_cancel_left₀ _ (by positivity), ← h2] at h3
  have h4 : (2 : Nat) ^ k = 2 ^ (k - 1) * 2 := by rw [← pow_succ, Nat.sub_add_cancel h1]
  rw [h4, pow_mul] at h3
  exact abs_le_of_sq_le_sq h3 (pow_nonneg (sqNorm_nonneg _) _)

/-- At degrees up to 8 the greatest common divisor of the norms of a short pair is below `2^64`. -/
theorem gcd_small (k : Nat) (h1 : 1 ≤ k) (h2 : k ≤ 3) (f g : List Int) (hf : f.length = 2 ^ k) (hg : g.length = 2 ^ k)
    (hn : sqNorm (realI f) + sqNorm (realI g) ≤ 16823) (Nf Ng : Int) (nf : IsNorm (2 ^ k) (polyZ f) Nf) (ng : IsNorm (2 ^ k) (polyZ g) Ng) :
    Int.gcd Nf Ng ≤ 2 ^ 64 := by
  have q1 := sqNorm_nonneg (realI f)
  have q2 := sqNorm_nonneg (realI g)
  have key : ∀ (l : List Int) (N : Int), l.length = 2 ^ k → sqNorm (realI l) ≤ 16823 → IsNorm (2 ^ k) (polyZ l) N → N.natAbs ≤ 2 ^ 64 := by
    intro l N hl hq hN
    have h3 := norm_le k h1 l hl N hN
    have h4 : (2 : Nat) ^ (k - 1) ≤ 4 := by
      calc 2 ^ (k - 1) ≤ 2 ^ 2 := Nat.pow_le_pow_right (by decide) (by omega)
        _ = 4 := rfl
    have h5 : sqNorm (realI l) ^ 2 ^ (k - 1) ≤ 16823 ^ 4 :=
      (pow_le_pow_left₀ (sqNorm_nonneg _) hq _).trans (pow_le_pow_right₀ (by norm_num) h4)
    have h6 : |(N : ℝ)| ≤ 2 ^ 64 := h3.trans (h5.trans (by norm_num))
    have h7 : |N| ≤ 2 ^ 64 := by exact_mod_cast h6
    rw [Int.abs_eq_natAbs] at h7
    exact_mod_cast h7
  have b1 := key f Nf hf (by linarith) nf
  have b2 := key g Ng hg (by linarith) ng
  unfold Int.gcd
  rcases Nat.eq_zero_or_pos Nf.natAbs with h | h
  · rw [h, Nat.gcd_zero_left]
    exact b2
  · exact (Nat.gcd_le_left _ h).trans b1

/-- C42 at degrees 2, 4 and 8, in exact arithmetic: every generated key satisfies the NTRU equation over the integers. -/
theorem C42_small_exact (rand : Rand) (fuel : Nat) (n : UInt16) (pos : Nat) (key : PrivateKey) (pos' : Nat) (hn : n.toNat ≤ 8)
    (h : GeneratePrivateKey exactOps rand fuel n pos = .ok (.ok (key, pos'))) :
    CongrZ n.toNat (ntruDet (int16ToBigInt key.f) (int16ToBigInt key.g) (int16ToBigInt key.F) (int16ToBigInt key.G)) (C 12289) := by
  refine (C57_generated rand fuel n pos key pos' h ?_).1
  obtain ⟨⟨k, h1, h2, hk⟩, hkn, hq⟩ := GeneratePrivateKey_ok exactOps rand fuel n pos key pos' h
  obtain ⟨-, l1, l2, -⟩ := C42_mod16_partial exactOps rand fuel n pos key pos' h
  obtain ⟨hnorm, -⟩ := C56_generated rand fuel n pos key pos' h
  rw [hk] at l1 l2 hn ⊢
  have h3 : k ≤ 3 := by
    by_contra hc
    have := Nat.pow_le_pow_right (n := 2) (by decide) (show 4 ≤ k by omega)
    omega
  intro Nf Ng nf ng
  refine gcd_small k h1 h3 _ _ (by simp [int16ToBigInt, l1]) (by simp [int16ToBigInt, l2]) ?_ Nf Ng nf ng
  have e : ∀ l : List Int16, realI (int16ToBigInt l) = realOf l := fun l => by simp [realI, int16ToBigInt, realOf]
  rw [e, e]
  exact hnorm.trans (by norm_num)

/-- C42 at degrees 2, 4 and 8 in IEEE arithmetic: no hypothesis on the norms is needed. -/
theorem C42_small_ieee (rand : Rand) (fuel : Nat) (n : UInt16) (pos : Nat) (key : PrivateKey) (pos' : Nat) (hn : n.toNat ≤ 8)
    (h : GeneratePrivateKey ieeeOps rand fuel n pos = .ok (.ok (key, pos')))
    (hd : ∀ w : ℂ, w ^ n.toNat = -1 → 1 / 10 ≤ gramAt (int16ToBigInt key.f) (int16ToBigInt key.g) w) :
    CongrZ n.toNat (ntruDet (int16ToBigInt key.f) (int16ToBigInt key.g) (int16ToBigInt key.F) (int16ToBigInt key.G)) (C 12289) ∧
    ∀ v ∈ key.F ++ key.G, -11000 ≤ v.toInt ∧ v.toInt ≤ 11000 := by
  refine C67_generated rand fuel n pos key pos' h hd ?_
  obtain ⟨⟨k, h1, h2, hk⟩, hkn, hq⟩ := GeneratePrivateKey_ok ieeeOps rand fuel n pos key pos' h
  obtain ⟨-, l1, l2, -⟩ := C42_mod16_partial ieeeOps rand fuel n pos key pos' h
  obtain ⟨hnorm, -⟩ := C68_generated rand fuel n pos key pos' h hd
  rw [hk] at l1 l2 hn ⊢
  have h3 : k ≤ 3 := by
    by_contra hc
    have := Nat.pow_le_pow_right (n := 2) (by decide) (show 4 ≤ k by omega)
    omega
  intro Nf Ng nf ng
  refine gcd_small k h1 h3 _ _ (by simp [int16ToBigInt, l1]) (by simp [int16ToBigInt, l2]) ?_ Nf Ng nf ng
  have e : ∀ l : List Int16, realI (int16ToBigInt l) = realOf l := fun l => by simp [realI, int16ToBigInt, realOf]
  rw [e, e]
  exact hnorm.trans (by norm_num)

/-- C42 at degree 2 in IEEE arithmetic, without hypotheses: every generated key satisfies the NTRU equation over the integers, and the coefficients of
`F` and `G` are at most 11000. -/
theorem C42_degree2 (rand : Rand) (fuel pos : Nat) (key : PrivateKey) (pos' : Nat) (h : GeneratePrivateKey ieeeOps rand fuel 2 pos = .ok (.ok (key, pos'))) :
    CongrZ 2 (ntruDet (int16ToBigInt key.f) (int16ToBigInt key.g) (int16ToBigInt key.F) (int16ToBigInt key.G)) (C 12289) ∧
    ∀ v ∈ key.F ++ key.G, -11000 ≤ v.toInt ∧ v.toInt ≤ 11000 := by
  refine C42_small_ieee rand fuel 2 pos key pos' (by decide) h fun w hw => ?_
  obtain ⟨-, l1, l2, -⟩ := C42_mod16_partial ieeeOps rand fuel 2 pos key pos' h
  obtain ⟨⟨u, c, hc⟩, -⟩ := C43_public_key ieeeOps rand fuel 2 pos key pos' h
  obtain ⟨n, f, g, F, G⟩ := key
  simp only at *
  match f, l1, g, l2 with
  | [a, b], _, [a', b'], _ =>
    have e : gramAt (int16ToBigInt [a, b]) (int16ToBigInt [a', b']) w = _ := gramAt_two a.toInt b.toInt a'.toInt b'.toInt w hw
    rw [e]
    have h0 : a.toInt ≠ 0 ∨ b.toInt ≠ 0 := by
      by_contra hn
      push Not at hn
      have z : polyQ [a, b] = 0 := by simp [polyQ, zq, hn.1, hn.2]
      rw [z, zero_mul, zero_sub] at hc
      have hd : (X ^ (2 : UInt16).toNat + 1 : Zq[X]) ∣ 1 := ⟨-c, by linear_combination -hc⟩
      have h3 := natDegree_eq_zero_of_isUnit (isUnit_of_dvd_one hd)
      have h4 : (X ^ (2 : UInt16).toNat + 1 : Zq[X]).natDegree = 2 := natDegree_X_pow_add_C (n := 2) (r := (1 : Zq))
      omega
    have h1 := sq_ne a.toInt b.toInt h0
    rw [← pow_two, ← pow_two] at h1
    have n0 : 0 ≤ a.toInt ^ 2 := sq_nonneg _
    have n1 : 0 ≤ b.toInt ^ 2 := sq_nonneg _
    have n2 : 0 ≤ a'.toInt ^ 2 := sq_nonneg _
    have n3 : 0 ≤ b'.toInt ^ 2 := sq_nonneg _
    have h5 : 1 ≤ a.toInt ^ 2 + b.toInt ^ 2 + a'.toInt ^ 2 + b'.toInt ^ 2 := by omega
    have h6 : (1 : ℝ) ≤ ((a.toInt ^ 2 + b.toInt ^ 2 + a'.toInt ^ 2 + b'.toInt ^ 2 : Int) : ℝ) := by exact_mod_cast h5
    linarith

/-- The runs of degree 2 in exact and in IEEE arithmetic. -/
example : CongrZ 2 (ntruDet [72, 5] [60, 31] [-40, 31] [124, 0]) (C 12289) :=
  (C42_small_exact runRand 20 2 0 _ _ (by decide) exact_run_key :)

example : CongrZ 2 (ntruDet [72, 5] [60, 31] [-40, 31] [124, 0]) (C 12289) :=
  (C42_small_ieee runRand 20 2 0 _ _ (by decide) ieee_run_key ieee_run_gram).1

example : CongrZ 2 (ntruDet [72, 5] [60, 31] [-40, 31] [124, 0]) (C 12289) := (C42_degree2 runRand 20 0 _ _ ieee_run_key).1

end Falcon
