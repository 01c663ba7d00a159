import Verif.Props.Lattice
import Verif.Props.HaltIeee
import Verif.Lemmas.Parity
import Verif.Props.GsFloat
import Verif.Props.Determ
import Mathlib.GroupTheory.OrderOfElement
/-!
# Which private keys belong to a public key (C91)
-/

namespace Falcon
open Spec Polynomial ComplexConjugate

/-- C91: two private keys with invertible `f` have the same public key exactly when `f g' = f' g` modulo `q`. -/
theorem C91_same (k : Nat) (h1 : 1 ≤ k) (h2 : k ≤ 10) (key key' : PrivateKey) (hn : key.n = key'.n) (hf : key.f.length = 2 ^ k) (hg : key.g.length = 2 ^ k)
    (hf' : key'.f.length = 2 ^ k) (hg' : key'.g.length = 2 ^ k) (hu : ∃ u : Zq[X], (X ^ 2 ^ k + 1 : Zq[X]) ∣ polyQ key.f * u - 1)
    (hu' : ∃ u : Zq[X], (X ^ 2 ^ k + 1 : Zq[X]) ∣ polyQ key'.f * u - 1) :
    GetPublicKey key = GetPublicKey key' ↔ (X ^ 2 ^ k + 1 : Zq[X]) ∣ polyQ key.f * polyQ key'.g - polyQ key'.f * polyQ key.g := by
  obtain ⟨h, e, l, r, d⟩ := (C30_public_key k h1 h2 key hf hg).1 hu
  obtain ⟨h', e', l', r', d'⟩ := (C30_public_key k h1 h2 key' hf' hg').1 hu'
  constructor
  · intro he
    rw [e, e', Go.ok.injEq, PublicKey.mk.injEq] at he
    obtain ⟨-, rfl⟩ := he
    obtain ⟨c, hc⟩ := d
    obtain ⟨c', hc'⟩ := d'
    exact ⟨polyQ key'.f * c - polyQ key.f * c', by linear_combination polyQ key'.f * hc - polyQ key.f * hc'⟩
  · intro ⟨a, ha⟩
    rw [e, hn]
    refine (C30_unique k h1 h2 key' hf' hg' hu' h l r ?_).symm
    obtain ⟨u, b, hb⟩ := hu
    obtain ⟨c, hc⟩ := d
    exact ⟨u * polyQ key'.f * c - u * a - (polyQ h * polyQ key'.f - polyQ key'.g) * b,
      by linear_combination u * polyQ key'.f * hc - u * ha - (polyQ h * polyQ key'.f - polyQ key'.g) * hb⟩

/-! ### Rotations -/

/-- Multiplication by `x` in `Z[x]/(x^n+1)` on lists of coefficients. -/
def rot (f : List Int16) : List Int16 := -f.getLastD 0 :: f.dropLast

theorem rot_length (f : List Int16) (hf : f ≠ []) : (rot f).length = f.length := by
  have := List.length_pos_iff.2 hf
  simp [rot]
  omega

theorem neg_small (v : Int16) (h : v ≠ -32768) : (-v).toInt = -v.toInt ∧ -v ≠ -32768 := by
  have h1 : v.toInt ≠ -32768 := fun h2 => h (Int16.toInt_inj.1 h2)
  have h2 := v.le_toInt
  have h3 := v.toInt_lt
  have e : (-v).toInt = -v.toInt := by
    rw [Int16.toInt_neg, Int.bmod_eq_of_le] <;> omega
  refine ⟨e, fun h4 => ?_⟩
  have : (-v).toInt = -32768 := by rw [h4]; rfl
  omega

theorem rot_small (f : List Int16) (hf : f ≠ []) (h : ∀ v ∈ f, v ≠ -32768) : ∀ v ∈ rot f, v ≠ -32768 := by
  intro v hv
  rw [rot, List.mem_cons] at hv
  rcases hv with rfl | hv
  · refine (neg_small _ (h _ ?_)).2
    rw [List.getLastD_eq_getLast?, List.getLast?_eq_some_getLast hf]
    exact List.getLast_mem hf
  · exact h v (List.dropLast_subset f hv)

theorem rot_poly (f : List Int16) (hf : f ≠ []) (h : ∀ v ∈ f, v ≠ -32768) :
    CongrZ f.length (polyZ (int16ToBigInt (rot f))) (X * polyZ (int16ToBigInt f)) := by
  obtain ⟨l, a, rfl⟩ : ∃ l a, f = l ++ [a] := ⟨_, _, (List.dropLast_append_getLast hf).symm⟩
  have e := (neg_small a (h a (by simp))).1
  refine ⟨-C a.toInt, ?_⟩
  simp only [rot, int16ToBigInt, polyZ, List.getLastD_concat, List.dropLast_concat, List.map_cons, List.map_append, List.map_nil, poly_cons, poly_append, poly_nil,
    List.length_append, List.length_map, List.length_cons, List.length_nil, e, C_neg, pow_succ]
  ring

theorem rots (j : Nat) (f : List Int16) (hf : f ≠ []) (h : ∀ v ∈ f, v ≠ -32768) : (rot^[j] f).length = f.length ∧ (∀ v ∈ rot^[j] f, v ≠ -32768) ∧
    CongrZ f.length (polyZ (int16ToBigInt (rot^[j] f))) (X ^ j * polyZ (int16ToBigInt f)) := by
  induction j with
  | zero => exact ⟨rfl, h, by simp [CongrZ]⟩
  | succ j ih =>
    obtain ⟨l, s, c, hc⟩ := ih
    rw [Function.iterate_succ_apply']
    have hne : rot^[j] f ≠ [] := by
      rw [← List.length_pos_iff, l]
      exact List.length_pos_iff.2 hf
    obtain ⟨d, hd⟩ := rot_poly _ hne s
    rw [l] at hd
    exact ⟨(rot_length _ hne).trans l, rot_small _ hne s, d + X * c, by rw [pow_succ]; linear_combination hd + X * hc⟩

theorem rots_q (j : Nat) (n : Nat) (f : List Int16) (hf : f ≠ []) (h : ∀ v ∈ f, v ≠ -32768) (hn : f.length = n) :
    (X ^ n + 1 : Zq[X]) ∣ polyQ (rot^[j] f) - X ^ j * polyQ f := by
  obtain ⟨-, -, c, hc⟩ := rots j f hf h
  refine ⟨c.map (Int.castRingHom Zq), ?_⟩
  have := congrArg (Polynomial.map (Int.castRingHom Zq)) hc
  rw [hn] at this
  simpa [polyQ_map] using this

/-- Powers of `x` have period `2n`. -/
theorem X_period {A : Type*} [CommRing A] (n i j : Nat) (h : i + j = 2 * n) : (X ^ n + 1 : A[X]) ∣ X ^ i * X ^ j - 1 :=
  ⟨X ^ n - 1, by rw [← pow_add, h, two_mul, pow_add]; ring⟩

/-- C91: a key and its rotations by `x^j` have the same public key and all solve the NTRU equation if one does: a public key
does not determine the private key. -/
theorem C91_rotations (k : Nat) (h1 : 1 ≤ k) (h2 : k ≤ 10) (key : PrivateKey) (hf : key.f.length = 2 ^ k) (hg : key.g.length = 2 ^ k)
    (hF : key.F.length = 2 ^ k) (hG : key.G.length = 2 ^ k) (hs : ∀ v ∈ key.f ++ key.g ++ key.F ++ key.G, v ≠ -32768)
    (hu : ∃ u : Zq[X], (X ^ 2 ^ k + 1 : Zq[X]) ∣ polyQ key.f * u - 1) (i j : Nat) (hij : i + j = 2 * 2 ^ k) :
    GetPublicKey ⟨key.n, rot^[i] key.f, rot^[i] key.g, rot^[j] key.F, rot^[j] key.G⟩ = GetPublicKey key ∧
    (CongrZ (2 ^ k) (ntruDet (int16ToBigInt key.f) (int16ToBigInt key.g) (int16ToBigInt key.F) (int16ToBigInt key.G)) (C 12289) →
      CongrZ (2 ^ k) (ntruDet (int16ToBigInt (rot^[i] key.f)) (int16ToBigInt (rot^[i] key.g)) (int16ToBigInt (rot^[j] key.F)) (int16ToBigInt (rot^[j] key.G))) (C 12289)) := by
  simp only [List.mem_append] at hs
  have ne : ∀ l : List Int16, l.length = 2 ^ k → l ≠ [] := fun l hl => by
    rw [← List.length_pos_iff, hl]
    exact Nat.two_pow_pos k
  obtain ⟨lf, -, rf⟩ := rots i key.f (ne _ hf) fun v hv => hs v (by tauto)
  obtain ⟨lg, -, rg⟩ := rots i key.g (ne _ hg) fun v hv => hs v (by tauto)
  obtain ⟨lF, -, rF⟩ := rots j key.F (ne _ hF) fun v hv => hs v (by tauto)
  obtain ⟨lG, -, rG⟩ := rots j key.G (ne _ hG) fun v hv => hs v (by tauto)
  obtain ⟨cf, ef⟩ := rots_q i _ key.f (ne _ hf) (fun v hv => hs v (by tauto)) hf
  obtain ⟨cg, eg⟩ := rots_q i _ key.g (ne _ hg) (fun v hv => hs v (by tauto)) hg
  rw [hf] at rf
  rw [hg] at rg
  rw [hF] at rF
  rw [hG] at rG
  constructor
  · refine (C91_same k h1 h2 ⟨key.n, rot^[i] key.f, rot^[i] key.g, rot^[j] key.F, rot^[j] key.G⟩ key rfl (lf.trans hf) (lg.trans hg) hf hg ?_ hu).2 ?_
    · obtain ⟨u, c, hc⟩ := hu
      obtain ⟨p, hp⟩ := X_period (A := Zq) (2 ^ k) i j hij
      exact ⟨u * X ^ j, u * X ^ j * cf + p * (1 + (X ^ 2 ^ k + 1) * c) + c, by
        simp only
        linear_combination u * X ^ j * ef + X ^ i * X ^ j * hc + (1 + (X ^ 2 ^ k + 1) * c) * hp⟩
    · exact ⟨polyQ key.g * cf - polyQ key.f * cg, by
        simp only
        linear_combination polyQ key.g * ef - polyQ key.f * eg⟩
  · intro ⟨t, ht⟩
    obtain ⟨a, ha⟩ := rf
    obtain ⟨b, hb⟩ := rg
    obtain ⟨c, hc⟩ := rF
    obtain ⟨d, hd⟩ := rG
    obtain ⟨p, hp⟩ := X_period (A := ℤ) (2 ^ k) i j hij
    unfold ntruDet at ht ⊢
    refine ⟨polyZ (int16ToBigInt (rot^[j] key.G)) * a + X ^ i * polyZ (int16ToBigInt key.f) * d - polyZ (int16ToBigInt (rot^[j] key.F)) * b -
      X ^ i * polyZ (int16ToBigInt key.g) * c + p * (C 12289 + (X ^ 2 ^ k + 1) * t) + t, ?_⟩
    linear_combination polyZ (int16ToBigInt (rot^[j] key.G)) * ha + X ^ i * polyZ (int16ToBigInt key.f) * hd - polyZ (int16ToBigInt (rot^[j] key.F)) * hb -
      X ^ i * polyZ (int16ToBigInt key.g) * hc + X ^ i * X ^ j * ht + (C 12289 + (X ^ 2 ^ k + 1) * t) * hp

/-- A root of `x^n+1` has order `2n`. -/
theorem root_order (k : Nat) (w : ℂ) (hw : w ∈ rootsC k) (d : Nat) (h0 : 0 < d) (hd : d < 2 * 2 ^ k) : w ^ d ≠ 1 := by
  have h1 := (mem_rootsC k w).1 hw
  have ho : orderOf w = 2 ^ (k + 1) := orderOf_eq_prime_pow (by rw [h1]; norm_num) (by rw [pow_succ, pow_mul, h1]; norm_num)
  intro h
  have := Nat.le_of_dvd h0 (orderOf_dvd_of_pow_eq_one h)
  rw [ho, pow_succ] at this
  omega

theorem evalI (f : List Int) (w : ℂ) : evalR (realI f) w = (polyZ f).eval₂ (Int.castRingHom ℂ) w := by
  rw [evalR_eq, poly_realI, eval₂_map]
  rfl

theorem congr_evalI (k : Nat) (p q : ℤ[X]) (h : CongrZ (2 ^ k) p q) (w : ℂ) (hw : w ∈ rootsC k) :
    p.eval₂ (Int.castRingHom ℂ) w = q.eval₂ (Int.castRingHom ℂ) w := by
  obtain ⟨c, hc⟩ := h
  rw [← sub_eq_zero, ← eval₂_sub, hc, eval₂_mul]
  simp [(mem_rootsC k w).1 hw]

/-- The `2n` rotations of a non-zero polynomial are different. -/
theorem C91_distinct (k : Nat) (f : List Int16) (hf : f.length = 2 ^ k) (hs : ∀ v ∈ f, v ≠ -32768) (h0 : ∃ v ∈ f, v ≠ 0) (i j : Nat) (hij : i < j)
    (hj : j < 2 * 2 ^ k) : rot^[i] f ≠ rot^[j] f := by
  intro he
  have ne : f ≠ [] := by
    rw [← List.length_pos_iff, hf]
    exact Nat.two_pow_pos k
  obtain ⟨-, -, ri⟩ := rots i f ne hs
  obtain ⟨-, -, rj⟩ := rots j f ne hs
  rw [hf] at ri rj
  have z : ∀ w ∈ rootsC k, evalR (realI (int16ToBigInt f)) w = 0 := by
    intro w hw
    have e1 := congr_evalI k _ _ ri w hw
    have e2 := congr_evalI k _ _ rj w hw
    rw [← he, e1] at e2
    simp only [eval₂_mul, eval₂_pow, eval₂_X, ← evalI] at e2
    have hw0 : w ≠ 0 := fun h => by
      have := (mem_rootsC k w).1 hw
      rw [h, zero_pow (by positivity)] at this
      norm_num at this
    rw [show j = i + (j - i) by omega, pow_add, mul_assoc] at e2
    have e3 := mul_left_cancel₀ (pow_ne_zero i hw0) e2
    by_contra hc
    exact root_order k w hw (j - i) (by omega) (by omega) (mul_right_cancel₀ hc (by rw [← e3, one_mul]))
  have p := parseval k (realI (int16ToBigInt f)) (by simp [realI, int16ToBigInt, hf])
  have hz : ∑ i ∈ Finset.range (2 ^ k), Complex.normSq (evalR (realI (int16ToBigInt f)) (rootC k i)) = 0 := by
    apply Finset.sum_eq_zero
    intro a ha
    rw [z _ (by simp only [rootsC, List.mem_map]; exact ⟨a, List.mem_range.2 (Finset.mem_range.1 ha), rfl⟩), map_zero]
  rw [hz] at p
  have k0 : (0 : ℝ) < 2 ^ k := by positivity
  have q : sqNorm (realI (int16ToBigInt f)) = 0 := by
    rcases mul_eq_zero.1 p.symm with h | h
    · exact absurd h k0.ne'
    · exact h
  obtain ⟨v, hv, hv0⟩ := h0
  have := sq_le_sqNorm (realI (int16ToBigInt f)) (v.toInt : ℝ) (List.mem_map_of_mem (List.mem_map_of_mem hv))
  rw [q] at this
  have h3 : (v.toInt : ℝ) = 0 := by nlinarith [sq_nonneg (v.toInt : ℝ)]
  exact hv0 (Int16.toInt_inj.1 (by exact_mod_cast h3))

/-! ### Short keys with the same public key -/

theorem evalR_set (p : List ℝ) (i : Nat) (hi : i < p.length) (v : ℝ) (w : ℂ) : evalR (p.set i v) w = evalR p w + (v - p[i]) * w ^ i := by
  induction p generalizing i with
  | nil => simp at hi
  | cons a p ih =>
    cases i with
    | zero =>
      simp [evalR_cons]
      ring
    | succ i =>
      simp only [List.set_cons_succ, evalR_cons, List.getElem_cons_succ]
      rw [ih i (by simpa using hi)]
      ring

theorem sqNorm_set (p : List ℝ) (i : Nat) (hi : i < p.length) (v : ℝ) : sqNorm (p.set i v) = sqNorm p + v ^ 2 - p[i] ^ 2 := by
  have e : ∀ (x : ℝ) (l : List ℝ), sqNorm (x :: l) = x ^ 2 + sqNorm l := fun x l => by simp [sqNorm]
  induction p generalizing i with
  | nil => simp at hi
  | cons a p ih =>
    cases i with
    | zero =>
      simp only [List.set_cons_zero, e, List.getElem_cons_zero]
      ring
    | succ i =>
      simp only [List.set_cons_succ, e, List.getElem_cons_succ]
      rw [ih i (by simpa using hi)]
      ring

/-- A coefficient is at most the average of the absolute values at the roots. -/
theorem coef_avg (k : Nat) (p : List ℝ) (hp : p.length = 2 ^ k) (i : Nat) (hi : i < p.length) :
    2 ^ k * |p[i]| ≤ ∑ j ∈ Finset.range (2 ^ k), ‖evalR p (rootC k j)‖ := by
  have one : ∀ s : ℝ, s ^ 2 = 1 → 2 ^ k * (s * p[i]) ≤ ∑ j ∈ Finset.range (2 ^ k), ‖evalR p (rootC k j)‖ := by
    intro s hs
    have p1 := parseval k (p.set i (p[i] + s)) (by rw [List.length_set, hp])
    have p2 := parseval k p hp
    rw [sqNorm_set p i hi] at p1
    have p3 : ∑ j ∈ Finset.range (2 ^ k), Complex.normSq (evalR (p.set i (p[i] + s)) (rootC k j)) ≤
        ∑ j ∈ Finset.range (2 ^ k), (Complex.normSq (evalR p (rootC k j)) + 2 * ‖evalR p (rootC k j)‖ + 1) := by
      apply Finset.sum_le_sum
      intro j hj
      have w1 := rootsC_norm k (rootC k j) (by simp only [rootsC, List.mem_map]; exact ⟨j, List.mem_range.2 (Finset.mem_range.1 hj), rfl⟩)
      rw [evalR_set p i hi, Complex.normSq_eq_norm_sq, Complex.normSq_eq_norm_sq]
      have h3 := norm_add_le (evalR p (rootC k j)) (((p[i] + s : ℝ) - p[i] : ℂ) * rootC k j ^ i)
      have h4 : ‖((p[i] + s : ℝ) - p[i] : ℂ) * rootC k j ^ i‖ = 1 := by
        rw [norm_mul, norm_pow, w1, one_pow, mul_one, ← Complex.ofReal_sub, add_sub_cancel_left, Complex.norm_real, Real.norm_eq_abs]
        exact (pow_eq_one_iff_of_nonneg (abs_nonneg s) two_ne_zero).1 (by rw [sq_abs, hs])
      rw [h4] at h3
      have := pow_le_pow_left₀ (norm_nonneg _) h3 2
      linarith
    rw [p1, Finset.sum_add_distrib, Finset.sum_add_distrib, p2, ← Finset.mul_sum, Finset.sum_const, Finset.card_range, nsmul_eq_mul] at p3
    push_cast at p3
    rw [show sqNorm p + (p[i] + s) ^ 2 - p[i] ^ 2 = sqNorm p + 2 * (s * p[i]) + 1 by linear_combination hs] at p3
    linarith
  rcases abs_choice p[i] with h | h
  · rw [h]
    simpa using one 1 (by norm_num)
  · rw [h]
    simpa using one (-1) (by norm_num)

/-- The coefficients of `f g' - f' g` are at most the product of the norms of the two pairs. -/
theorem cross_le (k : Nat) (f g f' g' c : List Int) (hf : f.length = 2 ^ k) (hg : g.length = 2 ^ k) (hf' : f'.length = 2 ^ k) (hg' : g'.length = 2 ^ k)
    (hc : c.length = 2 ^ k) (h : CongrZ (2 ^ k) (polyZ f * polyZ g' - polyZ f' * polyZ g) (polyZ c)) (B : ℝ) (hB : sqNorm (realI f) + sqNorm (realI g) ≤ B)
    (hB' : sqNorm (realI f') + sqNorm (realI g') ≤ B) : ∀ x ∈ c, |(x : ℝ)| ≤ B := by
  intro x hx
  obtain ⟨i, hi, rfl⟩ := List.getElem_of_mem hx
  have len : ∀ l : List Int, l.length = 2 ^ k → (realI l).length = 2 ^ k := fun l hl => by simp [realI, hl]
  have h3 := coef_avg k (realI c) (len c hc) i (by simpa [realI] using hi)
  have e : (realI c)[i]'(by simpa [realI] using hi) = (c[i] : ℝ) := by simp [realI]
  rw [e] at h3
  have p1 := parseval k _ (len f hf)
  have p2 := parseval k _ (len g hg)
  have p3 := parseval k _ (len f' hf')
  have p4 := parseval k _ (len g' hg')
  have h4 : ∑ j ∈ Finset.range (2 ^ k), ‖evalR (realI c) (rootC k j)‖ ≤ ∑ j ∈ Finset.range (2 ^ k), 1 / 2 * (Complex.normSq (evalR (realI f) (rootC k j)) +
      Complex.normSq (evalR (realI g) (rootC k j)) + Complex.normSq (evalR (realI f') (rootC k j)) + Complex.normSq (evalR (realI g') (rootC k j))) := by
    apply Finset.sum_le_sum
    intro j hj
    have hw : rootC k j ∈ rootsC k := by simp only [rootsC, List.mem_map]; exact ⟨j, List.mem_range.2 (Finset.mem_range.1 hj), rfl⟩
    have e1 := congr_evalI k _ _ h _ hw
    rw [eval₂_sub, eval₂_mul, eval₂_mul, ← evalI, ← evalI, ← evalI, ← evalI, ← evalI] at e1
    rw [← e1]
    have h5 := norm_sub_le (evalR (realI f) (rootC k j) * evalR (realI g') (rootC k j)) (evalR (realI f') (rootC k j) * evalR (realI g) (rootC k j))
    rw [norm_mul, norm_mul] at h5
    simp only [Complex.normSq_eq_norm_sq]
    nlinarith [sq_nonneg (‖evalR (realI f) (rootC k j)‖ - ‖evalR (realI g') (rootC k j)‖), sq_nonneg (‖evalR (realI f') (rootC k j)‖ - ‖evalR (realI g) (rootC k j)‖)]
  rw [← Finset.mul_sum, Finset.sum_add_distrib, Finset.sum_add_distrib, Finset.sum_add_distrib, p1, p2, p3, p4] at h4
  have k0 : (0 : ℝ) < 2 ^ k := by positivity
  apply le_of_mul_le_mul_left _ k0
  nlinarith

/-- C91: two keys with the same public key and squared norms within the bound of the quality check satisfy `f g' - f' g = q e` over the integers for a polynomial `e`
with coefficients -1, 0 and 1. If the first solves the NTRU equation, the second is `z (f, g) + e (F, G)` for some `z`. -/
theorem C91_short (k : Nat) (h1 : 1 ≤ k) (h2 : k ≤ 10) (key key' : PrivateKey) (hn : key.n = key'.n) (hf : key.f.length = 2 ^ k) (hg : key.g.length = 2 ^ k)
    (hf' : key'.f.length = 2 ^ k) (hg' : key'.g.length = 2 ^ k) (hu : ∃ u : Zq[X], (X ^ 2 ^ k + 1 : Zq[X]) ∣ polyQ key.f * u - 1)
    (hu' : ∃ u : Zq[X], (X ^ 2 ^ k + 1 : Zq[X]) ∣ polyQ key'.f * u - 1) (hp : GetPublicKey key = GetPublicKey key')
    (hb : sqNorm (realI (int16ToBigInt key.f)) + sqNorm (realI (int16ToBigInt key.g)) ≤ 1.17 ^ 2 * 12289)
    (hb' : sqNorm (realI (int16ToBigInt key'.f)) + sqNorm (realI (int16ToBigInt key'.g)) ≤ 1.17 ^ 2 * 12289) :
    ∃ e : List Int, e.length = 2 ^ k ∧ (∀ x ∈ e, -1 ≤ x ∧ x ≤ 1) ∧
      CongrZ (2 ^ k) (polyZ (int16ToBigInt key.f) * polyZ (int16ToBigInt key'.g) - polyZ (int16ToBigInt key'.f) * polyZ (int16ToBigInt key.g)) (C 12289 * polyZ e) ∧
      (CongrZ (2 ^ k) (ntruDet (int16ToBigInt key.f) (int16ToBigInt key.g) (int16ToBigInt key.F) (int16ToBigInt key.G)) (C 12289) → ∃ z : ℤ[X],
        CongrZ (2 ^ k) (polyZ (int16ToBigInt key'.f)) (z * polyZ (int16ToBigInt key.f) + polyZ e * polyZ (int16ToBigInt key.F)) ∧
        CongrZ (2 ^ k) (polyZ (int16ToBigInt key'.g)) (z * polyZ (int16ToBigInt key.g) + polyZ e * polyZ (int16ToBigInt key.G))) := by
  have hd := (C91_same k h1 h2 key key' hn hf hg hf' hg' hu hu').1 hp
  rw [← polyQ_map, ← polyQ_map, ← polyQ_map, ← polyQ_map, ← Polynomial.map_mul, ← Polynomial.map_mul, ← Polynomial.map_sub] at hd
  obtain ⟨a, z, hz⟩ := lift_q (2 ^ k) _ hd
  obtain ⟨e, le, t, ht⟩ := exists_modZ k z
  have hcon : CongrZ (2 ^ k) (polyZ (int16ToBigInt key.f) * polyZ (int16ToBigInt key'.g) - polyZ (int16ToBigInt key'.f) * polyZ (int16ToBigInt key.g))
      (C 12289 * polyZ e) := ⟨a + C 12289 * t, by linear_combination hz + C 12289 * ht⟩
  have len : ∀ l : List Int16, l.length = 2 ^ k → (int16ToBigInt l).length = 2 ^ k := fun l hl => by simp [int16ToBigInt, hl]
  refine ⟨e, le, ?_, hcon, ?_⟩
  · intro x hx
    have hm : polyZ (e.map (12289 * ·)) = C 12289 * polyZ e := by
      clear * -
      unfold polyZ
      induction e with
      | nil => simp
      | cons a l ih => simp [ih]; ring
    rw [← hm] at hcon
    have := cross_le k _ _ _ _ _ (len _ hf) (len _ hg) (len _ hf') (len _ hg') (by simpa using le) hcon _ hb hb' (12289 * x) (List.mem_map_of_mem hx)
    push_cast at this
    rw [abs_le] at this
    have b1 : (x : ℝ) < 2 := by linarith [this.2]
    have b2 : (-2 : ℝ) < x := by linarith [this.1]
    have b1' : x < 2 := by exact_mod_cast b1
    have b2' : -2 < x := by exact_mod_cast b2
    omega
  · intro hdet
    obtain ⟨h, eh, -, -, d⟩ := (C30_public_key k h1 h2 key' hf' hg').1 hu'
    rw [← hp] at eh
    have hl : InLattice (2 ^ k) h (polyZ (int16ToBigInt key'.g)) (-polyZ (int16ToBigInt key'.f)) := by
      unfold InLattice
      rw [Polynomial.map_neg, polyQ_map, polyQ_map]
      obtain ⟨c, hc⟩ := d
      exact ⟨-c, by linear_combination -hc⟩
    obtain ⟨z0, z1, ⟨a1, e1⟩, ⟨a2, e2⟩⟩ := (C58_basis k h1 h2 key h _ hf hg hu hdet eh _ _).1 hl
    obtain ⟨t1, ht1⟩ := hdet
    obtain ⟨t2, ht2⟩ := hcon
    have hz1 : (X ^ 2 ^ k + 1 : ℤ[X]) ∣ z1 - polyZ e := by
      apply cancel_q (2 ^ k) (by positivity)
      unfold ntruDet at ht1
      exact ⟨t2 - polyZ (int16ToBigInt key.f) * a1 - polyZ (int16ToBigInt key.g) * a2 - z1 * t1, by
        linear_combination ht2 - polyZ (int16ToBigInt key.f) * e1 - polyZ (int16ToBigInt key.g) * e2 - z1 * ht1⟩
    obtain ⟨b, hb⟩ := hz1
    refine ⟨z0, ⟨-a2 + b * polyZ (int16ToBigInt key.F), ?_⟩, ⟨a1 + b * polyZ (int16ToBigInt key.G), ?_⟩⟩
    · linear_combination -e2 + polyZ (int16ToBigInt key.F) * hb
    · linear_combination e1 + polyZ (int16ToBigInt key.G) * hb

/-- C91: two generated keys with the same public key satisfy `f g' - f' g = q e` for a polynomial `e` with coefficients -1, 0 and 1. -/
theorem C91_generated (rand rand' : Rand) (fuel fuel' : Nat) (n n' : UInt16) (pos pos' : Nat) (key key' : PrivateKey) (p p' : Nat)
    (h : GeneratePrivateKey ieeeOps rand fuel n pos = .ok (.ok (key, p))) (h' : GeneratePrivateKey ieeeOps rand' fuel' n' pos' = .ok (.ok (key', p')))
    (hp : GetPublicKey key = GetPublicKey key') :
    n = n' ∧ ∃ e : List Int, e.length = n.toNat ∧ (∀ x ∈ e, -1 ≤ x ∧ x ≤ 1) ∧
      CongrZ n.toNat (polyZ (int16ToBigInt key.f) * polyZ (int16ToBigInt key'.g) - polyZ (int16ToBigInt key'.f) * polyZ (int16ToBigInt key.g)) (C 12289 * polyZ e) ∧
      (CongrZ n.toNat (ntruDet (int16ToBigInt key.f) (int16ToBigInt key.g) (int16ToBigInt key.F) (int16ToBigInt key.G)) (C 12289) → ∃ z : ℤ[X],
        CongrZ n.toNat (polyZ (int16ToBigInt key'.f)) (z * polyZ (int16ToBigInt key.f) + polyZ e * polyZ (int16ToBigInt key.F)) ∧
        CongrZ n.toNat (polyZ (int16ToBigInt key'.g)) (z * polyZ (int16ToBigInt key.g) + polyZ e * polyZ (int16ToBigInt key.G))) := by
  obtain ⟨hu, t, et, -⟩ := C43_public_key ieeeOps rand fuel n pos key p h
  obtain ⟨hu', t', et', -⟩ := C43_public_key ieeeOps rand' fuel' n' pos' key' p' h'
  obtain ⟨⟨k, h1, h2, hn⟩, hkn, hq⟩ := GeneratePrivateKey_ok ieeeOps rand fuel n pos key p h
  obtain ⟨-, hkn', hq'⟩ := GeneratePrivateKey_ok ieeeOps rand' fuel' n' pos' key' p' h'
  obtain ⟨-, -, -, norm, -, lf, lg, en, hlt, -⟩ := NtruGen_ok ieeeOps rand fuel n pos _ p hq
  obtain ⟨-, -, -, norm', -, lf', lg', en', hlt', -⟩ := NtruGen_ok ieeeOps rand' fuel' n' pos' _ p' hq'
  simp only at lf lg en lf' lg' en'
  have nn : n = n' := by
    rw [et, et', Go.ok.injEq, PublicKey.mk.injEq] at hp
    exact hp.1
  subst nn
  refine ⟨rfl, ?_⟩
  rw [hn] at lf lg lf' lg' hu hu' ⊢
  refine C91_short k h1 h2 key key' (by rw [hkn, hkn']) lf lg lf' lg' hu hu' hp ?_ ?_
  · exact (C68_first k h2 key.f key.g lf lg norm en hlt).trans (by norm_num)
  · exact (C68_first k h2 key'.f key'.g lf' lg' norm' en' hlt').trans (by norm_num)

/-- C91: two generated keys with the same `f` and `g` are the same. -/
theorem C91_determined (O : FloatOps) (rand rand' : Rand) (fuel fuel' : Nat) (n n' : UInt16) (pos pos' : Nat) (key key' : PrivateKey) (p p' : Nat)
    (h : GeneratePrivateKey O rand fuel n pos = .ok (.ok (key, p))) (h' : GeneratePrivateKey O rand' fuel' n' pos' = .ok (.ok (key', p')))
    (hf : key.f = key'.f) (hg : key.g = key'.g) : key = key' := by
  obtain ⟨-, hkn, hq⟩ := GeneratePrivateKey_ok O rand fuel n pos key p h
  obtain ⟨-, hkn', hq'⟩ := GeneratePrivateKey_ok O rand' fuel' n' pos' key' p' h'
  obtain ⟨a, F, G, -, -, lf, -, -, -, -, -, hs, eF, eG⟩ := NtruGen_ok O rand fuel n pos _ p hq
  obtain ⟨a', F', G', -, -, lf', -, -, -, -, -, hs', eF', eG'⟩ := NtruGen_ok O rand' fuel' n' pos' _ p' hq'
  simp only at lf hs eF eG lf' hs' eF' eG'
  have e : (F, G) = (F', G') := by
    rw [hf, hg] at hs
    have m1 := mono_of_succ (fun m => NtruSolve_succ O m (int16ToBigInt key'.f) (int16ToBigInt key'.g)) (Nat.le_max_left a a')
    have m2 := mono_of_succ (fun m => NtruSolve_succ O m (int16ToBigInt key'.f) (int16ToBigInt key'.g)) (Nat.le_max_right a a')
    rw [hs] at m1
    rw [hs'] at m2
    rcases m1 with m1 | m1
    · simp at m1
    rcases m2 with m2 | m2
    · simp at m2
    simpa using m1.trans m2.symm
  obtain ⟨rfl, rfl⟩ := Prod.mk.inj e
  have nn : key.n = key'.n := by
    rw [hkn, hkn']
    exact UInt16.toNat_inj.1 (by rw [← lf, ← lf', hf])
  cases key
  cases key'
  simp_all

/-- C91: two completions of the same `f` and `g` differ by a multiple of `(f, g)`. -/
theorem C91_completion (k : Nat) (h1 : 1 ≤ k) (h2 : k ≤ 10) (key key' : PrivateKey) (hf : key.f.length = 2 ^ k) (hg : key.g.length = 2 ^ k)
    (ef : key'.f = key.f) (eg : key'.g = key.g) (hu : ∃ u : Zq[X], (X ^ 2 ^ k + 1 : Zq[X]) ∣ polyQ key.f * u - 1)
    (hdet : CongrZ (2 ^ k) (ntruDet (int16ToBigInt key.f) (int16ToBigInt key.g) (int16ToBigInt key.F) (int16ToBigInt key.G)) (C 12289)) :
    CongrZ (2 ^ k) (ntruDet (int16ToBigInt key'.f) (int16ToBigInt key'.g) (int16ToBigInt key'.F) (int16ToBigInt key'.G)) (C 12289) ↔ ∃ a : ℤ[X],
      CongrZ (2 ^ k) (polyZ (int16ToBigInt key'.F)) (polyZ (int16ToBigInt key.F) + a * polyZ (int16ToBigInt key.f)) ∧
      CongrZ (2 ^ k) (polyZ (int16ToBigInt key'.G)) (polyZ (int16ToBigInt key.G) + a * polyZ (int16ToBigInt key.g)) := by
  rw [ef, eg]
  unfold ntruDet at hdet ⊢
  constructor
  · intro hdet'
    obtain ⟨h, eh, -, -, d⟩ := (C30_public_key k h1 h2 key hf hg).1 hu
    obtain ⟨t, ht⟩ := hdet
    obtain ⟨t', ht'⟩ := hdet'
    have hl : InLattice (2 ^ k) h (polyZ (int16ToBigInt key'.G)) (-polyZ (int16ToBigInt key'.F)) := by
      unfold InLattice
      obtain ⟨u, b, hb⟩ := hu
      obtain ⟨c, hc⟩ := d
      have hq := congrArg (Polynomial.map (Int.castRingHom Zq)) ht'
      simp only [Polynomial.map_sub, Polynomial.map_mul, polyQ_map, Polynomial.map_add, Polynomial.map_pow, Polynomial.map_X, Polynomial.map_one,
        Polynomial.map_C] at hq
      rw [show (Int.castRingHom Zq) 12289 = 0 from rfl, C_0] at hq
      rw [Polynomial.map_neg, polyQ_map, polyQ_map]
      exact ⟨u * t'.map (Int.castRingHom Zq) - u * c * polyQ key'.F - b * (polyQ key'.G - polyQ h * polyQ key'.F), by
        linear_combination u * hq - u * polyQ key'.F * hc - (polyQ key'.G - polyQ h * polyQ key'.F) * hb⟩
    obtain ⟨z0, z1, ⟨a1, e1⟩, ⟨a2, e2⟩⟩ := (C58_basis k h1 h2 key h _ hf hg hu ⟨t, ht⟩ eh _ _).1 hl
    have hz1 : (X ^ 2 ^ k + 1 : ℤ[X]) ∣ z1 - 1 := by
      apply cancel_q (2 ^ k) (by positivity)
      exact ⟨t' - polyZ (int16ToBigInt key.f) * a1 - polyZ (int16ToBigInt key.g) * a2 - z1 * t, by
        linear_combination ht' - polyZ (int16ToBigInt key.f) * e1 - polyZ (int16ToBigInt key.g) * e2 - z1 * ht⟩
    obtain ⟨b, hb⟩ := hz1
    refine ⟨z0, ⟨-a2 + b * polyZ (int16ToBigInt key.F), ?_⟩, ⟨a1 + b * polyZ (int16ToBigInt key.G), ?_⟩⟩
    · linear_combination -e2 + polyZ (int16ToBigInt key.F) * hb
    · linear_combination e1 + polyZ (int16ToBigInt key.G) * hb
  · rintro ⟨a, ⟨c1, hc1⟩, ⟨c2, hc2⟩⟩
    obtain ⟨t, ht⟩ := hdet
    exact ⟨t + polyZ (int16ToBigInt key.f) * c2 - polyZ (int16ToBigInt key.g) * c1, by
      linear_combination ht + polyZ (int16ToBigInt key.f) * hc2 - polyZ (int16ToBigInt key.g) * hc1⟩

/-- A key of degree 2 with `f G - g F = 96 * 128 + 1`, and the pair `(F, G)` as a second key. Their public keys are equal, and they are not rotations of each other. -/
def twinA : PrivateKey := ⟨2, [96, 0], [1, 0], [-1, 0], [128, 0]⟩

def twinB : PrivateKey := ⟨2, [-1, 0], [128, 0], [-96, 0], [-1, 0]⟩

theorem twin_inv : (∃ u : Zq[X], (X ^ 2 ^ 1 + 1 : Zq[X]) ∣ polyQ twinA.f * u - 1) ∧ ∃ u : Zq[X], (X ^ 2 ^ 1 + 1 : Zq[X]) ∣ polyQ twinB.f * u - 1 := by
  refine ⟨⟨C (-128), 0, ?_⟩, ⟨C (-1), 0, ?_⟩⟩
  · have e : polyQ twinA.f = C 96 := by simp [polyQ, twinA, poly, show zq 96 = 96 from by decide, show zq 0 = 0 from by decide]
    rw [e, ← C_mul, show (96 * -128 : Zq) = 1 from by decide]
    simp
  · have e : polyQ twinB.f = C (-1) := by simp [polyQ, twinB, poly, show zq (-1) = -1 from by decide, show zq 0 = 0 from by decide]
    rw [e, ← C_mul]
    simp

example : GetPublicKey twinA = GetPublicKey twinB ∧ twinB.f ∉ [[96, 0], [0, 96], [-96, 0], [0, -96]] := by
  refine ⟨?_, by decide⟩
  decide +kernel

example : ∃ e : List Int, e.length = 2 ∧ (∀ x ∈ e, -1 ≤ x ∧ x ≤ 1) ∧
    CongrZ 2 (polyZ (int16ToBigInt twinA.f) * polyZ (int16ToBigInt twinB.g) - polyZ (int16ToBigInt twinB.f) * polyZ (int16ToBigInt twinA.g)) (C 12289 * polyZ e) := by
  obtain ⟨e, h1, h2, h3, -⟩ := C91_short 1 (by decide) (by decide) twinA twinB rfl rfl rfl rfl rfl twin_inv.1 twin_inv.2 (by decide +kernel)
    (by simp [sqNorm, realI, int16ToBigInt, twinA]; norm_num) (by simp [sqNorm, realI, int16ToBigInt, twinB]; norm_num)
  exact ⟨e, h1, h2, h3⟩

example : rot^[1] [72, 5] = ([-5, 72] : List Int16) ∧ rot^[2] [72, 5] = ([-72, -5] : List Int16) ∧ rot^[3] [72, 5] = ([5, -72] : List Int16) := by decide

example (i j : Nat) (h : i < j) (hj : j < 4) : rot^[i] ([72, 5] : List Int16) ≠ rot^[j] [72, 5] :=
  C91_distinct 1 [72, 5] rfl (by decide) ⟨72, by decide, by decide⟩ i j h hj

example (rand : Rand) (fuel : Nat) (n : UInt16) (pos p : Nat) (key : PrivateKey) (h : GeneratePrivateKey ieeeOps rand fuel n pos = .ok (.ok (key, p)))
    (hf : key.f = [72, 5]) (hg : key.g = [60, 31]) : key = ⟨2, [72, 5], [60, 31], [-40, 31], [124, 0]⟩ :=
  C91_determined ieeeOps rand runRand fuel 20 n 2 pos 0 key _ p _ h ieee_run_key hf hg

end Falcon
