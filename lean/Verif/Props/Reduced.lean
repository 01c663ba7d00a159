import Verif.Props.Unique
import Verif.Props.Degree2
import Verif.Props.Approx
/-!
# The second half of a key is determined by the first half, also across arithmetics (C95)
-/

namespace Falcon
open Spec Polynomial ComplexConjugate F64

theorem map_dvd (k : Nat) (p : ℤ[X]) (h : (X ^ 2 ^ k + 1 : ℤ[X]) ∣ p) : (X ^ 2 ^ k + 1 : ℝ[X]) ∣ p.map (Int.castRingHom ℝ) := by
  obtain ⟨c, hc⟩ := h
  refine ⟨c.map (Int.castRingHom ℝ), ?_⟩
  rw [hc]
  simp

theorem realI_injective {a b : List Int} (h : realI a = realI b) : a = b := by
  unfold realI at h
  exact List.map_injective_iff.2 Int.cast_injective h

/-- `(F', G')` is `(F, G)` plus a multiple of `(f, g)` modulo `x^n+1`. -/
def Sibling (k : Nat) (f g F G F' G' : List Int) : Prop := ∃ a : ℤ[X],
  CongrZ (2 ^ k) (polyZ F') (polyZ F + a * polyZ f) ∧ CongrZ (2 ^ k) (polyZ G') (polyZ G + a * polyZ g)

theorem Sibling.symm {k : Nat} {f g F G F' G' : List Int} (h : Sibling k f g F G F' G') : Sibling k f g F' G' F G := by
  obtain ⟨a, ⟨c1, h1⟩, ⟨c2, h2⟩⟩ := h
  exact ⟨-a, ⟨-c1, by linear_combination -h1⟩, ⟨-c2, by linear_combination -h2⟩⟩

theorem Sibling.trans {k : Nat} {f g F G F' G' F'' G'' : List Int} (h : Sibling k f g F G F' G') (h' : Sibling k f g F' G' F'' G'') :
    Sibling k f g F G F'' G'' := by
  obtain ⟨a, ⟨c1, h1⟩, ⟨c2, h2⟩⟩ := h
  obtain ⟨a', ⟨c1', h1'⟩, ⟨c2', h2'⟩⟩ := h'
  exact ⟨a + a', ⟨c1 + c1', by linear_combination h1 + h1'⟩, ⟨c2 + c2', by linear_combination h2 + h2'⟩⟩

theorem Sibling.of_shifted {k : Nat} {f g F G F' G' : List Int} (h : Shifted (2 ^ k) f g F G F' G') : Sibling k f g F G F' G' := by
  obtain ⟨K, ⟨c1, h1⟩, ⟨c2, h2⟩⟩ := h
  refine ⟨-K, ⟨c1, ?_⟩, ⟨c2, ?_⟩⟩
  · unfold polyZ
    linear_combination h1
  · unfold polyZ
    linear_combination h2

/-- The quotients of two siblings differ by an integer polynomial. -/
theorem sibling_quot {k : Nat} {f g F G F' G' : List Int} (hc : IsCoprime (X ^ 2 ^ k + 1 : ℝ[X]) (gramPoly (realI f) (realI g)))
    (h : Sibling k f g F G F' G') (κ κ' : List ℝ) (hκ : IsQuot k (realI f) (realI g) (realI F) (realI G) κ)
    (hκ' : IsQuot k (realI f) (realI g) (realI F') (realI G') κ') :
    ∃ a : List Int, a.length = 2 ^ k ∧ CongrZ (2 ^ k) (polyZ F') (polyZ F + polyZ a * polyZ f) ∧
      CongrZ (2 ^ k) (polyZ G') (polyZ G + polyZ a * polyZ g) ∧ κ' = List.zipWith (fun x y : ℝ => x + y) κ (realI a) := by
  obtain ⟨a0, ⟨c1, h1⟩, ⟨c2, h2⟩⟩ := h
  obtain ⟨a, la, b, hb⟩ := exists_modZ k a0
  have e1 : CongrZ (2 ^ k) (polyZ F') (polyZ F + polyZ a * polyZ f) := ⟨c1 + b * polyZ f, by
    unfold polyZ at *
    linear_combination h1 + poly f * hb⟩
  have e2 : CongrZ (2 ^ k) (polyZ G') (polyZ G + polyZ a * polyZ g) := ⟨c2 + b * polyZ g, by
    unfold polyZ at *
    linear_combination h2 + poly g * hb⟩
  refine ⟨a, la, e1, e2, ?_⟩
  refine quot_unique k _ _ _ _ _ _ hc hκ' ⟨by simp [hκ.1, realI_length, la], ?_⟩
  obtain ⟨r1, hr1⟩ := map_dvd k _ e1
  obtain ⟨r2, hr2⟩ := map_dvd k _ e2
  obtain ⟨lκ, t, ht⟩ := hκ
  rw [poly_zipWith_add _ _ (by simp [realI_length, la, lκ])]
  unfold polyZ at hr1 hr2
  simp only [Polynomial.map_sub, Polynomial.map_add, Polynomial.map_mul, ← poly_realI] at hr1 hr2
  refine ⟨t - r1 * poly (adjList (realI f)) - r2 * poly (adjList (realI g)), ?_⟩
  unfold gramPoly at ht ⊢
  linear_combination ht - poly (adjList (realI f)) * hr1 - poly (adjList (realI g)) * hr2

/-- C95: of all pairs that differ by multiples of `(f, g)`, at most one has a quotient with all coefficients below one half. More generally, two
such pairs are equal if the bounds on the coefficients of their quotients add up to less than one. -/
theorem C95_unique (k : Nat) (f g F G F' G' : List Int) (hc : IsCoprime (X ^ 2 ^ k + 1 : ℝ[X]) (gramPoly (realI f) (realI g)))
    (lF : F.length = 2 ^ k) (lG : G.length = 2 ^ k) (lF' : F'.length = 2 ^ k) (lG' : G'.length = 2 ^ k)
    (h : Sibling k f g F G F' G') (κ κ' : List ℝ) (hκ : IsQuot k (realI f) (realI g) (realI F) (realI G) κ)
    (hκ' : IsQuot k (realI f) (realI g) (realI F') (realI G') κ') (B B' : ℝ) (hB : ∀ x ∈ κ, |x| ≤ B) (hB' : ∀ x ∈ κ', |x| < B') (hsum : B + B' ≤ 1) :
    F' = F ∧ G' = G := by
  obtain ⟨a, la, e1, e2, eq⟩ := sibling_quot hc h κ κ' hκ hκ'
  have ha : ∀ v ∈ a, v = 0 := by
    intro v hv
    obtain ⟨i, hi, rfl⟩ := List.getElem_of_mem hv
    have hiκ : i < κ.length := by rw [hκ.1, ← la]; exact hi
    have hiκ' : i < κ'.length := by rw [hκ'.1, ← la]; exact hi
    have g1 := hB _ (List.getElem_mem hiκ)
    have g2 := hB' _ (List.getElem_mem hiκ')
    have g3 : κ'[i] = κ[i] + (a[i] : ℝ) := by
      simp only [eq, List.getElem_zipWith, realI, List.getElem_map]
    rw [g3] at g2
    have g4 : |(a[i] : ℝ)| < 1 := by
      have := abs_sub_abs_le_abs_sub (a[i] : ℝ) (-κ[i])
      rw [abs_neg, sub_neg_eq_add, add_comm] at this
      linarith
    have g5 : |a[i]| < 1 := by exact_mod_cast g4
    exact Int.abs_lt_one_iff.1 g5
  have hz : polyZ a = 0 := by
    unfold polyZ
    rw [List.eq_replicate_iff.2 ⟨la, ha⟩]
    generalize 2 ^ k = n
    induction n with
    | zero => rfl
    | succ n ih => rw [List.replicate_succ, poly_cons, ih]; simp
  rw [hz, zero_mul, add_zero] at e1 e2
  constructor
  · apply realI_injective
    apply C50_unique k _ _ (by rw [realI_length, lF']) (by rw [realI_length, lF])
    have := map_dvd k _ e1
    simpa only [Polynomial.map_sub, polyZ, ← poly_realI] using this
  · apply realI_injective
    apply C50_unique k _ _ (by rw [realI_length, lG']) (by rw [realI_length, lG])
    have := map_dvd k _ e2
    simpa only [Polynomial.map_sub, polyZ, ← poly_realI] using this

/-- A solution returned by `reduce` in exact arithmetic has a quotient below one half. -/
theorem exact_quot (k : Nat) (h1 : 1 ≤ k) (h2 : k ≤ 10) (f g F G : List Int) (h : Short k f g) (lF : F.length = 2 ^ k) (lG : G.length = 2 ^ k)
    (fuel : Nat) (F' G' : List Int) (hr : reduce exactOps fuel f g F G = .ok (F', G')) (hdet : CongrZ (2 ^ k) (ntruDet f g F' G') (C 12289)) :
    ∃ κ, IsQuot k (realI f) (realI g) (realI F') (realI G') κ ∧ ∀ x ∈ κ, |x| < 1 / 2 := by
  obtain ⟨-, hok⟩ := reduce_ok (O := exactOps) k h2 f g h.lf h.lg fuel F G lF lG
  obtain ⟨lF', lG', -⟩ := hok F' G' hr
  have hs := solves_of_det lF' lG' hdet
  obtain ⟨s, κ, hs0, lκ, bκ, dκ⟩ := C57_reduced k h1 h2 f g F G h.lf h.lg lF lG h.small h.h0 fuel F' G' hr
  have hz : s = 0 := by
    rcases hs0 with hs0 | ⟨v, hv, hv2⟩
    · exact hs0
    exfalso
    have hsm := reduced_small h2 h hs s κ ⟨lκ, dκ⟩ (fun x hx => (bκ x hx).le) v hv
    have hsm2 : |v >>> s| < 2 ^ 30 := by exact_mod_cast hsm
    rw [abs_lt, Int.shiftRight_eq_div_pow] at hsm2
    obtain ⟨u1, u2⟩ := hsm2
    have hT : (0 : Int) < ((2 ^ s : Nat) : Int) := by positivity
    have u3 : v < 2 ^ 30 * ((2 ^ s : Nat) : Int) := Int.lt_mul_of_ediv_lt hT u2
    have u4 : -(2 ^ 30) * ((2 ^ s : Nat) : Int) ≤ v := (Int.le_ediv_iff_mul_le hT).1 u1.le
    rw [pow_add] at hv2
    generalize (2 : Nat) ^ s = T at *
    omega
  subst hz
  rw [map_shift_zero, map_shift_zero] at dκ
  exact ⟨κ, ⟨lκ, dκ⟩, bκ⟩

/-- In exact arithmetic the result of `reduce` on a solution has a quotient below one half. -/
theorem exact_reduced (k : Nat) (h1 : 1 ≤ k) (h2 : k ≤ 10) (f g F G : List Int) (h : Short k f g) (lF : F.length = 2 ^ k) (lG : G.length = 2 ^ k)
    (hdet : CongrZ (2 ^ k) (ntruDet f g F G) (C 12289)) (fuel : Nat) (F' G' : List Int) (hr : reduce exactOps fuel f g F G = .ok (F', G')) :
    F'.length = 2 ^ k ∧ G'.length = 2 ^ k ∧ Sibling k f g F G F' G' ∧ CongrZ (2 ^ k) (ntruDet f g F' G') (C 12289) ∧
    ∃ κ, IsQuot k (realI f) (realI g) (realI F') (realI G') κ ∧ ∀ x ∈ κ, |x| < 1 / 2 := by
  obtain ⟨-, hok⟩ := reduce_ok (O := exactOps) k h2 f g h.lf h.lg fuel F G lF lG
  obtain ⟨lF', lG', hsh⟩ := hok F' G' hr
  have hsib := Sibling.of_shifted hsh
  have hdet' : CongrZ (2 ^ k) (ntruDet f g F' G') (C 12289) := by
    obtain ⟨a, ⟨c1, e1⟩, ⟨c2, e2⟩⟩ := hsib
    obtain ⟨t, ht⟩ := hdet
    unfold ntruDet at ht ⊢
    exact ⟨t + polyZ f * c2 - polyZ g * c1, by linear_combination ht + polyZ f * e2 - polyZ g * e1⟩
  exact ⟨lF', lG', hsib, hdet', exact_quot k h1 h2 f g F G h lF lG fuel F' G' hr hdet'⟩

/-- C95: in exact arithmetic the result of `reduce` depends only on `(f, g)` and the class of `(F, G)`: it is the same for all solutions that differ
by multiples of `(f, g)`, whatever the size of the one passed. -/
theorem C95_exact (k : Nat) (h1 : 1 ≤ k) (h2 : k ≤ 10) (f g F G F' G' : List Int) (h : Short k f g) (lF : F.length = 2 ^ k) (lG : G.length = 2 ^ k)
    (lF' : F'.length = 2 ^ k) (lG' : G'.length = 2 ^ k) (hdet : CongrZ (2 ^ k) (ntruDet f g F G) (C 12289))
    (hdet' : CongrZ (2 ^ k) (ntruDet f g F' G') (C 12289)) (hsib : Sibling k f g F G F' G') (fuel fuel' : Nat) (r r' : List Int × List Int)
    (hr : reduce exactOps fuel f g F G = .ok r) (hr' : reduce exactOps fuel' f g F' G' = .ok r') : r' = r := by
  obtain ⟨R, T⟩ := r
  obtain ⟨R', T'⟩ := r'
  obtain ⟨l1, l2, s, -, κ, hκ, bκ⟩ := exact_reduced k h1 h2 f g F G h lF lG hdet fuel R T hr
  obtain ⟨l1', l2', s', -, κ', hκ', bκ'⟩ := exact_reduced k h1 h2 f g F' G' h lF' lG' hdet' fuel' R' T' hr'
  obtain ⟨e1, e2⟩ := C95_unique k f g R T R' T' h.coprime l1 l2 l1' l2' ((s.symm.trans hsib).trans s') κ κ' hκ hκ' (1 / 2) (1 / 2)
    (fun x hx => (bκ x hx).le) bκ' (by norm_num)
  rw [e1, e2]

theorem far_bound (x : ℝ) (h : FarFromTie (1 / 10 ^ 6) x) (hb : |x| ≤ 1 / 2 + 7 / 10 ^ 7) : |x| ≤ 1 / 2 - 1 / 10 ^ 6 := by
  have a1 := h 0
  have a2 := h (-1)
  push_cast at a1 a2
  rw [abs_le] at hb ⊢
  rw [le_abs] at a1 a2
  norm_num at *
  constructor
  · rcases a2 with a2 | a2 <;> linarith [hb.1, hb.2]
  · rcases a1 with a1 | a1 <;> linarith [hb.1, hb.2]

theorem far_sibling {k : Nat} {f g F G F' G' : List Int} (hc : IsCoprime (X ^ 2 ^ k + 1 : ℝ[X]) (gramPoly (realI f) (realI g)))
    (h : Sibling k f g F G F' G') (κ κ' : List ℝ) (hκ : IsQuot k (realI f) (realI g) (realI F) (realI G) κ)
    (hκ' : IsQuot k (realI f) (realI g) (realI F') (realI G') κ') (δ : ℝ) (hfar : ∀ x ∈ κ, FarFromTie δ x) : ∀ x ∈ κ', FarFromTie δ x := by
  obtain ⟨a, la, -, -, eq⟩ := sibling_quot hc h κ κ' hκ hκ'
  intro x hx
  obtain ⟨i, hi, rfl⟩ := List.getElem_of_mem hx
  have hiκ : i < κ.length := by rw [hκ.1, ← hκ'.1]; exact hi
  have hia : i < a.length := by rw [la, ← hκ'.1]; exact hi
  have g3 : κ'[i] = κ[i] - ((-a[i] : Int) : ℝ) := by
    simp only [eq, List.getElem_zipWith, realI, List.getElem_map]
    push_cast
    ring
  rw [g3]
  exact far_sub δ _ _ (hfar _ (List.getElem_mem hiκ))

/-- The result of `reduce` in IEEE arithmetic, when the quotient is not within `10^-6` of a tie. -/
theorem ieee_reduced_variant (va : Variant) (k : Nat) (h1 : 1 ≤ k) (h2 : k ≤ 10) (f g F G : List Int) (h : Lat k f g) (lF : F.length = 2 ^ k) (lG : G.length = 2 ^ k)
    (hdet : CongrZ (2 ^ k) (ntruDet f g F G) (C 12289)) (fuel : Nat) (F' G' : List Int) (hr : reduce va.ops fuel f g F G = .ok (F', G')) :
    F'.length = 2 ^ k ∧ G'.length = 2 ^ k ∧ Sibling k f g F G F' G' ∧ CongrZ (2 ^ k) (ntruDet f g F' G') (C 12289) ∧
    ∃ κ, IsQuot k (realI f) (realI g) (realI F') (realI G') κ ∧ ∀ x ∈ κ, |x| ≤ 1 / 2 + 7 / 10 ^ 7 := by
  obtain ⟨-, hok⟩ := reduce_ok (O := va.ops) k h2 f g h.lf h.lg fuel F G lF lG
  obtain ⟨lF', lG', hsh⟩ := hok F' G' hr
  have hsib := Sibling.of_shifted hsh
  have hdet' : CongrZ (2 ^ k) (ntruDet f g F' G') (C 12289) := by
    obtain ⟨a, ⟨c1, e1⟩, ⟨c2, e2⟩⟩ := hsib
    obtain ⟨t, ht⟩ := hdet
    unfold ntruDet at ht ⊢
    exact ⟨t + polyZ f * c2 - polyZ g * c1, by linear_combination ht + polyZ f * e2 - polyZ g * e1⟩
  exact ⟨lF', lG', hsib, hdet', ((variant_C67_sharp va) k h1 h2 f g F G h.lf h.lg lF lG h.hn h.hd fuel F' G' hr hdet').1⟩

theorem ieee_reduced (k : Nat) (h1 : 1 ≤ k) (h2 : k ≤ 10) (f g F G : List Int) (h : Lat k f g) (lF : F.length = 2 ^ k) (lG : G.length = 2 ^ k)
    (hdet : CongrZ (2 ^ k) (ntruDet f g F G) (C 12289)) (fuel : Nat) (F' G' : List Int) (hr : reduce ieeeOps fuel f g F G = .ok (F', G')) :
    F'.length = 2 ^ k ∧ G'.length = 2 ^ k ∧ Sibling k f g F G F' G' ∧ CongrZ (2 ^ k) (ntruDet f g F' G') (C 12289) ∧
    ∃ κ, IsQuot k (realI f) (realI g) (realI F') (realI G') κ ∧ ∀ x ∈ κ, |x| ≤ 1 / 2 + 7 / 10 ^ 7 :=
  ieee_reduced_variant amd64V k h1 h2 f g F G h lF lG hdet fuel F' G' hr

/-- `C95_ieee` for every variant of the arithmetic. -/
theorem variant_C95_ieee (va : Variant) (k : Nat) (h1 : 1 ≤ k) (h2 : k ≤ 10) (f g F G F' G' : List Int) (h : Short k f g) (hd : ∀ w ∈ rootsC k, 784 / 100 ≤ gramAt f g w)
    (lF : F.length = 2 ^ k) (lG : G.length = 2 ^ k)
    (lF' : F'.length = 2 ^ k) (lG' : G'.length = 2 ^ k) (hdet : CongrZ (2 ^ k) (ntruDet f g F G) (C 12289))
    (hdet' : CongrZ (2 ^ k) (ntruDet f g F' G') (C 12289)) (hsib : Sibling k f g F G F' G') (κ : List ℝ)
    (hκ : IsQuot k (realI f) (realI g) (realI F) (realI G) κ) (hfar : ∀ x ∈ κ, FarFromTie (1 / 10 ^ 6) x) (fuel fuel' : Nat) (r r' : List Int × List Int)
    (hr : reduce exactOps fuel f g F G = .ok r) (hr' : reduce va.ops fuel' f g F' G' = .ok r') : r' = r := by
  obtain ⟨R, T⟩ := r
  obtain ⟨R', T'⟩ := r'
  have hlat : Lat k f g := ⟨h.lf, h.lg, h.hn, hd⟩
  obtain ⟨l1, l2, s, -, μ, hμ, bμ⟩ := exact_reduced k h1 h2 f g F G h lF lG hdet fuel R T hr
  obtain ⟨l1', l2', s', -, μ', hμ', bμ'⟩ := (ieee_reduced_variant va) k h1 h2 f g F' G' hlat lF' lG' hdet' fuel' R' T' hr'
  have hfar' := far_sibling h.coprime (hsib.trans s') κ μ' hκ hμ' _ hfar
  obtain ⟨e1, e2⟩ := C95_unique k f g R T R' T' h.coprime l1 l2 l1' l2' ((s.symm.trans hsib).trans s') μ μ' hμ hμ' (1 / 2) (1 / 2)
    (fun x hx => (bμ x hx).le) (fun x hx => lt_of_le_of_lt (far_bound x (hfar' x hx) (bμ' x hx)) (by norm_num)) (by norm_num)
  rw [e1, e2]

/-- C95: if no coefficient of the quotient is within `10^-6` of a tie, `reduce` returns the same pair in IEEE arithmetic as in exact arithmetic, also
when it is called on two different solutions that differ by a multiple of `(f, g)`. -/
theorem C95_ieee (k : Nat) (h1 : 1 ≤ k) (h2 : k ≤ 10) (f g F G F' G' : List Int) (h : Short k f g) (hd : ∀ w ∈ rootsC k, 784 / 100 ≤ gramAt f g w)
    (lF : F.length = 2 ^ k) (lG : G.length = 2 ^ k)
    (lF' : F'.length = 2 ^ k) (lG' : G'.length = 2 ^ k) (hdet : CongrZ (2 ^ k) (ntruDet f g F G) (C 12289))
    (hdet' : CongrZ (2 ^ k) (ntruDet f g F' G') (C 12289)) (hsib : Sibling k f g F G F' G') (κ : List ℝ)
    (hκ : IsQuot k (realI f) (realI g) (realI F) (realI G) κ) (hfar : ∀ x ∈ κ, FarFromTie (1 / 10 ^ 6) x) (fuel fuel' : Nat) (r r' : List Int × List Int)
    (hr : reduce exactOps fuel f g F G = .ok r) (hr' : reduce ieeeOps fuel' f g F' G' = .ok r') : r' = r :=
  variant_C95_ieee amd64V k h1 h2 f g F G F' G' h hd lF lG lF' lG' hdet hdet' hsib κ hκ hfar fuel fuel' r r' hr hr'

/-- `C95_near` for every variant of the arithmetic. -/
theorem variant_C95_near (va : Variant) (k : Nat) (h1 : 1 ≤ k) (h2 : k ≤ 10) (f g F G F' G' : List Int) (h : Short k f g) (hd : ∀ w ∈ rootsC k, 784 / 100 ≤ gramAt f g w)
    (lF : F.length = 2 ^ k) (lG : G.length = 2 ^ k)
    (lF' : F'.length = 2 ^ k) (lG' : G'.length = 2 ^ k) (hdet : CongrZ (2 ^ k) (ntruDet f g F G) (C 12289))
    (hdet' : CongrZ (2 ^ k) (ntruDet f g F' G') (C 12289)) (hsib : Sibling k f g F G F' G') (fuel fuel' : Nat) (R T R' T' : List Int)
    (hr : reduce exactOps fuel f g F G = .ok (R, T)) (hr' : reduce va.ops fuel' f g F' G' = .ok (R', T')) :
    ∃ a : List Int, a.length = 2 ^ k ∧ (∀ v ∈ a, -1 ≤ v ∧ v ≤ 1) ∧ CongrZ (2 ^ k) (polyZ R') (polyZ R + polyZ a * polyZ f) ∧
      CongrZ (2 ^ k) (polyZ T') (polyZ T + polyZ a * polyZ g) := by
  have hlat : Lat k f g := ⟨h.lf, h.lg, h.hn, hd⟩
  obtain ⟨l1, l2, s, -, μ, hμ, bμ⟩ := exact_reduced k h1 h2 f g F G h lF lG hdet fuel R T hr
  obtain ⟨l1', l2', s', -, μ', hμ', bμ'⟩ := (ieee_reduced_variant va) k h1 h2 f g F' G' hlat lF' lG' hdet' fuel' R' T' hr'
  obtain ⟨a, la, e1, e2, eq⟩ := sibling_quot h.coprime ((s.symm.trans hsib).trans s') μ μ' hμ hμ'
  refine ⟨a, la, fun v hv => ?_, e1, e2⟩
  obtain ⟨i, hi, rfl⟩ := List.getElem_of_mem hv
  have hiκ : i < μ.length := by rw [hμ.1, ← la]; exact hi
  have hiκ' : i < μ'.length := by rw [hμ'.1, ← la]; exact hi
  have g1 := bμ _ (List.getElem_mem hiκ)
  have g2 := bμ' _ (List.getElem_mem hiκ')
  have g3 : μ'[i] = μ[i] + (a[i] : ℝ) := by
    simp only [eq, List.getElem_zipWith, realI, List.getElem_map]
  rw [g3] at g2
  have g4 : |(a[i] : ℝ)| < 2 := by
    have := abs_sub_abs_le_abs_sub (a[i] : ℝ) (-μ[i])
    rw [abs_neg, sub_neg_eq_add, add_comm] at this
    norm_num at *
    linarith
  have g5 : |a[i]| < 2 := by exact_mod_cast g4
  rw [abs_lt] at g5
  omega

/-- Without the hypothesis on ties the two results differ by a multiple `a` of `(f, g)` with coefficients in `{-1, 0, 1}`. -/
theorem C95_near (k : Nat) (h1 : 1 ≤ k) (h2 : k ≤ 10) (f g F G F' G' : List Int) (h : Short k f g) (hd : ∀ w ∈ rootsC k, 784 / 100 ≤ gramAt f g w)
    (lF : F.length = 2 ^ k) (lG : G.length = 2 ^ k)
    (lF' : F'.length = 2 ^ k) (lG' : G'.length = 2 ^ k) (hdet : CongrZ (2 ^ k) (ntruDet f g F G) (C 12289))
    (hdet' : CongrZ (2 ^ k) (ntruDet f g F' G') (C 12289)) (hsib : Sibling k f g F G F' G') (fuel fuel' : Nat) (R T R' T' : List Int)
    (hr : reduce exactOps fuel f g F G = .ok (R, T)) (hr' : reduce ieeeOps fuel' f g F' G' = .ok (R', T')) :
    ∃ a : List Int, a.length = 2 ^ k ∧ (∀ v ∈ a, -1 ≤ v ∧ v ≤ 1) ∧ CongrZ (2 ^ k) (polyZ R') (polyZ R + polyZ a * polyZ f) ∧
      CongrZ (2 ^ k) (polyZ T') (polyZ T + polyZ a * polyZ g) :=
  variant_C95_near amd64V k h1 h2 f g F G F' G' h hd lF lG lF' lG' hdet hdet' hsib fuel fuel' R T R' T' hr hr'

end Falcon
