import Verif.Props.Binding
import Verif.Props.Forge
import Mathlib.Data.Fintype.BigOperators
import Mathlib.Data.Fintype.Pi
/-!
# Property C85: the number of keys under which a signature is accepted

`Props/Binding.lean` lists the keys when the vector of the signature is invertible. Here they are counted for every vector.
-/

-- This linter unfolds the type of vectors.
set_option linter.constructorNameAsVariable false

namespace Falcon
open Check Spec Polynomial Finset

/-! ### linear equations in coordinates -/

/-- The number of solutions of `a x = d` in `Z_q`. -/
theorem card_linear (a d : Zq) :
    (univ.filter fun x : Zq => a * x = d).card = if a = 0 then (if d = 0 then 12289 else 0) else 1 := by
  by_cases ha : a = 0
  · subst ha
    rw [if_pos rfl]
    by_cases hd : d = 0
    · subst hd
      rw [if_pos rfl, filter_true_of_mem (by intros; simp), card_univ, ZMod.card]
    · rw [if_neg hd, card_eq_zero, filter_eq_empty_iff]
      intro x _ h
      exact hd (by rw [← h, zero_mul])
  · rw [if_neg ha, card_eq_one]
    refine ⟨a⁻¹ * d, ?_⟩
    ext x
    rw [mem_filter, mem_singleton]
    constructor
    · rintro ⟨-, h⟩
      rw [← h, ← mul_assoc, inv_mul_cancel₀ ha, one_mul]
    · rintro rfl
      exact ⟨mem_univ _, by rw [← mul_assoc, mul_inv_cancel₀ ha, one_mul]⟩

open Classical in
/-- The number of solutions of a system of one equation per coordinate. -/
theorem card_system {W : Type} [Fintype W] [DecidableEq W] (a d : W → Zq) :
    (univ.filter fun f : W → Zq => ∀ w, a w * f w = d w).card =
      if ∀ w, a w = 0 → d w = 0 then 12289 ^ (univ.filter fun w => a w = 0).card else 0 := by
  have e : (univ.filter fun f : W → Zq => ∀ w, a w * f w = d w) =
      Fintype.piFinset fun w => univ.filter fun x : Zq => a w * x = d w := by
    ext f
    simp [Fintype.mem_piFinset]
  rw [e, Fintype.card_piFinset]
  simp only [card_linear]
  split_ifs with h
  · rw [prod_congr rfl (g := fun w => if a w = 0 then 12289 else 1) (fun w _ => ?_), prod_ite, prod_const, prod_const_one, mul_one]
    by_cases hw : a w = 0
    · rw [if_pos hw, if_pos hw, if_pos (h w hw)]
    · rw [if_neg hw, if_neg hw]
  · push Not at h
    obtain ⟨w, h1, h2⟩ := h
    exact prod_eq_zero (mem_univ w) (by rw [if_pos h1, if_neg h2])

/-- Counting the solutions `h` of `∃ u, Q u ∧ R h u` when `u` is determined by `h`. -/
theorem card_fibres {A B : Type} [Fintype A] [Fintype B] (P : A → Prop) (Q T : B → Prop) (R : A → B → Prop) (k : Nat)
    [DecidablePred P] [DecidablePred T] [∀ u, DecidablePred fun h => R h u] [DecidablePred fun u => Q u ∧ T u]
    (hP : ∀ h, P h ↔ ∃ u, Q u ∧ R h u) (hu : ∀ h u v, R h u → R h v → u = v)
    (hk : ∀ u, (univ.filter fun h => R h u).card = if T u then k else 0) :
    (univ.filter P).card = k * (univ.filter fun u => Q u ∧ T u).card := by
  classical
  have e : univ.filter P = (univ.filter Q).biUnion fun u => univ.filter fun h => R h u := by
    ext h
    simp [hP]
  rw [e, card_biUnion]
  · simp only [hk]
    rw [← sum_filter, sum_const, filter_filter, smul_eq_mul, mul_comm]
    congr!
  · intro u _ v _ huv
    rw [Function.onFun, disjoint_left]
    intro h h1 h2
    exact huv (hu h u v (mem_filter.1 h1).2 (mem_filter.1 h2).2)

theorem card_drop_true {A : Type} [Fintype A] (Q T : A → Prop) [DecidablePred Q] [DecidablePred fun u => Q u ∧ T u] (h : ∀ u, T u) :
    (univ.filter fun u => Q u ∧ T u).card = (univ.filter Q).card := by
  congr 1
  exact filter_congr fun u _ => and_iff_left (h u)

theorem card_le_of_injective {A B : Type} [Fintype A] [Fintype B] (Q : B → Prop) [DecidablePred Q] (f : A → B) (hf : Function.Injective f)
    (h : ∀ a, Q (f a)) : Fintype.card A ≤ (univ.filter Q).card := by
  rw [← card_univ]
  refine card_le_card_of_injOn f ?_ hf.injOn
  intro a _
  simpa using h a

/-! ### the roots of `x^512+1` -/

/-- The roots of `x^512+1` modulo `q`. -/
abbrev Root : Type := {w : Zq // w ^ 512 = -1}

theorem root_mem_gen (n : Nat) (hn : n = 2 ^ 9) (w : Zq) : w ^ n = -1 ↔ w ∈ rootsZ 9 := by
  classical
  have hs : (rootsZ 9).toFinset ⊆ (nthRoots n (-1 : Zq)).toFinset := by
    intro x hx
    rw [List.mem_toFinset] at hx
    rw [Multiset.mem_toFinset, mem_nthRoots (by rw [hn]; decide), hn]
    exact rootsZ_root 9 (by decide) (by decide) x hx
  have hc : (nthRoots n (-1 : Zq)).toFinset.card ≤ (rootsZ 9).toFinset.card := by
    rw [List.toFinset_card_of_nodup (rootsZ_nodup 9 (by decide) (by decide)), rootsZ_length 9 (by decide) (by decide), ← hn]
    exact (Multiset.toFinset_card_le _).trans (card_nthRoots n _)
  have := eq_of_subset_of_card_le hs hc
  rw [← List.mem_toFinset, this, Multiset.mem_toFinset, mem_nthRoots (by rw [hn]; decide)]

theorem root_mem (w : Zq) : w ^ 512 = -1 ↔ w ∈ rootsZ 9 := root_mem_gen 512 (by norm_num) w

theorem card_root : Fintype.card Root = 512 := by
  classical
  rw [Fintype.card_subtype]
  have : (univ.filter fun w : Zq => w ^ 512 = -1) = (rootsZ 9).toFinset := by
    ext w
    rw [mem_filter, List.mem_toFinset, root_mem]
    simp
  rw [this, List.toFinset_card_of_nodup (rootsZ_nodup 9 (by decide) (by decide)), rootsZ_length 9 (by decide) (by decide)]
  norm_num

theorem dvd_iff_root_gen (n : Nat) (hn : n = 2 ^ 9) (p : Zq[X]) :
    (X ^ n + 1 : Zq[X]) ∣ p ↔ ∀ w : {w : Zq // w ^ n = -1}, p.eval w.1 = 0 := by
  have h := dvd_iff_eval (K := Zq) (n := n) (by rw [hn]; decide) (rootsZ 9) (by rw [hn]; exact rootsZ_length 9 (by decide) (by decide))
    (rootsZ_nodup 9 (by decide) (by decide)) (by rw [hn]; exact rootsZ_root 9 (by decide) (by decide)) p
  refine h.trans ⟨fun h w => h _ ((root_mem_gen n hn _).1 w.2), fun h x hx => h ⟨x, (root_mem_gen n hn x).2 hx⟩⟩

theorem dvd_iff_root (p : Zq[X]) : (X ^ 512 + 1 : Zq[X]) ∣ p ↔ ∀ w : Root, p.eval w.1 = 0 :=
  dvd_iff_root_gen 512 (by norm_num) p

theorem pointOf_injective : Function.Injective pointOf := by
  intro a b h
  unfold pointOf at h
  have := List.ofFn_injective h
  funext i
  have := congrArg Int16.toInt (congrFun this i)
  have ha := (a i).isLt
  have hb := (b i).isLt
  rw [i16_ofNat (by omega), i16_ofNat (by omega)] at this
  apply Fin.ext
  omega

/-- The values of a key at the roots. -/
noncomputable def values (h : Point) : Root → Zq := fun w => (polyQ (pointOf h)).eval w.1

theorem values_bijective : Function.Bijective values := by
  rw [Fintype.bijective_iff_injective_and_card]
  constructor
  · intro a b h
    apply pointOf_injective
    refine eq_of_values (k := 9) (by decide) (by decide) ?_ ?_ (pointOf_reduced a) (pointOf_reduced b) ?_
    · rw [pointOf_length]; norm_num
    · rw [pointOf_length]; norm_num
    · intro x hx
      exact congrFun h ⟨x, (root_mem x).2 hx⟩
  · rw [Fintype.card_fun, Fintype.card_fun, card_root, Fintype.card_fin, Fintype.card_fin, ZMod.card]

theorem exists_centred {t : List Int} (ht : t.length = 512) (hr : ∀ x ∈ t, -6144 ≤ x ∧ x ≤ 6144) : ∃ u : Point, centred u = t := by
  have hb : ∀ i : Fin 512, -6144 ≤ t[i.val]'(by omega) ∧ t[i.val]'(by omega) ≤ 6144 := fun i => hr _ (List.getElem_mem _)
  refine ⟨fun i => ⟨(t[i.val]'(by omega) + 6144).toNat, by have := hb i; omega⟩, ?_⟩
  apply List.ext_getElem
  · rw [centred_length, ht]
  · intro i h1 h2
    have := hb ⟨i, by omega⟩
    simp only [centred, List.getElem_ofFn] at this ⊢
    omega

theorem centred_injective : Function.Injective centred := by
  intro a b h
  have := List.ofFn_injective h
  funext i
  have := congrFun this i
  apply Fin.ext
  omega

/-! ### the count -/

/-- The number of roots of `x^512+1` at which the vector vanishes. -/
noncomputable def zeros (s : List Int) : Nat := (univ.filter fun w : Root => (polyI s).eval w.1 = 0).card

/-- At every root at which `s` vanishes, `t` and `c` have the same value. -/
def Compatible (c : List Int16) (s t : List Int) : Prop :=
  ∀ w : Zq, w ^ 512 = -1 → (polyI s).eval w = 0 → (polyI t).eval w = (polyQ c).eval w

open Classical in
/-- The keys that leave a given residual. -/
theorem card_keys_residual (c : List Int16) (s t : List Int) :
    (univ.filter fun h : Point => SigEq 512 c (pointOf h) s t).card = if Compatible c s t then 12289 ^ zeros s else 0 := by
  have e : (univ.filter fun h : Point => SigEq 512 c (pointOf h) s t).card =
      (univ.filter fun f : Root → Zq => ∀ w, (polyI s).eval w.1 * f w = (polyQ c).eval w.1 - (polyI t).eval w.1).card := by
    refine card_bijective values values_bijective fun h => ?_
    rw [mem_filter, mem_filter, SigEq, dvd_iff_root]
    refine and_congr (by simp) (forall_congr' fun w => ?_)
    rw [eval_sub, eval_add, eval_mul, values]
    constructor
    · intro h; linear_combination h
    · intro h; linear_combination h
  rw [e, card_system]
  refine if_congr ?_ rfl rfl
  constructor
  · intro h w hw h0
    exact (sub_eq_zero.1 (h ⟨w, hw⟩ h0)).symm
  · intro h w h0
    exact sub_eq_zero.2 (h w.1 w.2 h0).symm

/-- Acceptance under a key, by the residual it leaves. -/
theorem accept_iff_residual (xof : Xof) (fuel : Nat) (m salt body : List UInt8) (hd : UInt8) (c : List Int16) (s : List Int)
    (hs : salt.length = 40) (hc : hashToPoint xof fuel m salt = .ok c) (hb : Decodes body s) (pk : List Int16) (hl : pk.length = 512) :
    Verify xof fuel pk m (hd :: (salt ++ body)) = .ok true ↔
      ∃ u : Point, (sqLen u + normSq (s.map narrow)) % 2 ^ 32 ≤ sigBound ∧ SigEq 512 c pk (s.map narrow) (centred u) := by
  have es : saltOf (hd :: (salt ++ body)) = salt := by simp [saltOf, hs]
  have ed : (hd :: (salt ++ body)).drop 41 = body := by simp [hs]
  rw [(C19_verify_exact xof fuel pk m _ c hl (by simp; omega) (by rw [es]; exact hc)).1, ed]
  constructor
  · rintro ⟨s', t, h1, h0, hn⟩
    have : s' = s := by
      have a := (decodes_iff _ _).2 hb
      rw [(decodes_iff _ _).2 h1] at a
      exact Except.ok.inj (Go.ok.inj a)
    subst this
    obtain ⟨u, rfl⟩ := exists_centred h0.1 h0.2.1
    exact ⟨u, by rw [← normSq_centred]; exact hn, h0.2.2⟩
  · rintro ⟨u, hn, h0⟩
    exact ⟨s, centred u, hb, ⟨centred_length u, centred_bounds u, h0⟩, by rw [normSq_centred]; exact hn⟩

open Classical in
/-- C85, the exact number of keys, for every vector: the number of reduced keys of 512 coefficients under which `Verify` accepts the
signature is `q^z` times the number of vectors of `[-6144,6144]^512` that fit the bound together with the vector `s` of the body and
agree with the hash value wherever `s` vanishes; `z` is the number of roots of `x^512+1` modulo q at which `s` vanishes. -/
theorem C85_count (xof : Xof) (fuel : Nat) (m salt body : List UInt8) (hd : UInt8) (c : List Int16) (s : List Int)
    (hs : salt.length = 40) (hc : hashToPoint xof fuel m salt = .ok c) (hb : Decodes body s) :
    (univ.filter fun h : Point => Verify xof fuel (pointOf h) m (hd :: (salt ++ body)) = .ok true).card =
      12289 ^ zeros (s.map narrow) *
        (univ.filter fun u : Point => (sqLen u + normSq (s.map narrow)) % 2 ^ 32 ≤ sigBound ∧
          Compatible c (s.map narrow) (centred u)).card := by
  refine card_fibres (A := Point) (B := Point) _ _ (fun u => Compatible c (s.map narrow) (centred u))
    (fun h u => SigEq 512 c (pointOf h) (s.map narrow) (centred u)) _
    (fun h => accept_iff_residual xof fuel m salt body hd c s hs hc hb _ (pointOf_length h)) ?_
    (fun u => card_keys_residual c (s.map narrow) (centred u))
  intro h u v h1 h2
  exact centred_injective (residual_unique (by decide) ⟨centred_length u, centred_bounds u, h1⟩ ⟨centred_length v, centred_bounds v, h2⟩)

theorem zeros_invertible {s : List Int} (hi : Invertible s) : zeros s = 0 ∧ ∀ w : Zq, w ^ 512 = -1 → (polyI s).eval w ≠ 0 := by
  have key : ∀ w : Zq, w ^ 512 = -1 → (polyI s).eval w ≠ 0 := by
    intro w hw h0
    obtain ⟨u, hu⟩ := hi
    have := (dvd_iff_root _).1 hu ⟨w, hw⟩
    rw [eval_sub, eval_mul, h0, zero_mul, eval_one, zero_sub, neg_eq_zero] at this
    exact one_ne_zero this
  refine ⟨?_, key⟩
  rw [zeros, card_eq_zero, filter_eq_empty_iff]
  intro w _
  exact key w.1 w.2

open Classical in
/-- C85: for an invertible vector the number of keys does not depend on the message, the salt or the hash value. -/
theorem C85_count_invertible (xof : Xof) (fuel : Nat) (m salt body : List UInt8) (hd : UInt8) (c : List Int16) (s : List Int)
    (hs : salt.length = 40) (hc : hashToPoint xof fuel m salt = .ok c) (hb : Decodes body s) (hi : Invertible (s.map narrow)) :
    (univ.filter fun h : Point => Verify xof fuel (pointOf h) m (hd :: (salt ++ body)) = .ok true).card =
      (univ.filter fun u : Point => (sqLen u + normSq (s.map narrow)) % 2 ^ 32 ≤ sigBound).card := by
  obtain ⟨h0, hne⟩ := zeros_invertible hi
  rw [C85_count xof fuel m salt body hd c s hs hc hb, h0, pow_zero, one_mul]
  exact card_drop_true (A := Point) _ _ fun u w hw h => absurd h (hne w hw)

/-- The vectors with coefficients -1, 0 and 1. -/
def ternary (v : Fin 512 → Fin 3) : Point := fun i => ⟨(v i).val + 6143, by have := (v i).isLt; omega⟩

theorem sqLen_ternary (v : Fin 512 → Fin 3) : sqLen (ternary v) ≤ 512 := by
  have : ∀ i : Fin 512, (((ternary v i).val : Int) - 6144).natAbs ^ 2 ≤ 1 := by
    intro i
    have h := (v i).isLt
    have : (((ternary v i).val : Int) - 6144).natAbs ≤ 1 := by
      simp only [ternary]; omega
    calc _ ≤ 1 ^ 2 := Nat.pow_le_pow_left this 2
      _ = 1 := rfl
  calc sqLen (ternary v) ≤ ∑ _i : Fin 512, 1 := sum_le_sum fun i _ => this i
    _ = 512 := by rw [sum_const, card_univ, Fintype.card_fin, smul_eq_mul]

open Classical in
/-- C85 is violated on a large scale: a signature whose vector is invertible and leaves a margin of 512 below the bound is accepted under
at least `3^512` keys. -/
theorem C85_violated_many (xof : Xof) (fuel : Nat) (m salt body : List UInt8) (hd : UInt8) (c : List Int16) (s : List Int)
    (hs : salt.length = 40) (hc : hashToPoint xof fuel m salt = .ok c) (hb : Decodes body s) (hi : Invertible (s.map narrow))
    (hn : normSq (s.map narrow) + 512 ≤ sigBound) :
    3 ^ 512 ≤ (univ.filter fun h : Point => Verify xof fuel (pointOf h) m (hd :: (salt ++ body)) = .ok true).card := by
  rw [C85_count_invertible xof fuel m salt body hd c s hs hc hb hi]
  have hc : Fintype.card (Fin 512 → Fin 3) = 3 ^ 512 := by rw [Fintype.card_fun, Fintype.card_fin, Fintype.card_fin]
  rw [← hc]
  refine card_le_of_injective (B := Point) _ ternary ?_ ?_
  · intro a b h
    funext i
    have := congrArg Fin.val (congrFun h i)
    simp only [ternary] at this
    apply Fin.ext
    omega
  · intro v
    have h := sqLen_ternary v
    have hb' : sigBound < 2 ^ 32 := by decide
    rw [Nat.mod_eq_of_lt (by omega)]; omega

theorem polyI_zeros (k : Nat) : polyI (List.replicate k 0) = 0 := by
  unfold polyI
  rw [List.map_replicate]
  induction k with
  | zero => simp
  | succ k ih =>
    rw [List.replicate_succ, poly, ih]
    simp

theorem sigEq_zero {n k : Nat} (hn : 0 < n) {c pk : List Int16} {t : List Int} (lc : c.length = n) (lt : t.length = n) :
    SigEq n c pk (List.replicate k 0) t ↔ polyI t = polyQ c := by
  unfold SigEq
  rw [polyI_zeros, zero_mul, add_zero]
  constructor
  · intro h
    refine sub_eq_zero_of_cyc hn h ?_ ?_
    · have := polyI_degree t; rwa [lt] at this
    · have := polyQ_degree c; rwa [lc] at this
  · intro h
    rw [h, sub_self]; exact dvd_zero _

/-- C85, the other extreme: with the zero vector the outcome does not depend on the key. Every key of 512 coefficients accepts if the hash
value, centred, is within the bound, and none otherwise. -/
theorem C85_zero (xof : Xof) (fuel : Nat) (m salt body : List UInt8) (hd : UInt8) (c : List Int16)
    (hs : salt.length = 40) (hc : hashToPoint xof fuel m salt = .ok c) (hb : Decodes body (List.replicate 512 0))
    (pk : List Int16) (hl : pk.length = 512) :
    Verify xof fuel pk m (hd :: (salt ++ body)) = .ok true ↔
      ∃ t : List Int, t.length = 512 ∧ (∀ x ∈ t, -6144 ≤ x ∧ x ≤ 6144) ∧ polyI t = polyQ c ∧ normSq t % 2 ^ 32 ≤ sigBound := by
  have lc : c.length = 512 := (C16_hash_reduced _ _ _ _ _ hc).1
  have hz : (List.replicate 512 (0 : Int)).map narrow = List.replicate 512 0 := by rw [List.map_replicate]; rfl
  have key : ∀ u : Point, SigEq 512 c pk (List.replicate 512 0) (centred u) ↔ polyI (centred u) = polyQ c :=
    fun u => sigEq_zero (by decide) lc (centred_length u)
  have bound : ∀ u : Point, (sqLen u + normSq (List.replicate 512 0)) = normSq (centred u) := by
    intro u
    rw [normSq_zeros, normSq_centred, Nat.add_zero]
  rw [accept_iff_residual xof fuel m salt body hd c _ hs hc hb pk hl, hz]
  simp only [key, bound]
  constructor
  · rintro ⟨u, h1, h2⟩
    exact ⟨centred u, centred_length u, centred_bounds u, h2, h1⟩
  · rintro ⟨t, h1, h2, h3, h4⟩
    obtain ⟨u, rfl⟩ := exists_centred h1 h2
    exact ⟨u, h4, h3⟩

open Classical in
/-- C85 is violated in the concrete: with SHAKE256 the first signature of the repository is accepted for its own message under at least
`3^512` keys. -/
theorem C85_violated_honest_many :
    3 ^ 512 ≤ (univ.filter fun h : Point => Verify Shake.shake256 612 (pointOf h) honestMsg honestSig = .ok true).card := by
  have hd : Decodes (honestSig.drop 41) honestVec :=
    ⟨by decide +kernel, by decide +kernel, by decide +kernel, List.isPrefixOf_iff_prefix.1 honest_body⟩
  have h := C85_violated_many Shake.shake256 612 honestMsg (saltOf honestSig) (honestSig.drop 41) (honestSig.headD 0) honestHash honestVec
    (by decide +kernel) honest_hash hd honest_invertible (by rw [honest_narrow]; decide +kernel)
  have e : honestSig.headD 0 :: (saltOf honestSig ++ honestSig.drop 41) = honestSig := by decide +kernel
  rw [e] at h
  exact h

/-- The zero vector has a body: the hypotheses of `C85_zero` are met, and the outcome can be either. -/
example : Decodes ((List.replicate 64 [0x00, 0x80, 0x40, 0x20, 0x10, 0x08, 0x04, 0x02, 0x01]).flatten) (List.replicate 512 0) :=
  ⟨by decide +kernel, by decide +kernel, by decide +kernel, List.isPrefixOf_iff_prefix.1 (by decide +kernel)⟩

/-- The vector `x^256 - 1479`. -/
def halfVec : List Int := -1479 :: (List.replicate 255 0 ++ 1 :: List.replicate 255 0)

theorem poly_zeros_append (k : Nat) (l : List Zq) : poly (List.replicate k 0 ++ l) = X ^ k * poly l := by
  induction k with
  | zero => simp
  | succ k ih =>
    rw [List.replicate_succ, List.cons_append, poly, ih]
    simp only [map_zero, zero_add]
    ring

theorem halfVec_eval_gen (n k : Nat) (w : Zq) :
    (poly (-1479 :: (List.replicate n 0 ++ 1 :: List.replicate k 0))).eval w = w ^ (n + 1) - 1479 := by
  have hz : poly (List.replicate k (0 : Zq)) = 0 := by
    have := polyI_zeros k
    unfold polyI at this
    rwa [List.map_replicate, Int.cast_zero] at this
  rw [poly, poly_zeros_append, poly, hz]
  simp only [mul_zero, add_zero, eval_add, eval_mul, eval_X, eval_pow, eval_C]
  ring

theorem halfVec_eval (w : Zq) : (polyI halfVec).eval w = w ^ 256 - 1479 := by
  have e : halfVec.map (fun x : Int => (x : Zq)) = -1479 :: (List.replicate 255 0 ++ 1 :: List.replicate 255 0) := by
    unfold halfVec
    rw [List.map_cons, List.map_append, List.map_cons, List.map_replicate]
    norm_num
  unfold polyI
  rw [e]
  exact halfVec_eval_gen 255 255 w

theorem zeros_half_gen (n : Nat) (hn : 0 < n) (r : Zq) (hr : r ^ 2 = -1) (hc : Fintype.card {w : Zq // w ^ (2 * n) = -1} = 2 * n) :
    (univ.filter fun w : {w : Zq // w ^ (2 * n) = -1} => w.1 ^ n - r = 0).card = n := by
  classical
  have le : ∀ a : Zq, (univ.filter fun w : {w : Zq // w ^ (2 * n) = -1} => w.1 ^ n = a).card ≤ n := by
    intro a
    refine le_trans (card_le_card_of_injOn (t := (nthRoots n a).toFinset) Subtype.val ?_ Subtype.val_injective.injOn)
      ((Multiset.toFinset_card_le _).trans (card_nthRoots n a))
    intro w hw
    rw [mem_coe, mem_filter] at hw
    rw [mem_coe, Multiset.mem_toFinset, mem_nthRoots hn]
    exact hw.2
  have h1 := le r
  have h2 := le (-r)
  have hu : univ ⊆ (univ.filter fun w : {w : Zq // w ^ (2 * n) = -1} => w.1 ^ n = r) ∪
      univ.filter fun w : {w : Zq // w ^ (2 * n) = -1} => w.1 ^ n = -r := by
    intro w _
    have hw := w.2
    have : (w.1 ^ n - r) * (w.1 ^ n + r) = 0 := by
      have : (w.1 ^ n) ^ 2 = -1 := by rw [← pow_mul, mul_comm n 2]; exact hw
      linear_combination this - hr
    rcases mul_eq_zero.1 this with h | h
    · exact mem_union_left _ (mem_filter.2 ⟨mem_univ _, sub_eq_zero.1 h⟩)
    · exact mem_union_right _ (mem_filter.2 ⟨mem_univ _, eq_neg_of_add_eq_zero_left h⟩)
  have h3 := (card_le_card hu).trans (card_union_le _ _)
  rw [card_univ, hc] at h3
  simp only [sub_eq_zero]
  omega

/-- A vector between the two extremes: `x^256 - 1479` vanishes at half of the roots, so that every residual that occurs is left by
`q^256` keys. -/
theorem zeros_half : zeros halfVec = 256 ∧ ¬ Invertible halfVec := by
  have h : zeros halfVec = 256 := by
    unfold zeros
    simp only [halfVec_eval]
    exact zeros_half_gen 256 (by decide) 1479 (by decide +kernel) card_root
  exact ⟨h, fun hi => by rw [(zeros_invertible hi).1] at h; exact absurd h (by decide)⟩

end Falcon
