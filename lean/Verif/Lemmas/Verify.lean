import Verif.Spec.Verify
import Verif.Props.Encoding
import Verif.Props.Hash
import Verif.Props.Ntt
/-! Lemmas about `Verify`. -/

namespace Falcon
open Spec Polynomial

theorem par512 : (GetParamSet 512).sigbound = 34034726 ∧
    ((((GetParamSet 512).sigbytelen - UInt16.ofNat HeadLen - UInt16.ofNat SaltLen).toNat : Nat) : Int) = 625 := by
  decide +kernel

theorem centre_toInt {x : Int16} (h : 0 ≤ x.toInt ∧ x.toInt < 12289) :
    (centre x).toInt = (x.toInt + 6144) % 12289 - 6144 := by
  unfold centre
  have h1 : (x + 6144).toInt = x.toInt + 6144 := by
    rw [Int16.toInt_add, show (6144 : Int16).toInt = 6144 from rfl, Int.bmod_def]
    split <;> omega
  have h2 : ((x + 6144) % 12289).toInt = (x.toInt + 6144) % 12289 := by
    rw [Int16.toInt_mod, h1, show (12289 : Int16).toInt = 12289 from rfl, Int.tmod_eq_emod_of_nonneg (by omega)]
  rw [Int16.toInt_sub, h2, show (6144 : Int16).toInt = 6144 from rfl, Int.bmod_def]
  split <;> omega

theorem centre_bounds {x : Int16} (h : 0 ≤ x.toInt ∧ x.toInt < 12289) :
    -6144 ≤ (centre x).toInt ∧ (centre x).toInt ≤ 6144 := by
  rw [centre_toInt h]; omega

theorem centre_zq {x : Int16} (h : 0 ≤ x.toInt ∧ x.toInt < 12289) : zq (centre x) = zq x := by
  unfold zq
  rw [ZMod.intCast_eq_intCast_iff', centre_toInt h]
  push_cast
  omega

theorem u32_sq (v : Int16) : (UInt32.ofInt v.toInt * UInt32.ofInt v.toInt).toNat = v.toInt.natAbs ^ 2 := by
  have hb := i16_bounds v
  have h1 : v.toInt.natAbs ≤ 32768 := by omega
  have h2 : v.toInt.natAbs ^ 2 ≤ 2 ^ 30 := by
    calc v.toInt.natAbs ^ 2 ≤ 32768 ^ 2 := Nat.pow_le_pow_left h1 2
      _ = 2 ^ 30 := by norm_num
  have h3 : (UInt32.ofInt v.toInt).toNat = (v.toInt % 2 ^ 32).toNat := by
    rw [UInt32.ofInt, UInt32.toNat_ofNat']
    omega
  rw [UInt32.toNat_mul, h3]
  rcases le_or_gt 0 v.toInt with h | h
  · have : (v.toInt % 2 ^ 32).toNat = v.toInt.natAbs := by omega
    rw [this, ← pow_two, Nat.mod_eq_of_lt (by omega)]
  · obtain ⟨a, ha⟩ : ∃ a, a = v.toInt.natAbs := ⟨_, rfl⟩
    have : (v.toInt % 2 ^ 32).toNat = 2 ^ 32 - a := by omega
    rw [this, ← ha]
    have e : (2 ^ 32 - a) * (2 ^ 32 - a) = a ^ 2 + 2 ^ 32 * (2 ^ 32 - 2 * a) := by
      zify [show a ≤ 2 ^ 32 by omega, show 2 * a ≤ 2 ^ 32 by omega]
      ring
    rw [e, Nat.add_mul_mod_self_left, Nat.mod_eq_of_lt]
    rw [ha]; omega

theorem addSquares_toNat (acc : UInt32) (l : List Int16) :
    (addSquares acc l).toNat = (acc.toNat + normSq (l.map Int16.toInt)) % 2 ^ 32 := by
  induction l generalizing acc with
  | nil =>
    simp [addSquares, normSq]
  | cons v l ih =>
    have : addSquares acc (v :: l) = addSquares (acc + UInt32.ofInt v.toInt * UInt32.ofInt v.toInt) l := rfl
    rw [this, ih, UInt32.toNat_add, u32_sq]
    simp only [normSq, List.map_cons, List.sum_cons]
    omega

theorem narrow_eq (x : Int) : (Int16.ofInt x).toInt = narrow x := by
  rw [Int16.toInt_ofInt]; rfl

theorem map_narrow (s : List Int) : (s.map Int16.ofInt).map Int16.toInt = s.map narrow := by
  rw [List.map_map]
  apply List.map_congr_left
  intro x _
  exact narrow_eq x

theorem polyI_toInt (s : List Int16) : polyI (s.map Int16.toInt) = polyQ s := by
  unfold polyI polyQ
  rw [List.map_map]
  rfl

/-- A centred vector is determined by its residues. -/
theorem centred_inj {s t : List Int} (hs : ∀ x ∈ s, -6144 ≤ x ∧ x ≤ 6144) (ht : ∀ x ∈ t, -6144 ≤ x ∧ x ≤ 6144)
    (h : s.map (fun x : Int => (x : Zq)) = t.map (fun x : Int => (x : Zq))) : s = t := by
  induction s generalizing t with
  | nil => cases t with
    | nil => rfl
    | cons b t => simp at h
  | cons a s ih => cases t with
    | nil => simp at h
    | cons b t =>
      simp only [List.map_cons, List.cons.injEq] at h
      have h1 := hs a (by simp)
      have h2 := ht b (by simp)
      have h3 := h.1
      rw [ZMod.intCast_eq_intCast_iff'] at h3
      have h4 : a % 12289 = b % 12289 := h3
      rw [ih (fun x hx => hs x (by simp [hx])) (fun x hx => ht x (by simp [hx])) h.2]
      congr 1
      omega

theorem polyI_degree (s : List Int) : (polyI s).degree < s.length := by
  have := poly_degree_lt (s.map fun x : Int => (x : Zq))
  simpa [polyI] using this

theorem degree_cyc {n : Nat} (h : 0 < n) : (X ^ n + 1 : Zq[X]).degree = n := by
  simpa using degree_X_pow_add_C h (1 : Zq)

theorem sub_eq_zero_of_cyc {n : Nat} (h : 0 < n) {f g : Zq[X]} (hd : (X ^ n + 1 : Zq[X]) ∣ f - g)
    (hf : f.degree < n) (hg : g.degree < n) : f = g := by
  refine sub_eq_zero.1 (eq_zero_of_dvd_of_degree_lt hd ?_)
  rw [degree_cyc h]
  exact lt_of_le_of_lt (degree_sub_le _ _) (max_lt hf hg)

theorem dvd_cancel {M a b x c : Zq[X]} (h1 : M ∣ a + x - c) (h2 : M ∣ b + x - c) : M ∣ a - b := by
  have := dvd_sub h1 h2
  have e : a + x - c - (b + x - c) = a - b := by ring
  rwa [e] at this

theorem dvd_residual {M a c p : Zq[X]} (h : M ∣ a - p) : M ∣ c - p + a - c := by
  have e : c - p + a - c = a - p := by ring
  rwa [e]

theorem MulZq_spec_n {n : Nat} (k : Nat) (h1 : 1 ≤ k) (h : k ≤ 10) (hn : 2 ^ k = n) (f g : List Int16)
    (hf : f.length = n) (hg : g.length = n) : ∃ r, MulZq wrap64 f g = .ok r ∧ IsProduct n f g r := by
  subst hn
  exact MulZq_spec wrap64_good k h1 h f g hf hg

theorem residual_unique {n : Nat} (hn : 0 < n) {c h : List Int16} {s1 s0 t0 : List Int} (hs : IsResidual n c h s1 s0)
    (ht : IsResidual n c h s1 t0) :
    s0 = t0 := by
  obtain ⟨ls, bs, ds⟩ := hs
  obtain ⟨lt, bt, dt⟩ := ht
  apply centred_inj bs bt
  apply poly_injective (by simp [ls, lt])
  have hd := dvd_cancel ds dt
  refine sub_eq_zero_of_cyc hn hd ?_ ?_
  · have := polyI_degree s0; rwa [ls] at this
  · have := polyI_degree t0; rwa [lt] at this

theorem map_centre_polyI {s : List Int16} (h : Reduced s) : polyI ((s.map centre).map Int16.toInt) = polyQ s := by
  rw [polyI_toInt]
  unfold polyQ
  rw [List.map_map]
  congr 1
  apply List.map_congr_left
  intro x hx
  exact centre_zq (h x hx)

theorem decide_not_gt (a b : UInt32) : (!decide (a > b)) = decide (a.toNat ≤ b.toNat) := by
  by_cases h : a > b
  · have : b.toNat < a.toNat := UInt32.lt_iff_toNat_lt.1 h
    simp [h, this]
  · have : ¬ b.toNat < a.toNat := fun hc => h (UInt32.lt_iff_toNat_lt.2 hc)
    simp [h]
    omega

theorem residual_of_product {n : Nat} {c h p r : List Int16} {s : List Int} (lc : c.length = n)
    (hp : IsProduct n (s.map Int16.ofInt) h p) (lr : r.length = c.length) (rr : Reduced r) (pr : polyQ r = polyQ c - polyQ p) :
    IsResidual n c h (s.map narrow) ((r.map centre).map Int16.toInt) := by
  obtain ⟨lp, rp, dp⟩ := hp
  refine ⟨by simp [lr, lc], ?_, ?_⟩
  · intro x hx
    simp only [List.mem_map] at hx
    obtain ⟨_, ⟨y, hy, rfl⟩, rfl⟩ := hx
    exact centre_bounds (rr y hy)
  · rw [SigEq, map_centre_polyI rr, pr, ← map_narrow, polyI_toInt]
    exact dvd_residual dp

/-- `verifyBody` once decoding and hashing have succeeded, for a key of 512 coefficients. -/
theorem verifyBody_ok {xof : Xof} {fuel : Nat} {pk : List Int16} {m salt body : List UInt8} {s : List Int} {c : List Int16}
    (hpk : pk.length = 512) (hd : Decompress body 625 512 = .ok (.ok s)) (hc : hashToPoint xof fuel m salt = .ok c) :
    ∃ s0, IsResidual 512 c pk (s.map narrow) s0 ∧
      verifyBody xof fuel pk m salt body = .ok (decide ((normSq s0 + normSq (s.map narrow)) % 2 ^ 32 ≤ sigBound)) := by
  obtain ⟨lc, rc⟩ := C16_hash_reduced _ _ _ _ _ hc
  have ls : s.length = 512 := by
    have := (C07_decoded_bounds _ _ _ _ hd).1; omega
  obtain ⟨p, ep, hp⟩ := MulZq_spec_n 9 (by decide) (by decide) (by decide) (s.map Int16.ofInt) pk (by simpa using ls) hpk
  obtain ⟨r, er, lr, rr, pr⟩ := SubZq_poly c p (lc.trans hp.1.symm) (reduced_le rc) (reduced_ne hp.2.1)
  refine ⟨(r.map centre).map Int16.toInt, residual_of_product lc hp lr rr pr, ?_⟩
  · unfold verifyBody
    obtain ⟨hp1, hp2⟩ := par512
    simp only [hp1, hp2, hd, hc, ep, er, Go.ok_bind, Go.pure_eq]
    rw [decide_not_gt, addSquares_toNat, addSquares_toNat, map_narrow]
    have : (34034726 : UInt32).toNat = sigBound := rfl
    rw [this]
    congr 2
    simp

theorem verifyBody_reject {xof : Xof} {fuel : Nat} {pk : List Int16} {m salt body : List UInt8} {e : EncErr}
    (hd : Decompress body 625 512 = .ok (.error e)) : verifyBody xof fuel pk m salt body = .ok false := by
  unfold verifyBody
  simp only [par512.2, hd, Go.ok_bind, Go.pure_eq]

theorem verifyBody_panic {xof : Xof} {fuel : Nat} {pk : List Int16} {m salt body : List UInt8}
    (hd : Decompress body 625 512 = .panic) : verifyBody xof fuel pk m salt body = .panic := by
  unfold verifyBody
  simp only [par512.2, hd, Go.panic_bind]

theorem verifyBody_diverge {xof : Xof} {fuel : Nat} {pk : List Int16} {m salt body : List UInt8} {s : List Int}
    (hd : Decompress body 625 512 = .ok (.ok s)) (hc : hashToPoint xof fuel m salt = .diverge) :
    verifyBody xof fuel pk m salt body = .diverge := by
  unfold verifyBody
  simp only [par512.2, hd, hc, Go.ok_bind, Go.diverge_bind]

theorem hash_cases (xof : Xof) (fuel : Nat) (m salt : List UInt8) :
    (∃ c, hashToPoint xof fuel m salt = .ok c) ∨ hashToPoint xof fuel m salt = .diverge := by
  rw [C16_hash_exact]
  split
  · exact Or.inl ⟨_, rfl⟩
  · exact Or.inr rfl

theorem Verify_short {xof : Xof} {fuel : Nat} {pk : List Int16} {m sig : List UInt8} (h : sig.length < 41) :
    Verify xof fuel pk m sig = .panic := by
  unfold Verify slice HeadLen SaltLen
  rw [if_neg (by omega)]
  rfl

theorem Verify_eq {xof : Xof} {fuel : Nat} {pk : List Int16} {m sig : List UInt8} (h : 41 ≤ sig.length) :
    Verify xof fuel pk m sig = verifyBody xof fuel pk m ((sig.take 41).drop 1) (sig.drop 41) := by
  unfold Verify slice HeadLen SaltLen
  rw [if_pos (by omega), if_pos (by omega)]
  simp

theorem Verify_cons {xof : Xof} {fuel : Nat} {pk : List Int16} {m salt body : List UInt8} (b : UInt8) (hs : salt.length = 40) :
    Verify xof fuel pk m (b :: (salt ++ body)) = verifyBody xof fuel pk m salt body := by
  rw [Verify_eq (by simp; omega)]
  congr 1
  · simp [hs]
  · simp [hs]

theorem decodes_iff (x : List UInt8) (s : List Int) : Decompress x 625 512 = .ok (.ok s) ↔ Decodes x s := by
  rw [C04_decompress_accepts_iff]
  unfold Decodes
  constructor
  · rintro ⟨a, b, c, d⟩; exact ⟨by omega, b, by omega, d⟩
  · rintro ⟨a, b, c, d⟩; exact ⟨by omega, b, by omega, d⟩

end Falcon
