import Verif.Props.Babai
import Verif.Props.Verify
/-!
# The private key as a basis of the public lattice (C58)
-/

namespace Falcon
open Spec Polynomial

/-- The vector `(u, v)` of integer polynomials lies in the lattice of the public key `h`: `u + v*h = 0` modulo `x^n+1` and `q`. -/
def InLattice (n : Nat) (h : List Int16) (u v : ℤ[X]) : Prop :=
  (X ^ n + 1 : Zq[X]) ∣ u.map (Int.castRingHom Zq) + v.map (Int.castRingHom Zq) * polyQ h

theorem polyQ_map (f : List Int16) : (polyZ (int16ToBigInt f)).map (Int.castRingHom Zq) = polyQ f := by
  unfold polyZ polyQ int16ToBigInt
  induction f with
  | nil => simp [poly]
  | cons a l ih => simp [poly, zq] at ih ⊢; rw [ih]

theorem polyI_map (f : List Int) : (polyZ f).map (Int.castRingHom Zq) = polyI f := by
  unfold polyZ polyI
  induction f with
  | nil => simp [poly]
  | cons a l ih => simp [poly] at ih ⊢; rw [ih]

/-- An integer polynomial that vanishes modulo `x^n+1` and `q` is a multiple of `q` modulo `x^n+1`. -/
theorem lift_q (n : Nat) (A : ℤ[X]) (h : (X ^ n + 1 : Zq[X]) ∣ A.map (Int.castRingHom Zq)) : ∃ a z : ℤ[X], A = (X ^ n + 1) * a + C 12289 * z := by
  obtain ⟨c, hc⟩ := h
  obtain ⟨a, rfl⟩ := Polynomial.map_surjective (Int.castRingHom Zq) (ZMod.intCast_surjective) c
  have h0 : (A - (X ^ n + 1) * a).map (Int.castRingHom Zq) = 0 := by simp [hc]
  have : C (12289 : ℤ) ∣ A - (X ^ n + 1) * a := by
    rw [Polynomial.C_dvd_iff_dvd_coeff]
    intro i
    have := congrArg (fun p => p.coeff i) h0
    simp only [coeff_map, coeff_zero, eq_intCast] at this
    exact (ZMod.intCast_zmod_eq_zero_iff_dvd _ 12289).1 this
  obtain ⟨z, hz⟩ := this
  exact ⟨a, z, by rw [← hz]; ring⟩

theorem cancel_q (n : Nat) (hn : n ≠ 0) (w : ℤ[X]) (h : (X ^ n + 1 : ℤ[X]) ∣ C 12289 * w) : (X ^ n + 1 : ℤ[X]) ∣ w := by
  have hm : (X ^ n + 1 : ℤ[X]).Monic := by
    have := monic_X_pow_add_C (1 : ℤ) hn
    simpa using this
  rw [← modByMonic_eq_zero_iff_dvd hm] at h ⊢
  rw [← smul_eq_C_mul, smul_modByMonic] at h
  exact (smul_eq_zero.1 h).resolve_left (by norm_num)

/-- C58: for every key that solves the NTRU equation over the integers and whose `f` is invertible modulo `q`, the public key `h` returned by
`GetPublicKey` defines a lattice of which the rows `(g, -f)` and `(G, -F)` form a basis: a vector lies in the lattice exactly when it is
an integer combination of the two rows modulo `x^n+1`. -/
theorem C58_basis (k : Nat) (h1 : 1 ≤ k) (h2 : k ≤ 10) (key : PrivateKey) (hh : List Int16) (n : UInt16) (hf : key.f.length = 2 ^ k)
    (hg : key.g.length = 2 ^ k) (hu : ∃ u : Zq[X], (X ^ 2 ^ k + 1 : Zq[X]) ∣ polyQ key.f * u - 1)
    (hdet : CongrZ (2 ^ k) (ntruDet (int16ToBigInt key.f) (int16ToBigInt key.g) (int16ToBigInt key.F) (int16ToBigInt key.G)) (C 12289))
    (hpub : GetPublicKey key = .ok ⟨n, hh⟩) (u v : ℤ[X]) :
    InLattice (2 ^ k) hh u v ↔ ∃ z0 z1 : ℤ[X],
      CongrZ (2 ^ k) u (z0 * polyZ (int16ToBigInt key.g) + z1 * polyZ (int16ToBigInt key.G)) ∧
      CongrZ (2 ^ k) v (-(z0 * polyZ (int16ToBigInt key.f)) - z1 * polyZ (int16ToBigInt key.F)) := by
  obtain ⟨h', e, -, -, hd⟩ := (C30_public_key k h1 h2 key hf hg).1 hu
  rw [hpub] at e
  cases e
  have hdq : (X ^ 2 ^ k + 1 : Zq[X]) ∣ polyQ key.f * polyQ key.G - polyQ key.g * polyQ key.F := by
    obtain ⟨c, hc⟩ := hdet
    have := congrArg (Polynomial.map (Int.castRingHom Zq)) hc
    simp only [ntruDet, Polynomial.map_sub, Polynomial.map_mul, polyQ_map, Polynomial.map_add, Polynomial.map_pow, map_X,
      Polynomial.map_one, map_C] at this
    refine ⟨c.map (Int.castRingHom Zq), ?_⟩
    rw [← this, show (Int.castRingHom Zq) 12289 = 0 from (by decide +kernel : ((12289 : ℤ) : Zq) = 0)]
    simp
  have ef := polyQ_map key.f
  have eg := polyQ_map key.g
  have eF := polyQ_map key.F
  have eG := polyQ_map key.G
  unfold ntruDet CongrZ at hdet
  unfold CongrZ InLattice
  generalize polyZ (int16ToBigInt key.f) = f at *
  generalize polyZ (int16ToBigInt key.g) = g at *
  generalize polyZ (int16ToBigInt key.F) = F at *
  generalize polyZ (int16ToBigInt key.G) = G at *
  rw [← ef, ← eg] at hd
  rw [← ef, ← eg, ← eF, ← eG] at hdq
  rw [← ef] at hu
  generalize polyQ hh = h at *
  obtain ⟨fi, a, ha⟩ := hu
  obtain ⟨b, hb⟩ := hd
  obtain ⟨c, hc⟩ := hdq
  -- h F = G
  have hG : (X ^ 2 ^ k + 1 : Zq[X]) ∣ h * F.map (Int.castRingHom Zq) - G.map (Int.castRingHom Zq) := by
    refine ⟨(b * F.map (Int.castRingHom Zq) - c) * fi - a * (h * F.map (Int.castRingHom Zq) - G.map (Int.castRingHom Zq)), ?_⟩
    linear_combination (fi * F.map (Int.castRingHom Zq)) * hb - fi * hc - (h * F.map (Int.castRingHom Zq) - G.map (Int.castRingHom Zq)) * ha
  obtain ⟨d, hd⟩ := hG
  constructor
  · rintro ⟨e, he⟩
    obtain ⟨p, z1, hz1⟩ := lift_q (2 ^ k) (f * u + g * v) ⟨f.map (Int.castRingHom Zq) * e - b * v.map (Int.castRingHom Zq), by
      simp only [Polynomial.map_add, Polynomial.map_mul]
      linear_combination f.map (Int.castRingHom Zq) * he - v.map (Int.castRingHom Zq) * hb⟩
    obtain ⟨r, z0, hz0⟩ := lift_q (2 ^ k) (-(F * u + G * v)) ⟨-(F.map (Int.castRingHom Zq) * e - d * v.map (Int.castRingHom Zq)), by
      simp only [Polynomial.map_add, Polynomial.map_mul, Polynomial.map_neg]
      linear_combination -(F.map (Int.castRingHom Zq) * he) + v.map (Int.castRingHom Zq) * hd⟩
    obtain ⟨t, ht⟩ := hdet
    refine ⟨z0, z1, cancel_q _ (by positivity) _ ⟨G * p + g * r - t * u, ?_⟩, cancel_q _ (by positivity) _ ⟨-(F * p) - f * r - t * v, ?_⟩⟩
    · linear_combination G * hz1 + g * hz0 - u * ht
    · linear_combination -(F * hz1) - f * hz0 - v * ht
  · rintro ⟨z0, z1, ⟨s, hs⟩, ⟨t, ht⟩⟩
    have hs' := congrArg (Polynomial.map (Int.castRingHom Zq)) hs
    have ht' := congrArg (Polynomial.map (Int.castRingHom Zq)) ht
    simp only [Polynomial.map_sub, Polynomial.map_mul, Polynomial.map_add, Polynomial.map_pow, map_X, Polynomial.map_one,
      Polynomial.map_neg] at hs' ht'
    refine ⟨s.map (Int.castRingHom Zq) + t.map (Int.castRingHom Zq) * h - z0.map (Int.castRingHom Zq) * b - z1.map (Int.castRingHom Zq) * d, ?_⟩
    linear_combination hs' + h * ht' - z0.map (Int.castRingHom Zq) * hb - z1.map (Int.castRingHom Zq) * hd

/-- C58: the two rows are independent: an integer combination that vanishes modulo `x^n+1` is trivial modulo `x^n+1`. -/
theorem C58_independent (n : Nat) (hn : n ≠ 0) (f g F G : List Int) (hdet : CongrZ n (ntruDet f g F G) (C 12289)) (z0 z1 : ℤ[X])
    (hu : CongrZ n (z0 * polyZ g + z1 * polyZ G) 0) (hv : CongrZ n (-(z0 * polyZ f) - z1 * polyZ F) 0) :
    CongrZ n z0 0 ∧ CongrZ n z1 0 := by
  unfold ntruDet CongrZ at *
  obtain ⟨a, ha⟩ := hu
  obtain ⟨b, hb⟩ := hv
  obtain ⟨t, ht⟩ := hdet
  constructor
  · exact cancel_q n hn _ ⟨-(t * z0) - polyZ F * a - polyZ G * b, by
      linear_combination -(z0 * ht) - polyZ F * ha - polyZ G * hb⟩
  · exact cancel_q n hn _ ⟨-(t * z1) + polyZ f * a + polyZ g * b, by
      linear_combination -(z1 * ht) + polyZ f * ha + polyZ g * hb⟩

/-- C58: with exact arithmetic and a resultant gcd of at most 64 bits, every generated key is a basis of the lattice of its public key. -/
theorem C58_generated (rand : Rand) (fuel : Nat) (n : UInt16) (pos : Nat) (key : PrivateKey) (pos' : Nat)
    (h : GeneratePrivateKey exactOps rand fuel n pos = .ok (.ok (key, pos')))
    (hgcd : ∀ Nf Ng, IsNorm n.toNat (polyZ (int16ToBigInt key.f)) Nf → IsNorm n.toNat (polyZ (int16ToBigInt key.g)) Ng →
      Int.gcd Nf Ng ≤ 2 ^ 64) :
    ∃ hh, GetPublicKey key = .ok ⟨n, hh⟩ ∧ (∀ u v : ℤ[X], InLattice n.toNat hh u v ↔ ∃ z0 z1 : ℤ[X],
      CongrZ n.toNat u (z0 * polyZ (int16ToBigInt key.g) + z1 * polyZ (int16ToBigInt key.G)) ∧
      CongrZ n.toNat v (-(z0 * polyZ (int16ToBigInt key.f)) - z1 * polyZ (int16ToBigInt key.F))) ∧
    ∀ z0 z1 : ℤ[X], CongrZ n.toNat (z0 * polyZ (int16ToBigInt key.g) + z1 * polyZ (int16ToBigInt key.G)) 0 →
      CongrZ n.toNat (-(z0 * polyZ (int16ToBigInt key.f)) - z1 * polyZ (int16ToBigInt key.F)) 0 →
      CongrZ n.toNat z0 0 ∧ CongrZ n.toNat z1 0 := by
  obtain ⟨⟨k, h1, h2, hn⟩, -, -⟩ := GeneratePrivateKey_ok exactOps rand fuel n pos key pos' h
  obtain ⟨hdet, -⟩ := C57_generated rand fuel n pos key pos' h hgcd
  obtain ⟨hu, hh, hp, -⟩ := C43_public_key exactOps rand fuel n pos key pos' h
  obtain ⟨-, lf, lg, -⟩ := C42_mod16_partial exactOps rand fuel n pos key pos' h
  have hn0 : n.toNat ≠ 0 := by rw [hn]; positivity
  refine ⟨hh, hp, ?_, fun z0 z1 => C58_independent n.toNat hn0 _ _ _ _ hdet z0 z1⟩
  rw [hn] at *
  exact C58_basis k h1 h2 key hh n lf lg hu hdet hp

/-- A combination of the rows subtracted from `(c, 0)` solves the signature equation. -/
theorem sigEq_of_rows (N k : Nat) (hN : N = 2 ^ k) (h1 : 1 ≤ k) (h2 : k ≤ 10) (key : PrivateKey) (hh : List Int16) (n : UInt16)
    (hf : key.f.length = N) (hg : key.g.length = N) (hu : ∃ u : Zq[X], (X ^ N + 1 : Zq[X]) ∣ polyQ key.f * u - 1)
    (hdet : CongrZ N (ntruDet (int16ToBigInt key.f) (int16ToBigInt key.g) (int16ToBigInt key.F) (int16ToBigInt key.G)) (C 12289))
    (hpub : GetPublicKey key = .ok ⟨n, hh⟩) (c : List Int16) (z0 z1 : ℤ[X]) (s1 : List Int16) (s0 : List Int)
    (e0 : CongrZ N (polyZ s0) (polyZ (int16ToBigInt c) - z0 * polyZ (int16ToBigInt key.g) - z1 * polyZ (int16ToBigInt key.G)))
    (e1 : CongrZ N (polyZ (int16ToBigInt s1)) (z0 * polyZ (int16ToBigInt key.f) + z1 * polyZ (int16ToBigInt key.F))) :
    hh.length = N ∧ SigEq N c hh (s1.map Int16.toInt) s0 := by
  subst hN
  obtain ⟨h', e, lh, -, -⟩ := (C30_public_key k h1 h2 key hf hg).1 hu
  rw [hpub] at e
  cases e
  refine ⟨lh, ?_⟩
  have key_ := (C58_basis k h1 h2 key hh _ hf hg hu hdet hpub (polyZ s0 - polyZ (int16ToBigInt c))
    (polyZ (int16ToBigInt s1))).2 ⟨-z0, -z1, by
      unfold CongrZ at *; obtain ⟨a, ha⟩ := e0; exact ⟨a, by linear_combination ha⟩, by
      unfold CongrZ at *; obtain ⟨a, ha⟩ := e1; exact ⟨a, by linear_combination ha⟩⟩
  unfold InLattice at key_
  rw [Polynomial.map_sub, polyQ_map, polyQ_map, polyI_map] at key_
  unfold SigEq
  rw [polyI_toInt]
  convert key_ using 1
  ring

/-- C58: signing with the key. Let the key solve the NTRU equation, and let `h` be its public key. Whatever integer polynomials `z0`, `z1` a
signer chooses, the pair `(s0, s1) = (c, 0) - z0 (g, -f) - z1 (G, -F)` is accepted as a signature of the message hashing to `c`
when it is within the bound and `s1` fits its field. -/
theorem C58_sign (xof : Xof) (fuel : Nat) (key : PrivateKey) (hh : List Int16) (n : UInt16) (hf : key.f.length = 512)
    (hg : key.g.length = 512) (hu : ∃ u : Zq[X], (X ^ 512 + 1 : Zq[X]) ∣ polyQ key.f * u - 1)
    (hdet : CongrZ 512 (ntruDet (int16ToBigInt key.f) (int16ToBigInt key.g) (int16ToBigInt key.F) (int16ToBigInt key.G)) (C 12289))
    (hpub : GetPublicKey key = .ok ⟨n, hh⟩) (m salt : List UInt8) (hd : UInt8) (c : List Int16) (hs : salt.length = 40)
    (hc : hashToPoint xof fuel m salt = .ok c) (z0 z1 : ℤ[X]) (s1 : List Int16) (s0 : List Int) (body : List UInt8)
    (l1 : s1.length = 512) (l0 : s0.length = 512)
    (e0 : CongrZ 512 (polyZ s0) (polyZ (int16ToBigInt c) - z0 * polyZ (int16ToBigInt key.g) - z1 * polyZ (int16ToBigInt key.G)))
    (e1 : CongrZ 512 (polyZ (int16ToBigInt s1)) (z0 * polyZ (int16ToBigInt key.f) + z1 * polyZ (int16ToBigInt key.F)))
    (hn : normSq s0 + normSq (s1.map Int16.toInt) ≤ sigBound) (hb : Compress s1 625 = .ok body) :
    Verify xof fuel hh m (hd :: (salt ++ body)) = .ok true := by
  obtain ⟨lh, hsig⟩ := sigEq_of_rows 512 9 (by norm_num) (by norm_num) (by norm_num) key hh n hf hg hu hdet hpub c z0 z1 s1 s0 e0 e1
  exact C21_verify_complete xof fuel hh m salt hd c s1 s0 body lh hs hc l1 l0 hsig hn hb

/-- C58: conversely two solutions for the same hash differ by an integer combination of the rows of the key. -/
theorem C58_difference (k : Nat) (h1 : 1 ≤ k) (h2 : k ≤ 10) (key : PrivateKey) (hh : List Int16) (n : UInt16) (hf : key.f.length = 2 ^ k)
    (hg : key.g.length = 2 ^ k) (hu : ∃ u : Zq[X], (X ^ 2 ^ k + 1 : Zq[X]) ∣ polyQ key.f * u - 1)
    (hdet : CongrZ (2 ^ k) (ntruDet (int16ToBigInt key.f) (int16ToBigInt key.g) (int16ToBigInt key.F) (int16ToBigInt key.G)) (C 12289))
    (hpub : GetPublicKey key = .ok ⟨n, hh⟩) (c : List Int16) (s1 s0 t1 t0 : List Int) (hsig : SigEq (2 ^ k) c hh s1 s0) :
    SigEq (2 ^ k) c hh t1 t0 ↔ ∃ z0 z1 : ℤ[X],
      CongrZ (2 ^ k) (polyZ s0 - polyZ t0) (z0 * polyZ (int16ToBigInt key.g) + z1 * polyZ (int16ToBigInt key.G)) ∧
      CongrZ (2 ^ k) (polyZ s1 - polyZ t1) (-(z0 * polyZ (int16ToBigInt key.f)) - z1 * polyZ (int16ToBigInt key.F)) := by
  rw [← C58_basis k h1 h2 key hh n hf hg hu hdet hpub]
  unfold InLattice
  unfold SigEq at *
  rw [Polynomial.map_sub, Polynomial.map_sub, polyI_map, polyI_map, polyI_map, polyI_map]
  rw [show polyI s0 - polyI t0 + (polyI s1 - polyI t1) * polyQ hh =
    (polyI s0 + polyI s1 * polyQ hh - polyQ c) - (polyI t0 + polyI t1 * polyQ hh - polyQ c) by ring]
  exact ⟨fun h => dvd_sub hsig h, fun h => by simpa using dvd_sub hsig h⟩

/-- The hypotheses hold for the key of the degree-2 run. -/
example : ∃ hh, GetPublicKey ⟨2, [72, 5], [60, 31], [-40, 31], [124, 0]⟩ = .ok ⟨2, hh⟩ ∧ InLattice 2 hh (C 60 + X * C 31) (-(C 72 + X * C 5)) := by
  have hdet : CongrZ 2 (ntruDet [72, 5] [60, 31] [-40, 31] [124, 0]) (C 12289) := by
    refine ⟨C (-961), ?_⟩
    simp only [ntruDet, polyZ, poly, mul_zero, add_zero]
    simp only [map_neg, map_ofNat, map_zero, mul_zero, add_zero]
    ring
  obtain ⟨hu, hh, hp, -⟩ := C43_public_key exactOps runRand 20 2 0 _ _ exact_run_key
  refine ⟨hh, hp, (C58_basis 1 (by norm_num) (by norm_num) _ hh 2 rfl rfl hu hdet hp _ _).2 ⟨1, 0, ?_, ?_⟩⟩
  · simp [CongrZ, int16ToBigInt, polyZ, poly]
  · simp [CongrZ, int16ToBigInt, polyZ, poly]

end Falcon
