import Verif.Lemmas.ConstRun
import Verif.Props.HaltAll
import Verif.Props.Lattice
import Verif.Props.Determ
/-!
# Key generation returns

For every supported degree there are random bytes for which key generation in IEEE arithmetic returns a key: the polynomials drawn are
constants, the Gram-Schmidt test accepts them and `NtruSolve` solves the NTRU equation.
-/

namespace Falcon
open Spec Polynomial F64 ComplexConjugate

theorem cst_evalR (n : Nat) (c : ℝ) (w : ℂ) : evalR (cst n c) w = c := by
  unfold evalR cst
  rw [List.map_cons, List.map_replicate]
  have : ∀ m, poly (List.replicate m ((0 : ℝ) : ℂ)) = 0 := by
    intro m
    induction m with
    | zero => rfl
    | succ m ih => rw [List.replicate_succ, poly, ih]; simp
  rw [poly, this]
  simp

theorem cst_sqNorm (n : Nat) (c : ℝ) : sqNorm (cst n c) = c ^ 2 := by
  unfold sqNorm cst
  simp

theorem cst_big (n : Nat) (c : Int16) : int16ToBigInt (cst n c) = cst n c.toInt := by
  unfold int16ToBigInt
  exact cst_map n _ rfl c

theorem cst_real (n : Nat) (c : Int) : realI (cst n c) = cst n (c : ℝ) := by
  unfold realI
  exact cst_map n _ (by simp) c

theorem cst_accepts (k : Nat) (h1 : 1 ≤ k) (h2 : k ≤ 10) (f g : Int16) (d : ℝ) (hd : d = (f.toInt : ℝ) ^ 2 + (g.toInt : ℝ) ^ 2) (lo : 9011 ≤ d)
    (hi : d ≤ 16822) :
    ∃ norm, GsNorm ieeeOps (Int16ToFloat64 ieeeOps (cst (2 ^ k) f)) (Int16ToFloat64 ieeeOps (cst (2 ^ k) g)) (ieeeOps.ofInt Q) = .ok norm ∧
      ieeeOps.lt (ieeeOps.mul (ieeeOps.pow2 (ieeeOps.lit 1.17)) (ieeeOps.ofInt Q)) norm = false := by
  have hp : 1 ≤ 2 ^ k := Nat.one_le_two_pow
  have d0 : 0 < d := by linarith
  have gr : ∀ w : ℂ, gramAt (cst (2 ^ k) f.toInt) (cst (2 ^ k) g.toInt) w = d := by
    intro w
    unfold gramAt
    rw [cst_real, cst_real, cst_evalR, cst_evalR, Complex.normSq_ofReal, Complex.normSq_ofReal, hd]
    ring
  have q : ∀ (c : Int) (w : ℂ), evalR (cst (2 ^ k) ((c : ℝ) / d)) w * (d : ℂ) = conj (evalR (realI (cst (2 ^ k) c)) w) := by
    intro c w
    rw [cst_real, cst_evalR, cst_evalR, Complex.conj_ofReal, ← Complex.ofReal_mul, div_mul_cancel₀ _ d0.ne']
  apply gs_accepts k h1 h2 (cst (2 ^ k) f) (cst (2 ^ k) g) (cst_length _ hp _) (cst_length _ hp _) ?_ ?_ (cst (2 ^ k) ((f.toInt : ℝ) / d))
    (cst (2 ^ k) ((g.toInt : ℝ) / d)) (cst_length _ hp _) (cst_length _ hp _)
  · intro w _
    rw [cst_big, cst_big, gr]
    exact q _ w
  · intro w _
    rw [cst_big, cst_big, gr]
    exact q _ w
  · rw [cst_sqNorm, cst_sqNorm, div_pow, div_pow, ← add_div, ← hd]
    have : d / d ^ 2 = 1 / d := by field_simp
    rw [this, mul_one_div, div_le_iff₀ d0]
    linarith
  · rw [cst_big, cst_big, cst_real, cst_real, cst_sqNorm, cst_sqNorm, ← hd]
    exact hi
  · intro w _
    rw [cst_big, cst_big, gr]
    linarith

theorem cst_polyQ (n : Nat) (c : Int16) : polyQ (cst n c) = C (zq c) := by
  unfold polyQ cst
  rw [List.map_cons, List.map_replicate]
  have : ∀ m, poly (List.replicate m (zq 0)) = 0 := by
    intro m
    induction m with
    | zero => rfl
    | succ m ih => rw [List.replicate_succ, poly, ih]; simp [zq]
  rw [poly, this]
  simp

theorem cst_ntt (k : Nat) (h1 : 1 ≤ k) (h2 : k ≤ 10) (f : Int16) (hf : zq f ≠ 0) :
    ∃ t, NTT wrap64 (cst (2 ^ k) f) = .ok t ∧ anyZeroes t = false := by
  obtain ⟨t, e, -, ht, -, -, -⟩ := C09_ntt_is_evaluation k h1 h2 (cst (2 ^ k) f) (cst_length _ Nat.one_le_two_pow _)
  refine ⟨t, e, ?_⟩
  by_contra hc
  rw [Bool.not_eq_false, C55_anyZeroes] at hc
  obtain ⟨v, hv, rfl⟩ := hc
  have hz : zq 0 ∈ t.map zq := List.mem_map_of_mem hv
  rw [ht] at hz
  obtain ⟨a, -, e0⟩ := List.mem_map.1 hz
  rw [cst_polyQ, eval_C] at e0
  exact hf (e0.trans (by simp [zq]))

/-- A run of key generation that draws constants and whose NTRU equation is solved on constants. -/
theorem cst_keygen (k : Nat) (h1 : 1 ≤ k) (h2 : k ≤ 10) (f g F G : Int16)
    (bf : -18 * ((4096 / 2 ^ k : Nat) : Int) ≤ f.toInt ∧ f.toInt ≤ 19 * ((4096 / 2 ^ k : Nat) : Int))
    (bg : -18 * ((4096 / 2 ^ k : Nat) : Int) ≤ g.toInt ∧ g.toInt ≤ 19 * ((4096 / 2 ^ k : Nat) : Int))
    (lo : 9011 ≤ f.toInt ^ 2 + g.toInt ^ 2) (hi : f.toInt ^ 2 + g.toInt ^ 2 ≤ 16822) (hz : zq f ≠ 0)
    (hs : sSolve k 2000 f.toInt g.toInt = some (F.toInt, G.toInt)) :
    ∃ rand : Rand, ∀ fuel, 2000 ≤ fuel → GeneratePrivateKey ieeeOps rand fuel (UInt16.ofNat (2 ^ k)) 0 =
      .ok (.ok (⟨UInt16.ofNat (2 ^ k), cst (2 ^ k) f, cst (2 ^ k) g, cst (2 ^ k) F, cst (2 ^ k) G⟩, 8192)) := by
  have hp : 1 ≤ 2 ^ k := Nat.one_le_two_pow
  have hn : (UInt16.ofNat (2 ^ k)).toNat = 2 ^ k := by
    rw [UInt16.toNat_ofNat']
    exact Nat.mod_eq_of_lt (Nat.pow_lt_pow_right (by decide) (by omega))
  have cf : ∀ v : Int16, (-18 * ((4096 / 2 ^ k : Nat) : Int) ≤ v.toInt ∧ v.toInt ≤ 19 * ((4096 / 2 ^ k : Nat) : Int)) → ∀ c ∈ cst (2 ^ k) v,
      -18 * ((4096 / 2 ^ k : Nat) : Int) ≤ c.toInt ∧ c.toInt ≤ 19 * ((4096 / 2 ^ k : Nat) : Int) := by
    intro v hv c hc
    unfold cst at hc
    rcases List.mem_cons.1 hc with rfl | h
    · exact hv
    · rw [List.eq_of_mem_replicate h]
      generalize 4096 / 2 ^ k = m
      rw [show (0 : Int16).toInt = 0 by decide]
      omega
  obtain ⟨rand, hr⟩ := C73_pair key_ieee (UInt16.ofNat (2 ^ k)) (by rw [hn]; exact hp)
    (by rw [hn]; exact (Nat.pow_le_pow_right (by decide) h2).trans (by decide)) (cst (2 ^ k) f) (cst (2 ^ k) g) (by rw [hn, cst_length _ hp])
    (by rw [hn, cst_length _ hp]) (by rw [hn]; exact cf f bf) (by rw [hn]; exact cf g bg)
  obtain ⟨v, hv, hl⟩ := cst_accepts k h1 h2 f g _ rfl (by exact_mod_cast lo) (by exact_mod_cast hi)
  obtain ⟨t, ht, hz⟩ := cst_ntt k h1 h2 f hz
  have narrow : ∀ c : Int16, bigIntToInt16 (cst (2 ^ k) c.toInt) = cst (2 ^ k) c := by
    intro c
    unfold bigIntToInt16
    rw [cst_map _ _ (by decide)]
    congr 1
    have l1 := c.le_toInt
    have l2 := c.toInt_lt
    rw [show bigInt64 c.toInt = c.toInt by
      unfold bigInt64
      simp only
      rw [i64_eq (s := (c.toInt.natAbs : Int)) (by omega) (by omega)]
      split
      · rw [i64_eq (by omega) (by omega)]; omega
      · omega]
    exact Int16.ofInt_toInt c
  have h : GeneratePrivateKey ieeeOps rand 2000 (UInt16.ofNat (2 ^ k)) 0 =
      .ok (.ok (⟨UInt16.ofNat (2 ^ k), cst (2 ^ k) f, cst (2 ^ k) g, cst (2 ^ k) F, cst (2 ^ k) G⟩, 8192)) := by
    unfold GeneratePrivateKey
    rw [if_neg (by
      clear * - h1 h2
      interval_cases k <;> decide)]
    obtain ⟨hf, hg⟩ := hr 1999
    have : NtruGen ieeeOps rand (1999 + 1) (UInt16.ofNat (2 ^ k)) 0 =
        .ok (⟨cst (2 ^ k) f, cst (2 ^ k) g, cst (2 ^ k) F, cst (2 ^ k) G⟩, 8192) := by
      rw [NtruGen, hf, Go.ok_bind]
      simp only [hg, hv, Go.ok_bind]
      rw [if_neg (fun hc => Bool.noConfusion (hl.symm.trans hc)), ht, Go.ok_bind, hz, if_neg (by decide), cst_big, cst_big,
        solve_cst k h2 (1999 + 1) _ _ _ hs, Go.ok_bind]
      simp only [narrow]
      rfl
    rw [this]
    rfl
  refine ⟨rand, fun fuel hfu => ?_⟩
  rw [← h]
  exact (C72_outcome ieeeOps 2000 fuel hfu).1 rand _ 0 (by rw [h]; simp)

/-- The two coordinates of the lattice vector subtracted from a coefficient of a hash. -/
def near0 (c : Int) : Int := (68 * c + 12289) / 24578
def near1 (c : Int) : Int := (190 * c + 12289) / 24578

theorem near_bound (c : Int) : -65 ≤ c - near0 c * 1 - near1 c * 129 ∧ c - near0 c * 1 - near1 c * 129 ≤ 65 ∧
    -65 ≤ near0 c * 95 + near1 c * (-34) ∧ near0 c * 95 + near1 c * (-34) ≤ 65 := by
  unfold near0 near1
  omega

/-- C90. For every supported degree there are random bytes for which key generation in IEEE arithmetic returns a key, with any bound from 2000
steps on; its polynomials are constants that satisfy the NTRU equation, and `NewKeyPair` returns it too. -/
theorem C90_keygen (k : Nat) (h1 : 1 ≤ k) (h2 : k ≤ 10) : ∃ (rand : Rand) (key : PrivateKey), (∀ fuel, 2000 ≤ fuel →
      GeneratePrivateKey ieeeOps rand fuel (UInt16.ofNat (2 ^ k)) 0 = .ok (.ok (key, 8192)) ∧
      NewKeyPair ieeeOps rand fuel (UInt16.ofNat (2 ^ k)) 0 = .ok (.ok (some key, none))) ∧
    CongrZ (2 ^ k) (ntruDet (int16ToBigInt key.f) (int16ToBigInt key.g) (int16ToBigInt key.F) (int16ToBigInt key.G)) (C 12289) := by
  have hb : 4 ≤ 4096 / 2 ^ k := by
    rw [show (4096 : Nat) = 2 ^ 12 by rfl, Nat.pow_div (by omega) (by decide), show (4 : Nat) = 2 ^ 2 by rfl]
    exact Nat.pow_le_pow_right (by decide) (by omega)
  have det : ∀ f g F G : Int16, f.toInt * G.toInt - g.toInt * F.toInt = 12289 → CongrZ (2 ^ k) (ntruDet (int16ToBigInt (cst (2 ^ k) f))
      (int16ToBigInt (cst (2 ^ k) g)) (int16ToBigInt (cst (2 ^ k) F)) (int16ToBigInt (cst (2 ^ k) G))) (C 12289) := by
    intro f g F G e
    unfold CongrZ ntruDet polyZ
    rw [cst_big, cst_big, cst_big, cst_big, poly_cst, poly_cst, poly_cst, poly_cst, ← C_mul, ← C_mul, ← C_sub, e, sub_self]
    exact dvd_zero _
  by_cases hk : k = 10
  · subst hk
    obtain ⟨rand, hr⟩ := cst_keygen 10 h1 h2 76 59 (-55) 119 (by decide) (by decide) (by decide) (by decide) (by decide +kernel) large_solve
    exact ⟨rand, _, fun fuel hf => ⟨hr fuel hf, C31_violated_always _ _ _ (by omega) _ _ _ _ (hr fuel hf)⟩, det 76 59 (-55) 119 (by decide)⟩
  · have h8 : 8 ≤ 4096 / 2 ^ k := by
      rw [show (4096 : Nat) = 2 ^ 12 by rfl, Nat.pow_div (by omega) (by decide), show (8 : Nat) = 2 ^ 3 by rfl]
      exact Nat.pow_le_pow_right (by decide) (by omega)
    obtain ⟨j, rfl⟩ : ∃ j, k = j + 1 := ⟨k - 1, by omega⟩
    have e1 : (95 : Int16).toInt = 95 := by decide
    have e2 : (1 : Int16).toInt = 1 := by decide
    obtain ⟨rand, hr⟩ := cst_keygen (j + 1) h1 h2 95 1 (-34) 129 (by rw [e1]; omega) (by rw [e2]; omega) (by decide) (by decide) (by decide +kernel)
      (small_solve j (by omega))
    exact ⟨rand, _, fun fuel hf => ⟨hr fuel hf, C31_violated_always _ _ _ (by omega) _ _ _ _ (hr fuel hf)⟩, det 95 1 (-34) 129 (by decide)⟩

theorem polyZ_comb (a b : Int) (z w : Int → Int) (l : List Int) :
    polyZ (l.map fun x => z x * a + w x * b) = polyZ (l.map z) * C a + polyZ (l.map w) * C b := by
  unfold polyZ
  induction l with
  | nil => simp
  | cons x l ih =>
    simp only [List.map_cons, poly, ih, C_add, C_mul]
    ring

theorem polyZ_diff (a b : Int) (z w : Int → Int) (l : List Int) :
    polyZ (l.map fun x => x - z x * a - w x * b) = polyZ l - polyZ (l.map z) * C a - polyZ (l.map w) * C b := by
  unfold polyZ
  induction l with
  | nil => simp
  | cons x l ih =>
    simp only [List.map_cons, poly, ih, C_sub, C_mul]
    ring

theorem sum_le_mul {α : Type} (l : List α) (φ : α → Nat) (B : Nat) (h : ∀ x ∈ l, φ x ≤ B) : (l.map φ).sum ≤ l.length * B := by
  induction l with
  | nil => simp
  | cons x l ih =>
    have h1 := h x List.mem_cons_self
    have h2 := ih fun y hy => h y (List.mem_cons_of_mem _ hy)
    simp only [List.map_cons, List.sum_cons, List.length_cons]
    linarith [h1, h2, Nat.succ_mul l.length B]

/-- Every hash is close to the lattice of a key with the constants 95, 1, -34 and 129. -/
theorem cst_signable (key : PrivateKey) (hh : List Int16) (n : UInt16) (hf : key.f.length = 512) (hg : key.g.length = 512)
    (hu : ∃ u : Zq[X], (X ^ 512 + 1 : Zq[X]) ∣ polyQ key.f * u - 1) (hpub : GetPublicKey key = .ok ⟨n, hh⟩)
    (pf : polyZ (int16ToBigInt key.f) = C 95) (pg : polyZ (int16ToBigInt key.g) = C 1) (pF : polyZ (int16ToBigInt key.F) = C (-34))
    (pG : polyZ (int16ToBigInt key.G) = C 129) (xof : Xof) (fuel : Nat) (m salt : List UInt8) (hd : UInt8) (hs : salt.length = 40)
    (hh' : ∃ c, hashToPoint xof fuel m salt = .ok c) :
    ∃ body : List UInt8, body.length = 625 ∧ Verify xof fuel hh m (hd :: (salt ++ body)) = .ok true := by
  obtain ⟨c, hc⟩ := hh'
  have lc := (C16_hash_reduced xof fuel m salt c hc).1
  set L := int16ToBigInt c with hL
  have lL : L.length = 512 := by rw [hL, int16ToBigInt, List.length_map, lc]
  set s0 := L.map fun x => x - near0 x * 1 - near1 x * 129 with hs0
  set s1 := L.map fun x => Int16.ofInt (near0 x * 95 + near1 x * (-34)) with hs1
  have hb1 : s1.map Int16.toInt = L.map fun x => near0 x * 95 + near1 x * (-34) := by
    rw [hs1, List.map_map]
    apply List.map_congr_left
    intro x _
    obtain ⟨-, -, b1, b2⟩ := near_bound x
    exact Int16.toInt_ofInt_of_le (by omega) (by omega)
  have n0 : normSq s0 ≤ 512 * 4225 := by
    unfold normSq
    rw [hs0, List.map_map, ← lL]
    apply sum_le_mul
    intro x _
    obtain ⟨b1, b2, -, -⟩ := near_bound x
    show (x - near0 x * 1 - near1 x * 129).natAbs ^ 2 ≤ 65 ^ 2
    exact Nat.pow_le_pow_left (by omega) 2
  have n1 : normSq (s1.map Int16.toInt) ≤ 512 * 4225 := by
    unfold normSq
    rw [hb1, List.map_map, ← lL]
    apply sum_le_mul
    intro x _
    obtain ⟨-, -, b1, b2⟩ := near_bound x
    show (near0 x * 95 + near1 x * (-34)).natAbs ^ 2 ≤ 65 ^ 2
    exact Nat.pow_le_pow_left (by omega) 2
  have len : codeLen (s1.map Int16.toInt) ≤ 512 * 9 := by
    unfold codeLen
    rw [hb1, List.map_map, ← lL]
    apply sum_le_mul
    intro x _
    obtain ⟨-, -, b1, b2⟩ := near_bound x
    show 9 + (near0 x * 95 + near1 x * (-34)).natAbs / 128 ≤ 9
    omega
  obtain ⟨body, hbody, lbody⟩ := (C02_compress_fits s1 625 (by norm_num)).1 (by omega)
  refine ⟨body, by omega, ?_⟩
  refine C58_sign xof fuel key hh n hf hg hu ?_ hpub m salt hd c hs hc (polyZ (L.map near0)) (polyZ (L.map near1)) s1 s0 body ?_ ?_ ?_ ?_ ?_ hbody
  · unfold CongrZ ntruDet
    rw [pf, pg, pF, pG, ← C_mul, ← C_mul, ← C_sub]
    norm_num
  · rw [hs1, List.length_map, lL]
  · rw [hs0, List.length_map, lL]
  · rw [pg, pG, hs0, polyZ_diff]
    unfold CongrZ
    rw [sub_self]
    exact dvd_zero _
  · rw [pf, pF, show int16ToBigInt s1 = s1.map Int16.toInt from rfl, hb1, polyZ_comb]
    unfold CongrZ
    rw [sub_self]
    exact dvd_zero _
  · unfold sigBound
    omega

/-- C90. With a generated key of degree 512 every message can be signed: there are random bytes for which key generation in IEEE arithmetic
returns a key whose public key accepts, for every message and every salt whose hash is a point, a signature with that salt. -/
theorem C90_signable : ∃ (rand : Rand) (key : PrivateKey) (hh : List Int16),
    (∀ fuel, 2000 ≤ fuel → GeneratePrivateKey ieeeOps rand fuel 512 0 = .ok (.ok (key, 8192))) ∧ GetPublicKey key = .ok ⟨512, hh⟩ ∧
    ∀ (xof : Xof) (fuel : Nat) (m salt : List UInt8) (hd : UInt8), salt.length = 40 → (∃ c, hashToPoint xof fuel m salt = .ok c) →
      ∃ body : List UInt8, body.length = 625 ∧ Verify xof fuel hh m (hd :: (salt ++ body)) = .ok true := by
  have run : ∀ N, N = 2 ^ 9 → ∃ (rand : Rand) (key : PrivateKey), (∀ fuel, 2000 ≤ fuel → GeneratePrivateKey ieeeOps rand fuel (UInt16.ofNat N) 0 =
      .ok (.ok (key, 8192))) ∧ key.f.length = N ∧ key.g.length = N ∧ polyZ (int16ToBigInt key.f) = C 95 ∧ polyZ (int16ToBigInt key.g) = C 1 ∧
      polyZ (int16ToBigInt key.F) = C (-34) ∧ polyZ (int16ToBigInt key.G) = C 129 := by
    rintro N rfl
    obtain ⟨rand, hr⟩ := cst_keygen 9 (by decide) (by decide) 95 1 (-34) 129 (by decide) (by decide) (by decide) (by decide) (by decide +kernel)
      (small_solve 8 (by decide))
    have pc : ∀ c : Int16, polyZ (int16ToBigInt (cst (2 ^ 9) c)) = C c.toInt := by
      intro c
      rw [cst_big, polyZ, poly_cst]
    exact ⟨rand, _, hr, cst_length _ (by decide) _, cst_length _ (by decide) _, pc 95, pc 1, pc (-34), pc 129⟩
  obtain ⟨rand, key, hr, lf, lg, pf, pg, pF, pG⟩ := run 512 (by norm_num)
  have pub : ∀ N, (UInt16.ofNat 512).toNat = N → (∃ u : Zq[X], (X ^ N + 1 : Zq[X]) ∣ polyQ key.f * u - 1) ∧
      ∃ hh, GetPublicKey key = .ok ⟨UInt16.ofNat 512, hh⟩ := by
    rintro _ rfl
    obtain ⟨hu, hh, hpub, -⟩ := C43_public_key _ _ _ _ _ _ _ (hr 2000 le_rfl)
    exact ⟨hu, hh, hpub⟩
  obtain ⟨hu, hh, hpub⟩ := pub 512 (by decide)
  exact ⟨rand, key, hh, hr, hpub, cst_signable key hh _ lf lg hu hpub pf pg pF pG⟩

/-- The condition on the hash is met, for example, by a hash function whose output is zero. -/
example : ∃ c, hashToPoint (fun _ _ => 0) 512 [1, 2, 3] (List.replicate 40 7) = .ok c := ⟨List.replicate 512 0, by decide +kernel⟩

end Falcon
