import Verif.Lemmas.KeyLen
import Verif.Props.Ntt
import Verif.Props.Ntrugen
import Verif.Props.Samplerz
import Verif.Props.Keys
import Verif.Spec.RatOps
import Mathlib.Tactic.FinCases
/-!
# Properties of generated keys (C42, C43, C31)
-/

namespace Falcon
open Spec Polynomial

/-! ### What a successful run of NtruGen has computed -/

theorem genSamples_length (O : FloatOps) (rand : Rand) (fuel m pos : Nat) (l : List Int8) (pos' : Nat)
    (h : genSamples O rand fuel m pos = .ok (l, pos')) : l.length = m := by
  induction m generalizing pos l with
  | zero => simp [genSamples] at h; simp [h.1]
  | succ m ih =>
    rw [genSamples] at h
    obtain ⟨⟨v, p⟩, h1, h⟩ := Go.bind_eq_ok.1 h
    obtain ⟨⟨vs, p'⟩, h2, h⟩ := Go.bind_eq_ok.1 h
    simp only [Go.pure_eq, Go.ok.injEq, Prod.mk.injEq] at h
    obtain ⟨rfl, rfl⟩ := h
    simp [ih _ _ h2]

theorem GenPoly_length (O : FloatOps) (rand : Rand) (fuel : Nat) (n : UInt16) (pos : Nat) (f : List Int16) (pos' : Nat)
    (h : GenPoly O rand fuel n pos = .ok (f, pos')) : f.length = n.toNat := by
  unfold GenPoly at h
  split at h
  · simp at h
  · obtain ⟨⟨f0, p⟩, h1, h⟩ := Go.bind_eq_ok.1 h
    have l0 := genSamples_length O rand fuel 4096 pos f0 p h1
    obtain ⟨r, e, lr, _⟩ := sumBlocks_ok f0 (4096 / n.toNat) n.toNat 0 (by rw [Nat.zero_add, l0]; exact Nat.mul_div_le 4096 n.toNat)
    simp only [e, Go.ok_bind, Go.pure_eq, Go.ok.injEq, Prod.mk.injEq] at h
    rw [← h.1, lr]

theorem NtruGen_ok (O : FloatOps) (rand : Rand) (fuel : Nat) (n : UInt16) (pos : Nat) (q : Quad) (pos' : Nat)
    (h : NtruGen O rand fuel n pos = .ok (q, pos')) : ∃ fuel' F G norm r,
      q.f.length = n.toNat ∧ q.g.length = n.toNat ∧
      GsNorm O (Int16ToFloat64 O q.f) (Int16ToFloat64 O q.g) (O.ofInt Q) = .ok norm ∧
      O.lt (O.mul (O.pow2 (O.lit 1.17)) (O.ofInt Q)) norm = false ∧
      NTT wrap64 q.f = .ok r ∧ anyZeroes r = false ∧
      NtruSolve O fuel' (int16ToBigInt q.f) (int16ToBigInt q.g) = .ok (some (F, G)) ∧
      q.F = bigIntToInt16 F ∧ q.G = bigIntToInt16 G := by
  induction fuel generalizing pos with
  | zero => simp [NtruGen] at h
  | succ fuel ih =>
    rw [NtruGen] at h
    obtain ⟨⟨f, p1⟩, hf, h⟩ := Go.bind_eq_ok.1 h
    obtain ⟨⟨g, p2⟩, hg, h⟩ := Go.bind_eq_ok.1 h
    obtain ⟨norm, hn, h⟩ := Go.bind_eq_ok.1 h
    split at h
    · exact ih _ h
    · rename_i hlt
      obtain ⟨r, hr, h⟩ := Go.bind_eq_ok.1 h
      split at h
      · exact ih _ h
      · rename_i hz
        obtain ⟨s, hs, h⟩ := Go.bind_eq_ok.1 h
        match s with
        | none => exact ih _ h
        | some (F, G) =>
          simp only [Go.pure_eq, Go.ok.injEq, Prod.mk.injEq] at h
          obtain ⟨rfl, rfl⟩ := h
          exact ⟨fuel + 1, F, G, norm, r, GenPoly_length O rand _ n _ f _ hf, GenPoly_length O rand _ n _ g _ hg, hn,
            by simpa using hlt, hr, by simpa using hz, hs, rfl, rfl⟩

theorem GeneratePrivateKey_ok (O : FloatOps) (rand : Rand) (fuel : Nat) (n : UInt16) (pos : Nat) (key : PrivateKey) (pos' : Nat)
    (h : GeneratePrivateKey O rand fuel n pos = .ok (.ok (key, pos'))) :
    (∃ k, 1 ≤ k ∧ k ≤ 10 ∧ n.toNat = 2 ^ k) ∧ key.n = n ∧ NtruGen O rand fuel n pos = .ok (⟨key.f, key.g, key.F, key.G⟩, pos') := by
  unfold GeneratePrivateKey at h
  split at h
  · simp at h
  · rename_i hv
    obtain ⟨⟨q, p⟩, hq, h⟩ := Go.bind_eq_ok.1 h
    simp only [Go.pure_eq, Go.ok.injEq, Except.ok.injEq, Prod.mk.injEq] at h
    obtain ⟨rfl, rfl⟩ := h
    exact ⟨(isValidDegree_iff n).1 (by simpa using hv), rfl, hq⟩

/-! ### C42: the NTRU equation -/

/-- The polynomial over the integers modulo 2^16 with the given `int16` coefficients. -/
noncomputable def polyW (f : List Int16) : (ZMod 65536)[X] := poly (f.map fun x => ((x.toInt : Int) : ZMod 65536))

theorem bigInt64_mod16 (v : Int) : ((Int16.ofInt (bigInt64 v)).toInt : ZMod 65536) = (v : ZMod 65536) := by
  have h : (Int16.ofInt (bigInt64 v)).toInt % 65536 = v % 65536 := by
    have h1 : bigInt64 v % 65536 = v % 65536 := by
      unfold bigInt64 i64
      simp only [Int.bmod_def]
      split <;> split <;> (try split) <;> omega
    rw [Int16.toInt_ofInt, ← h1]
    generalize bigInt64 v = w
    rw [show Int16.size = 65536 from rfl, Int.bmod_def]
    split <;> omega
  have := (ZMod.intCast_eq_intCast_iff _ _ 65536).2 (show (Int16.ofInt (bigInt64 v)).toInt ≡ v [ZMOD 65536] from h)
  exact_mod_cast this

theorem poly_map_cast (l : List Int) : poly (l.map fun x : Int => (x : ZMod 65536)) = (poly l).map (Int.castRingHom (ZMod 65536)) := by
  induction l with
  | nil => simp
  | cons a l ih => simp [poly_cons, ih]

theorem polyW_int16 (f : List Int16) : polyW f = (polyZ (int16ToBigInt f)).map (Int.castRingHom (ZMod 65536)) := by
  rw [polyW, polyZ, ← poly_map_cast, int16ToBigInt, List.map_map]
  rfl

theorem polyW_bigInt (F : List Int) : polyW (bigIntToInt16 F) = (polyZ F).map (Int.castRingHom (ZMod 65536)) := by
  rw [polyW, polyZ, ← poly_map_cast, bigIntToInt16, List.map_map]
  congr 1
  apply List.map_congr_left
  intro v _
  exact bigInt64_mod16 v

/-- C42, what holds without any condition: for every supported degree, random source and floating-point behaviour, a generated key has
four polynomials of length `n` and `f*G - g*F = q` modulo `x^n+1` and modulo `2^16`. What is missing for C42: the equation over the
integers, which needs the unchecked narrowing of `F` and `G` to `int16` to lose nothing (`C42_exact_partial`). -/
theorem C42_mod16_partial (O : FloatOps) (rand : Rand) (fuel : Nat) (n : UInt16) (pos : Nat) (key : PrivateKey) (pos' : Nat)
    (h : GeneratePrivateKey O rand fuel n pos = .ok (.ok (key, pos'))) :
    key.n = n ∧ key.f.length = n.toNat ∧ key.g.length = n.toNat ∧ key.F.length = n.toNat ∧ key.G.length = n.toNat ∧
    (X ^ n.toNat + 1 : (ZMod 65536)[X]) ∣ polyW key.f * polyW key.G - polyW key.g * polyW key.F - C 12289 := by
  obtain ⟨⟨k, h1, h2, hn⟩, hkn, hq⟩ := GeneratePrivateKey_ok O rand fuel n pos key pos' h
  obtain ⟨fuel', F, G, norm, r, lf, lg, -, -, -, -, hs, eF, eG⟩ := NtruGen_ok O rand fuel n pos _ pos' hq
  simp only at lf lg hs eF eG
  have lf' : (int16ToBigInt key.f).length = 2 ^ k := by rw [int16ToBigInt, List.length_map, lf, hn]
  have lg' : (int16ToBigInt key.g).length = 2 ^ k := by rw [int16ToBigInt, List.length_map, lg, hn]
  obtain ⟨Nf, tf, _⟩ := towerNorm_ok k _ lf'
  obtain ⟨Ng, tg, _⟩ := towerNorm_ok k _ lg'
  obtain ⟨hd, lF, lG, c⟩ := (NtruSolve_ok (O := O) k h2 _ _ lf' lg' Nf Ng tf tg fuel').2.2 F G hs
  refine ⟨hkn, lf, lg, by rw [eF, bigIntToInt16, List.length_map, lF, hn], by rw [eG, bigIntToInt16, List.length_map, lG, hn], ?_⟩
  rw [eF, eG, polyW_bigInt, polyW_bigInt, polyW_int16, polyW_int16, hn]
  have hd' := (bigInt64_eq_one _).1 hd
  generalize (xgcd Nf Ng).1 = d at *
  have hd16 : ((12289 * d : Int) : ZMod 65536) = 12289 := by
    have : (12289 * d) % 65536 = 12289 % 65536 := by omega
    have := (ZMod.intCast_eq_intCast_iff _ _ 65536).2 (show 12289 * d ≡ 12289 [ZMOD 65536] from this)
    rw [this]; rfl
  obtain ⟨w, hw⟩ := c
  refine ⟨w.map (Int.castRingHom (ZMod 65536)), ?_⟩
  have hw' := congrArg (Polynomial.map (Int.castRingHom (ZMod 65536))) hw
  unfold ntruDet at hw'
  simp only [Polynomial.map_sub, Polynomial.map_mul, Polynomial.map_add, Polynomial.map_pow, map_X, Polynomial.map_one, map_C] at hw'
  rw [← hw']
  congr 2
  exact hd16.symm

/-- All coefficients fit in an `int16`. -/
def FitsInt16 (F : List Int) : Prop := ∀ v ∈ F, -32768 ≤ v ∧ v ≤ 32767

theorem bigIntToInt16_fits (F : List Int) (h : FitsInt16 F) : int16ToBigInt (bigIntToInt16 F) = F := by
  rw [int16ToBigInt, bigIntToInt16, List.map_map]
  conv_rhs => rw [← List.map_id F]
  apply List.map_congr_left
  intro v hv
  obtain ⟨h1, h2⟩ := h v hv
  have e : bigInt64 v = v := by
    unfold bigInt64 i64
    simp only [Int.bmod_def]
    split <;> split <;> (try split) <;> omega
  simp only [Function.comp_apply, e, id]
  exact Int16.toInt_ofInt_of_le (by omega) (by omega)

/-- C42, exact form: the generated `F` and `G` are the narrowed output of the solver on the generated `f` and `g`. If that output fits in
`int16` and the gcd of the two norms does not exceed `2^64`, then `f*G - g*F = q` modulo `x^n+1` over the integers. -/
theorem C42_exact_partial (O : FloatOps) (rand : Rand) (fuel : Nat) (n : UInt16) (pos : Nat) (key : PrivateKey) (pos' : Nat)
    (h : GeneratePrivateKey O rand fuel n pos = .ok (.ok (key, pos'))) : ∃ fuel' F G,
    NtruSolve O fuel' (int16ToBigInt key.f) (int16ToBigInt key.g) = .ok (some (F, G)) ∧
    key.F = bigIntToInt16 F ∧ key.G = bigIntToInt16 G ∧
    (FitsInt16 F → FitsInt16 G → (∀ Nf Ng, IsNorm n.toNat (polyZ (int16ToBigInt key.f)) Nf →
        IsNorm n.toNat (polyZ (int16ToBigInt key.g)) Ng → Int.gcd Nf Ng ≤ 2 ^ 64) →
      CongrZ n.toNat (ntruDet (int16ToBigInt key.f) (int16ToBigInt key.g) (int16ToBigInt key.F) (int16ToBigInt key.G)) (C 12289)) := by
  obtain ⟨⟨k, h1, h2, hn⟩, hkn, hq⟩ := GeneratePrivateKey_ok O rand fuel n pos key pos' h
  obtain ⟨fuel', F, G, norm, r, lf, lg, -, -, -, -, hs, eF, eG⟩ := NtruGen_ok O rand fuel n pos _ pos' hq
  simp only at lf lg hs eF eG
  refine ⟨fuel', F, G, hs, eF, eG, fun fF fG hgcd => ?_⟩
  have lf' : (int16ToBigInt key.f).length = 2 ^ k := by rw [int16ToBigInt, List.length_map, lf, hn]
  have lg' : (int16ToBigInt key.g).length = 2 ^ k := by rw [int16ToBigInt, List.length_map, lg, hn]
  obtain ⟨Nf, tf, nf⟩ := towerNorm_ok k _ lf'
  obtain ⟨Ng, tg, ng⟩ := towerNorm_ok k _ lg'
  rw [hn] at hgcd ⊢
  rw [eF, eG, bigIntToInt16_fits F fF, bigIntToInt16_fits G fG]
  exact (C40_solution_partial O k h1 h2 _ _ lf' lg' Nf Ng nf ng (hgcd Nf Ng nf ng) fuel' F G hs).2.2

/-! ### C43: generated keys have a public key -/

theorem anyZeroes_iff (l : List Int16) : anyZeroes l = l.any (· == 0) := by
  induction l with
  | nil => rfl
  | cons a l ih =>
    rw [anyZeroes, List.any_cons, ← ih]
    by_cases h : a = 0 <;> simp [h]

/-- C43: for every generated key, `f` is invertible and `GetPublicKey` returns the `h` in `[0,q)^n` with `h*f = g`. -/
theorem C43_public_key (O : FloatOps) (rand : Rand) (fuel : Nat) (n : UInt16) (pos : Nat) (key : PrivateKey) (pos' : Nat)
    (h : GeneratePrivateKey O rand fuel n pos = .ok (.ok (key, pos'))) :
    (∃ u : Zq[X], (X ^ n.toNat + 1 : Zq[X]) ∣ polyQ key.f * u - 1) ∧
    ∃ hh, GetPublicKey key = .ok ⟨n, hh⟩ ∧ hh.length = n.toNat ∧ Reduced hh ∧
      (X ^ n.toNat + 1 : Zq[X]) ∣ polyQ hh * polyQ key.f - polyQ key.g := by
  obtain ⟨⟨k, h1, h2, hn⟩, hkn, hq⟩ := GeneratePrivateKey_ok O rand fuel n pos key pos' h
  obtain ⟨fuel', F, G, norm, r, lf, lg, -, -, hr, hz, -⟩ := NtruGen_ok O rand fuel n pos _ pos' hq
  simp only at lf lg hr
  rw [hn] at lf lg ⊢
  have hu : ∃ u : Zq[X], (X ^ 2 ^ k + 1 : Zq[X]) ∣ polyQ key.f * u - 1 := by
    by_contra hc
    have he := (C12_divzq k h1 h2 key.g key.f lg lf).2 hc
    unfold DivZq at he
    obtain ⟨ft, _, he⟩ := Go.bind_eq_ok.1 he
    rw [hr, Go.ok_bind] at he
    obtain ⟨d, hd, he⟩ := Go.bind_eq_ok.1 he
    unfold divNTT at hd
    split at hd
    · simp at hd
    · rw [if_neg (by rw [← anyZeroes_iff, hz]; simp)] at hd
      obtain ⟨d', _, hd⟩ := Go.bind_eq_ok.1 hd
      simp only [Go.pure_eq, Go.ok.injEq] at hd
      subst hd
      obtain ⟨_, _, he⟩ := Go.bind_eq_ok.1 he
      simp at he
  obtain ⟨hh, e, a, b, c⟩ := (C30_public_key k h1 h2 key lf lg).1 hu
  exact ⟨hu, hh, by rw [e, hkn], a, b, c⟩

/-! ### C31: NewKeyPair -/

/-- C31 is violated: whenever key generation returns a key, `NewKeyPair` returns that private key, a nil public key and no error. -/
theorem C31_violated_always (O : FloatOps) (rand : Rand) (fuel : Nat) (hfu : 10 ≤ fuel) (n : UInt16) (pos : Nat) (key : PrivateKey)
    (pos' : Nat) (h : GeneratePrivateKey O rand fuel n pos = .ok (.ok (key, pos'))) :
    NewKeyPair O rand fuel n pos = .ok (.ok (some key, none)) := by
  obtain ⟨⟨k, h1, h2, hn⟩, -, -⟩ := GeneratePrivateKey_ok O rand fuel n pos key pos' h
  obtain ⟨-, lf, lg, lF, lG, -⟩ := C42_mod16_partial O rand fuel n pos key pos' h
  rw [hn] at lf lg lF lG
  unfold NewKeyPair
  rw [h, Go.ok_bind]
  obtain ⟨B, T, e, -, l2, -⟩ := basisAndMatrix_ok (O := O) k h1 h2 fuel (by omega) key.f key.g key.F key.G lf lg lF lG
  obtain ⟨t', e'⟩ := normalizeTree_ok (O := O) (T.AllChild O) (O.lit (GetParamSet n).sigma) (by
    match hT : T.Leftchild, l2 with
    | [a, b], _ => exact ⟨a, b, [], T.Rightchild, by simp [FFTtree.AllChild, hT]⟩)
  simp only [e, e', Go.ok_bind]
  by_cases hu : ∃ u : Zq[X], (X ^ 2 ^ k + 1 : Zq[X]) ∣ polyQ key.f * u - 1
  · obtain ⟨r, er, -⟩ := (C12_divzq k h1 h2 key.g key.f lg lf).1 hu
    rw [er]; rfl
  · rw [(C12_divzq k h1 h2 key.g key.f lg lf).2 hu]; rfl

/-! ### A concrete run of key generation

Degree 2, rational arithmetic, and a random source for which the sampler returns only zeros and ones, so that `f = 72 + 5x` and
`g = 60 + 31x`. -/

/-- The draws for which the sampler returns 1. -/
def runBit (i : Nat) : Bool := i < 72 || (2048 ≤ i && i < 2053) || (4096 ≤ i && i < 4156) || (6144 ≤ i && i < 6175)

/-- The random source of the run: `z0 = 0`, the sign bit is `runBit`, the acceptance byte is 0. -/
def runRand : Rand := fun i => some fun j => if j = 9 then (if runBit i then 1 else 0) else if j = 10 then 0 else 255

theorem bind_of_ok {α β : Type} {x : Go α} {f : α → Go β} {a : α} {y : Go β} (h : x = .ok a) (h' : f a = y) : (x >>= f) = y := by
  rw [h]; exact h'

theorem run_sample (fuel pos : Nat) :
    Samplerz ratOps runRand (ratOps.ofInt 0) (ratOps.lit 1.43300980528773) (ratOps.sub (ratOps.lit 1.43300980528773) (ratOps.lit 0.001))
      (fuel + 1) pos = .ok (if runBit pos then 1 else 0, pos + 1) := by
  rw [Samplerz]
  simp only [runRand]
  generalize runBit pos = b
  cases b
  · exact bind_of_ok (a := true) (by decide +kernel) rfl
  · exact bind_of_ok (a := true) (by decide +kernel) rfl

/-- Every sample of the run is its random bit. -/
def RunBits (O : FloatOps) : Prop := ∀ fuel pos : Nat,
    Samplerz O runRand (O.ofInt 0) (O.lit 1.43300980528773) (O.sub (O.lit 1.43300980528773) (O.lit 0.001)) (fuel + 1) pos =
      .ok (if runBit pos then 1 else 0, pos + 1)

theorem run_samples (O : FloatOps) (hO : RunBits O) (fuel m pos : Nat) : genSamples O runRand (fuel + 1) m pos =
    .ok ((List.range' pos m).map fun i => if runBit i then 1 else 0, pos + m) := by
  induction m generalizing pos with
  | zero => rfl
  | succ m ih =>
    rw [genSamples, hO, Go.ok_bind]
    simp only [ih, Go.ok_bind, Go.pure_eq, List.range'_succ, List.map_cons]
    rw [show pos + 1 + m = pos + (m + 1) by omega]

theorem run_sum (s a m : Nat) (ha : a ≤ m) (h1 : ∀ i, s ≤ i → i < s + a → runBit i = true)
    (h0 : ∀ i, s + a ≤ i → i < s + m → runBit i = false) :
    (((List.range' s m).map fun i => (if runBit i then 1 else 0 : Int8)).map Int8.toInt).sum = a := by
  obtain ⟨c, rfl⟩ : ∃ c, m = a + c := ⟨m - a, by omega⟩
  rw [← List.range'_append_1, List.map_append, List.map_append, List.sum_append]
  have e1 : ((List.range' s a).map fun i => (if runBit i then 1 else 0 : Int8)).map Int8.toInt = List.replicate a 1 := by
    rw [List.eq_replicate_iff]
    refine ⟨by simp, ?_⟩
    intro b hb
    simp only [List.map_map, List.mem_map, List.mem_range'_1, Function.comp_apply] at hb
    obtain ⟨i, ⟨hi1, hi2⟩, rfl⟩ := hb
    rw [h1 i hi1 hi2]; rfl
  have e2 : ((List.range' (s + a) c).map fun i => (if runBit i then 1 else 0 : Int8)).map Int8.toInt = List.replicate c 0 := by
    rw [List.eq_replicate_iff]
    refine ⟨by simp, ?_⟩
    intro b hb
    simp only [List.map_map, List.mem_map, List.mem_range'_1, Function.comp_apply] at hb
    obtain ⟨i, ⟨hi1, hi2⟩, rfl⟩ := hb
    rw [h0 i hi1 (by omega)]; rfl
  rw [e1, e2]
  simp

theorem run_poly (O : FloatOps) (hO : RunBits O) (fuel pos a b : Nat) (ha : a ≤ 2048) (hb : b ≤ 2048) (h1 : ∀ i, pos ≤ i → i < pos + a → runBit i = true)
    (h2 : ∀ i, pos + a ≤ i → i < pos + 2048 → runBit i = false)
    (h3 : ∀ i, pos + 2048 ≤ i → i < pos + 2048 + b → runBit i = true)
    (h4 : ∀ i, pos + 2048 + b ≤ i → i < pos + 2048 + 2048 → runBit i = false) :
    GenPoly O runRand (fuel + 1) 2 pos = .ok ([Int16.ofInt a, Int16.ofInt b], pos + 4096) := by
  unfold GenPoly
  rw [if_neg (by decide), run_samples O hO, Go.ok_bind]
  have e : (UInt16.toNat 2) = 2 := rfl
  simp only [e, Nat.reduceDiv]
  obtain ⟨r, er, lr, hr⟩ := sumBlocks_ok ((List.range' pos 4096).map fun i => (if runBit i then 1 else 0 : Int8)) 2048 2 0 (by simp)
  rw [er, Go.ok_bind]
  have r0 := hr 0 (by omega)
  have r1 := hr 1 (by omega)
  have t0 : ((((List.range' pos 4096).map fun i => (if runBit i then 1 else 0 : Int8)).drop ((0 + 0) * 2048)).take 2048) =
      (List.range' pos 2048).map fun i => (if runBit i then 1 else 0 : Int8) := by
    rw [show (4096 : Nat) = 2048 + 2048 by rfl, ← List.range'_append_1, List.map_append]
    rw [show (0 + 0) * 2048 = 0 by rfl, List.drop_zero, List.take_append_of_le_length (by simp), List.take_of_length_le (by simp)]
  have t1 : ((((List.range' pos 4096).map fun i => (if runBit i then 1 else 0 : Int8)).drop ((0 + 1) * 2048)).take 2048) =
      (List.range' (pos + 2048) 2048).map fun i => (if runBit i then 1 else 0 : Int8) := by
    rw [show (4096 : Nat) = 2048 + 2048 by rfl, ← List.range'_append_1, List.map_append]
    rw [show (0 + 1) * 2048 = 2048 by rfl, List.drop_left' (by simp), List.take_of_length_le (by simp)]
  rw [t0, run_sum pos a 2048 ha h1 h2] at r0
  rw [t1, run_sum (pos + 2048) b 2048 hb h3 h4] at r1
  match r, lr with
  | [x, y], _ =>
    simp at r0 r1
    subst r0 r1
    rfl

/-- A complete run of key generation. -/
theorem run_key : GeneratePrivateKey ratOps runRand 20 2 0 = .ok (.ok (⟨2, [72, 5], [60, 31], [-40, 31], [124, 0]⟩, 8192)) := by
  have hf := run_poly ratOps run_sample 19 0 72 5 (by omega) (by omega) (by intro i _ _; simp [runBit]; omega)
    (by intro i _ _; simp [runBit]; omega) (by intro i _ _; simp [runBit]; omega) (by intro i _ _; simp [runBit]; omega)
  have hg := run_poly ratOps run_sample 19 4096 60 31 (by omega) (by omega) (by intro i _ _; simp [runBit]; omega)
    (by intro i _ _; simp [runBit]; omega) (by intro i _ _; simp [runBit]; omega) (by intro i _ _; simp [runBit]; omega)
  unfold GeneratePrivateKey
  rw [if_neg (by decide), NtruGen]
  refine bind_of_ok (a := (⟨[72, 5], [60, 31], [-40, 31], [124, 0]⟩, 8192)) (bind_of_ok hf (bind_of_ok hg ?_)) rfl
  decide +kernel

/-- The equation holds for the generated key, and its public key is found. -/
example : CongrZ 2 (ntruDet [72, 5] [60, 31] [-40, 31] [124, 0]) (C 12289) := by
  refine ⟨C (-961), ?_⟩
  unfold ntruDet polyZ
  simp
  ring
example : FitsInt16 [-40, 31] ∧ FitsInt16 [124, 0] := by
  constructor <;> intro v hv <;> fin_cases hv <;> decide
example : ∃ hh, GetPublicKey ⟨2, [72, 5], [60, 31], [-40, 31], [124, 0]⟩ = .ok ⟨2, hh⟩ ∧ hh.length = 2 :=
  let ⟨hh, a, b, _⟩ := (C43_public_key _ _ _ _ _ _ _ run_key).2
  ⟨hh, a, b⟩
example : NewKeyPair ratOps runRand 20 2 0 = .ok (.ok (some ⟨2, [72, 5], [60, 31], [-40, 31], [124, 0]⟩, none)) :=
  C31_violated_always _ _ _ (by omega) _ _ _ _ run_key

end Falcon
