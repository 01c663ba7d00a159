import Verif.Lemmas.PlatformHom
import Verif.Props.Agree
import Verif.Props.Fused
import Verif.Props.KeySize
/-!
# C96: key generation on platforms with fused multiply-add

`P.Accurate` (Verif/Lemmas/PlatformHom.lean) asks of a platform that complex division is as accurate as Smith's method without fusing and that
the conversion to `int` does not give zero for a number out of range. It holds for amd64, for arm64 and for every platform that divides by the
method of the Go runtime, compiled with any fusing, also if `int` has 32 bits (Verif/Props/Platform32.lean). `P.Wide` says that
`int` has 64 bits. The fusing of products with additions in the code itself is arbitrary.
-/

namespace Falcon
open Spec Polynomial ComplexConjugate F64

/-- The runtime's division is accurate enough, whichever products in it are fused. -/
theorem Platform.withSmith_accurate (P : Platform)
    (h : ∀ a : F64, a.isFinite = true → (truncInt a.val < -(2 ^ 31) ∨ 2 ^ 31 ≤ truncInt a.val) → P.toInt a ≠ 0) : P.withSmith.Accurate :=
  ⟨fun x y hx hy h1 h2 h3 => P.smith_near x y hx hy h1 h2 h3, h⟩

theorem Platform.arm64_accurate : Platform.arm64.Accurate := by
  refine Platform.arm64Div.withSmith_accurate ?_
  intro a ha ho
  obtain ⟨h1, h2⟩ := finite_flags a ha
  show Platform.saturate a ≠ 0
  unfold Platform.saturate
  rw [h1, h2]
  simp only [Bool.false_eq_true, if_false]
  omega

theorem Platform.arm64_wide : Platform.arm64.Wide := by
  intro a ha h1 h2
  obtain ⟨e1, e2⟩ := finite_flags a ha
  show Platform.saturate a = _
  unfold Platform.saturate
  rw [e1, e2]
  simp only [Bool.false_eq_true, if_false]
  omega

theorem Platform.amd64_wide : Platform.amd64.Wide := amd64V_wide

theorem Platform.amd64_accurate : Platform.amd64.Accurate := ⟨amd64V.cdiv_near, amd64V.toInt_out⟩

theorem NumHom.NtruGen_eq {O P : FloatOps} (h : NumHom O P) (kO : KeyArith O) (kP : KeyArith P) (rand : Rand) (fuel : Nat) (n : UInt16) (pos : Nat) :
    NtruGen P rand fuel n pos = NtruGen O rand fuel n pos := by
  induction fuel generalizing pos with
  | zero => rfl
  | succ fuel ih =>
    rw [NtruGen, NtruGen]
    simp only [C94_candidates kP kO rand (fuel + 1) n, ih, h.NtruSolve_eq]
    cases GenPoly O rand (fuel + 1) n pos with
    | panic => rfl
    | diverge => rfl
    | ok a =>
      obtain ⟨f, p1⟩ := a
      simp only [Go.ok_bind]
      cases GenPoly O rand (fuel + 1) n p1 with
      | panic => rfl
      | diverge => rfl
      | ok b =>
        obtain ⟨g, p2⟩ := b
        simp only [Go.ok_bind]
        have e := h.GsNorm_eq (Int16ToFloat64 O f) (Int16ToFloat64 O g) (O.ofInt Q)
        rw [h.Int16_eq f, h.Int16_eq g, h.ofInt, ← e]
        cases GsNorm P ((Int16ToFloat64 O f).map h.f) ((Int16ToFloat64 O g).map h.f) (h.f (O.ofInt Q)) with
        | panic => rfl
        | diverge => rfl
        | ok r => simp only [map'_ok, Go.ok_bind, h.lt, h.lit, h.pow2, h.mul]

/-- Key generation on a platform is key generation in its arithmetic on numbers in memory. -/
theorem Platform.generate_eq (P : Platform) (h : P.Accurate) (rand : Rand) (fuel : Nat) (n : UInt16) (pos : Nat) :
    GeneratePrivateKey P.ops rand fuel n pos = GeneratePrivateKey (P.variant h).ops rand fuel n pos := by
  unfold GeneratePrivateKey
  rw [(P.hom h).NtruGen_eq (key_variant _) (C94_platform P)]

/-- C96: on the platform without fusing that converts like amd64, key generation is that of IEEE arithmetic. -/
theorem C96_amd64 (rand : Rand) (fuel : Nat) (n : UInt16) (pos : Nat) :
    GeneratePrivateKey Platform.amd64.ops rand fuel n pos = GeneratePrivateKey ieeeOps rand fuel n pos :=
  Platform.amd64.generate_eq Platform.amd64_accurate rand fuel n pos

/-- C96: the error bound of `FFT` (C66) holds on every accurate platform. -/
theorem C96_fft (P : Platform) (hP : P.Accurate) (k : Nat) (h1 : 1 ≤ k) (h2 : k ≤ 10) (f : List F64) (hf : f.length = 2 ^ k)
    (hfin : ∀ x ∈ f, x.isFinite = true) (hbig : l1 (f.map R) ≤ 10 ^ 90) :
    ∃ c : List (F64 × F64), FFT P.ops (f.map Reg.num) = .ok (c.map fun z => (.num z.1, .num z.2)) ∧ c.length = 2 ^ k ∧
      ∀ i (h : i < c.length), (c[i].1.isFinite = true ∧ c[i].2.isFinite = true) ∧
        ‖cval c[i] - evalR (f.map R) (rootC k i)‖ ≤ 3 / 10 ^ 14 * l1 (f.map R) + 1 / 10 ^ 110 := by
  obtain ⟨c, e, r⟩ := variant_C66_fft (P.variant hP) k h1 h2 f hf hfin hbig
  refine ⟨c, ?_, r⟩
  have := (P.hom hP).FFT_eq f
  rw [e] at this
  exact this

/-- C96: so does the exactness of products of small integer polynomials (C66), if `int` has 64 bits. -/
theorem C96_mul_exact (P : Platform) (hP : P.Accurate) (hw : P.Wide) (k : Nat) (h1 : 1 ≤ k) (h2 : k ≤ 10) (f g p : List Int) (hf : f.length = 2 ^ k)
    (hg : g.length = 2 ^ k) (hp : p.length = 2 ^ k) (hs : l1 (realI f) * l1 (realI g) ≤ 10 ^ 12) (hfb : ∀ x ∈ f, x.natAbs ≤ 10 ^ 12)
    (hgb : ∀ x ∈ g, x.natAbs ≤ 10 ^ 12) (hd : (X ^ 2 ^ k + 1 : ℤ[X]) ∣ poly f * poly g - poly p) :
    ∃ r, Mul P.ops (f.map P.ops.ofInt) (g.map P.ops.ofInt) = .ok r ∧ RoundAll P.ops r = p := by
  obtain ⟨r, e, h⟩ := variant_C66_mul_exact (P.variant hP) hw k h1 h2 f g p hf hg hp hs hfb hgb hd
  refine ⟨r.map Reg.num, ?_, ?_⟩
  · have := (P.hom hP).Mul_eq (f.map (P.variant hP).ops.ofInt) (g.map (P.variant hP).ops.ofInt)
    rw [e, List.map_map, List.map_map] at this
    exact this
  · rw [← h]
    exact (P.hom hP).RoundAll_eq r

/-- C96: on every accurate platform with a 64-bit `int`, `reduce` ends if no coefficient of the quotient is within `10^-6` of a tie (C70). -/
theorem C96_reduce_ends (P : Platform) (hP : P.Accurate) (hw : P.Wide) (k : Nat) (h1 : 1 ≤ k) (h2 : k ≤ 10) (f g F G : List Int) (hf : f.length = 2 ^ k)
    (hg : g.length = 2 ^ k) (hn : sqNorm (realI f) + sqNorm (realI g) ≤ 1.17 ^ 2 * 12289) (hd : ∀ w ∈ rootsC k, 784 / 100 ≤ gramAt f g w)
    (lF : F.length = 2 ^ k) (lG : G.length = 2 ^ k) (hdet : CongrZ (2 ^ k) (ntruDet f g F G) (C 12289)) (κ : List ℝ)
    (hκ : IsQuot k (realI f) (realI g) (realI F) (realI G) κ) (hfar : ∀ x ∈ κ, FarFromTie (1 / 10 ^ 6) x) (S : Nat) (hS : sizeOf2 F G = .ok S)
    (fuel : Nat) (hfu : S ≤ fuel) : ∃ r, reduce P.ops fuel f g F G = .ok r := by
  rw [(P.hom hP).reduce_eq]
  exact variant_C70_ieee (P.variant hP) hw k h1 h2 f g F G hf hg hn hd lF lG hdet κ hκ hfar S hS fuel hfu

/-- C96: on every accurate platform the result of `reduce` is reduced up to `7/10^7` and its coefficients are at most 6465 (C67). -/
theorem C96_reduced (P : Platform) (hP : P.Accurate) (k : Nat) (h1 : 1 ≤ k) (h2 : k ≤ 10) (f g F G : List Int) (hf : f.length = 2 ^ k)
    (hg : g.length = 2 ^ k) (hF : F.length = 2 ^ k) (hG : G.length = 2 ^ k) (hn : sqNorm (realI f) + sqNorm (realI g) ≤ 1.17 ^ 2 * 12289)
    (hd : ∀ w ∈ rootsC k, 784 / 100 ≤ gramAt f g w) (fuel : Nat) (F' G' : List Int) (h : reduce P.ops fuel f g F G = .ok (F', G'))
    (hdet : CongrZ (2 ^ k) (ntruDet f g F' G') (C 12289)) :
    (∃ κ, IsQuot k (realI f) (realI g) (realI F') (realI G') κ ∧ ∀ x ∈ κ, |x| ≤ 1 / 2 + 7 / 10 ^ 7) ∧ ∀ v ∈ F' ++ G', |(v : ℝ)| ≤ 6465 := by
  rw [(P.hom hP).reduce_eq] at h
  exact variant_C67_sharp (P.variant hP) k h1 h2 f g F G hf hg hF hG hn hd fuel F' G' h hdet

/-- C96: a key generated on an accurate platform passes the quality check of the specification up to the rounding errors (C68), and its
coefficients are small (C67). -/
theorem C96_key (P : Platform) (hP : P.Accurate) (rand : Rand) (fuel : Nat) (n : UInt16) (pos : Nat) (key : PrivateKey) (pos' : Nat)
    (h : GeneratePrivateKey P.ops rand fuel n pos = .ok (.ok (key, pos')))
    (hd : ∀ w : ℂ, w ^ n.toNat = -1 → 1 / 10 ≤ gramAt (int16ToBigInt key.f) (int16ToBigInt key.g) w)
    (hgcd : ∀ Nf Ng, IsNorm n.toNat (polyZ (int16ToBigInt key.f)) Nf → IsNorm n.toNat (polyZ (int16ToBigInt key.g)) Ng → Int.gcd Nf Ng ≤ 2 ^ 64) :
    sqNorm (realOf key.f) + sqNorm (realOf key.g) ≤ 16822 ∧
    (∀ w : ℂ, w ^ n.toNat = -1 → 87 / 10 ≤ gramAt (int16ToBigInt key.f) (int16ToBigInt key.g) w) ∧
    (∃ Ft Gt : List ℝ, Ft.length = n.toNat ∧ Gt.length = n.toNat ∧
      (X ^ n.toNat + 1 : ℝ[X]) ∣ poly Ft * gramPoly (realOf key.f) (realOf key.g) - poly (adjList (realOf key.f)) ∧
      (X ^ n.toNat + 1 : ℝ[X]) ∣ poly Gt * gramPoly (realOf key.f) (realOf key.g) - poly (adjList (realOf key.g)) ∧
      12289 ^ 2 * (sqNorm Ft + sqNorm Gt) ≤ 16880) ∧
    CongrZ n.toNat (ntruDet (int16ToBigInt key.f) (int16ToBigInt key.g) (int16ToBigInt key.F) (int16ToBigInt key.G)) (C 12289) ∧
    ∀ v ∈ key.F ++ key.G, |(v.toInt : ℝ)| ≤ 65 * √n.toNat + 130 := by
  rw [P.generate_eq hP] at h
  obtain ⟨a, b, c⟩ := variant_C68_generated _ rand fuel n pos key pos' h hd
  exact ⟨a, b, c, (variant_C67_generated _ rand fuel n pos key pos' h hd hgcd).1, variant_C67_key_size _ rand fuel n pos key pos' h hd hgcd⟩

/-- C96: every accurate platform accepts a candidate whose vectors are shorter than the bounds by a small margin (C68). -/
theorem C96_accepts (P : Platform) (hP : P.Accurate) (k : Nat) (h1 : 1 ≤ k) (h2 : k ≤ 10) (f g : List Int16) (hf : f.length = 2 ^ k)
    (hg : g.length = 2 ^ k) (hn : sqNorm (realI (int16ToBigInt f)) + sqNorm (realI (int16ToBigInt g)) ≤ 16822)
    (hsp : ∀ w ∈ rootsC k, 87 / 10 ≤ gramAt (int16ToBigInt f) (int16ToBigInt g) w) (Ft Gt : List ℝ) (lFt : Ft.length = 2 ^ k) (lGt : Gt.length = 2 ^ k)
    (dF : (X ^ 2 ^ k + 1 : ℝ[X]) ∣ poly Ft * gramPoly (realI (int16ToBigInt f)) (realI (int16ToBigInt g)) - poly (adjList (realI (int16ToBigInt f))))
    (dG : (X ^ 2 ^ k + 1 : ℝ[X]) ∣ poly Gt * gramPoly (realI (int16ToBigInt f)) (realI (int16ToBigInt g)) - poly (adjList (realI (int16ToBigInt g))))
    (hs : 12289 ^ 2 * (sqNorm Ft + sqNorm Gt) ≤ 16760) :
    ∃ norm, GsNorm P.ops (Int16ToFloat64 P.ops f) (Int16ToFloat64 P.ops g) (P.ops.ofInt Q) = .ok norm ∧ rejects P.ops norm = false := by
  obtain ⟨norm, e, hl⟩ := variant_C68_accepts (P.variant hP) k h1 h2 f g hf hg hn hsp Ft Gt lFt lGt dF dG hs
  have t := (P.hom hP).GsNorm_eq (Int16ToFloat64 (P.variant hP).ops f) (Int16ToFloat64 (P.variant hP).ops g) ((P.variant hP).ops.ofInt Q)
  rw [← (P.hom hP).Int16_eq f, ← (P.hom hP).Int16_eq g, ← (P.hom hP).ofInt, e] at t
  cases hr : GsNorm P.ops (Int16ToFloat64 P.ops f) (Int16ToFloat64 P.ops g) (P.ops.ofInt Q) with
  | panic => rw [hr] at t; cases t
  | diverge => rw [hr] at t; cases t
  | ok r =>
    rw [hr, map'_ok] at t
    refine ⟨r, rfl, ?_⟩
    injection t with t
    unfold rejects
    rw [(P.hom hP).lt, t]
    exact hl

/-- Two keys with the same `f` and `g`, generated in two variants of the arithmetic: the second halves differ by a multiple `a` of `(f, g)` with coefficients in
`{-1, 0, 1}`, and not at all if no coefficient of the quotient of the first key is within `10^-6` of a tie. -/
theorem variants_key (va vb : Variant) (rand rand' : Rand) (fuel fuel' : Nat) (n n' : UInt16) (pos pos' : Nat) (key key' : PrivateKey) (p p' : Nat)
    (h : GeneratePrivateKey va.ops rand fuel n pos = .ok (.ok (key, p))) (h' : GeneratePrivateKey vb.ops rand' fuel' n' pos' = .ok (.ok (key', p')))
    (hf : key'.f = key.f) (hg : key'.g = key.g)
    (hd : ∀ w : ℂ, w ^ n.toNat = -1 → 1 / 10 ≤ gramAt (int16ToBigInt key.f) (int16ToBigInt key.g) w)
    (hgcd : ∀ Nf Ng, IsNorm n.toNat (polyZ (int16ToBigInt key.f)) Nf → IsNorm n.toNat (polyZ (int16ToBigInt key.g)) Ng → Int.gcd Nf Ng ≤ 2 ^ 64) :
    (∃ a : List Int, a.length = n.toNat ∧ (∀ v ∈ a, -1 ≤ v ∧ v ≤ 1) ∧
      CongrZ n.toNat (polyZ (int16ToBigInt key'.F)) (polyZ (int16ToBigInt key.F) + polyZ a * polyZ (int16ToBigInt key.f)) ∧
      CongrZ n.toNat (polyZ (int16ToBigInt key'.G)) (polyZ (int16ToBigInt key.G) + polyZ a * polyZ (int16ToBigInt key.g))) ∧
    ∀ k κ, n.toNat = 2 ^ k → IsQuot k (realI (int16ToBigInt key.f)) (realI (int16ToBigInt key.g)) (realI (int16ToBigInt key.F)) (realI (int16ToBigInt key.G)) κ →
      (∀ x ∈ κ, FarFromTie (1 / 10 ^ 6) x) → key' = key := by
  obtain ⟨s1, s2, -⟩ := (variant_C68_generated va) rand fuel n pos key p h hd
  obtain ⟨⟨k0, h1, h2, hn⟩, hkn, hq⟩ := GeneratePrivateKey_ok va.ops rand fuel n pos key p h
  obtain ⟨-, -, -, -, -, lf, lg, -⟩ := NtruGen_ok va.ops rand fuel n pos _ p hq
  obtain ⟨-, hkn', hq'⟩ := GeneratePrivateKey_ok vb.ops rand' fuel' n' pos' key' p' h'
  obtain ⟨-, -, -, -, -, lf0, lg0, -⟩ := NtruGen_ok vb.ops rand' fuel' n' pos' _ p' hq'
  simp only at lf lg lf0 lg0
  have hnn : n' = n := UInt16.toNat_inj.1 (by rw [← lf0, ← lf, hf])
  subst hnn
  obtain ⟨⟨u, hu⟩, -⟩ := C43_public_key va.ops rand fuel n' pos key p h
  rw [hn] at hu
  have lf' : (int16ToBigInt key.f).length = 2 ^ k0 := by rw [int16ToBigInt, List.length_map, lf, hn]
  have lg' : (int16ToBigInt key.g).length = 2 ^ k0 := by rw [int16ToBigInt, List.length_map, lg, hn]
  have hsn : sqNorm (realI (int16ToBigInt key.f)) + sqNorm (realI (int16ToBigInt key.g)) ≤ 1.17 ^ 2 * 12289 := by
    rw [realI_int16, realI_int16]
    refine s1.trans ?_
    norm_num
  have hd' : ∀ w : ℂ, w ^ n'.toNat = -1 → 784 / 100 ≤ gramAt (int16ToBigInt key.f) (int16ToBigInt key.g) w := fun w hw => le_trans (by norm_num) (s2 w hw)
  have hd'' : ∀ w ∈ rootsC k0, 784 / 100 ≤ gramAt (int16ToBigInt key.f) (int16ToBigInt key.g) w :=
    fun w hw => hd' w (by rw [hn]; exact (mem_rootsC k0 w).1 hw)
  have hco := (⟨lf', lg', hsn, hd''⟩ : Lat k0 (int16ToBigInt key.f) (int16ToBigInt key.g)).coprime
  obtain ⟨det, μ, hμ, bμ⟩ := key_solution va.ops rand fuel n' pos key p k0 h1 h2 hn h hd' hsn hgcd (1 / 2 + 7 / 10 ^ 7) (by norm_num) le_rfl (by
    intro fu F0 G0 F G l1 l2 hr hdet
    exact ((variant_C67_sharp va) k0 h1 h2 _ _ F0 G0 lf' lg' l1 l2 hsn hd'' fu F G hr hdet).1)
  obtain ⟨det', μ', hμ', bμ'⟩ := key_solution vb.ops rand' fuel' n' pos' key' p' k0 h1 h2 hn h' (by rw [hf, hg]; exact hd') (by rw [hf, hg]; exact hsn)
    (by rw [hf, hg]; exact hgcd) (1 / 2 + 7 / 10 ^ 7) (by norm_num) le_rfl (by
    intro fu F0 G0 F G l1 l2 hr hdet
    rw [hf, hg] at hr hdet ⊢
    exact ((variant_C67_sharp vb) k0 h1 h2 _ _ F0 G0 lf' lg' l1 l2 hsn hd'' fu F G hr hdet).1)
  obtain ⟨b, c1, c2⟩ := (C91_completion k0 h1 h2 key key' (lf.trans hn) (lg.trans hn) hf hg ⟨u, hu⟩ det).1 det'
  rw [hf, hg] at hμ'
  obtain ⟨-, -, -, lF, lG, -⟩ := C42_mod16_partial va.ops rand fuel n' pos key p h
  obtain ⟨-, -, -, lF', lG', -⟩ := C42_mod16_partial vb.ops rand' fuel' n' pos' key' p' h'
  rw [hn] at lF lG lF' lG'
  constructor
  · obtain ⟨a, la, e1, e2, eq⟩ := sibling_quot hco ⟨b, c1, c2⟩ μ μ' hμ hμ'
    rw [hn]
    refine ⟨a, la, fun v hv => ?_, e1, e2⟩
    obtain ⟨i, hi, rfl⟩ := List.getElem_of_mem hv
    have hiκ : i < μ.length := by rw [hμ.1, ← la]; exact hi
    have hiκ' : i < μ'.length := by rw [hμ'.1, ← la]; exact hi
    have g1 := bμ _ (List.getElem_mem hiκ)
    have g2 := bμ' _ (List.getElem_mem hiκ')
    have g3 : μ'[i] = μ[i] + (a[i] : ℝ) := by
      simp only [eq, List.getElem_zipWith, realI, List.getElem_map]
    rw [g3] at g2
    have g4 : |(a[i] : ℝ)| < 2 := by
      have := abs_sub_abs_le_abs_sub (a[i] : ℝ) (-μ[i])
      rw [abs_neg, sub_neg_eq_add, add_comm] at this
      norm_num at *
      linarith
    have g5 : |a[i]| < 2 := by exact_mod_cast g4
    rw [abs_lt] at g5
    omega
  · intro k κ hk hκ hfar
    obtain rfl : k0 = k := Nat.pow_right_injective (le_refl 2) (hn.symm.trans hk)
    obtain rfl := quot_unique k0 _ _ _ _ _ _ hco hκ hμ
    obtain ⟨e1, e2⟩ := C95_unique k0 _ _ _ _ _ _ hco (by simp [int16ToBigInt, lF']) (by simp [int16ToBigInt, lG']) (by simp [int16ToBigInt, lF])
      (by simp [int16ToBigInt, lG]) (Sibling.symm ⟨b, c1, c2⟩) μ' κ hμ' hκ (1 / 2 + 7 / 10 ^ 7) (1 / 2 - 8 / 10 ^ 7) bμ'
      (fun x hx => lt_of_le_of_lt (far_bound x (hfar x hx) (bμ x hx)) (by norm_num)) (by norm_num)
    have e3 := int16ToBigInt_injective e1
    have e4 := int16ToBigInt_injective e2
    cases key
    cases key'
    simp_all

/-- C96: keys with the same `f` and `g`, generated on two accurate platforms, differ at most by a multiple of `(f, g)` with coefficients in
`{-1, 0, 1}`, and not at all if no coefficient of the quotient of the first key is within `10^-6` of a tie. -/
theorem C96_two_platforms (P P' : Platform) (hP : P.Accurate) (hP' : P'.Accurate) (rand rand' : Rand) (fuel fuel' : Nat) (n n' : UInt16)
    (pos pos' : Nat) (key key' : PrivateKey) (p p' : Nat)
    (h : GeneratePrivateKey P.ops rand fuel n pos = .ok (.ok (key, p))) (h' : GeneratePrivateKey P'.ops rand' fuel' n' pos' = .ok (.ok (key', p')))
    (hf : key'.f = key.f) (hg : key'.g = key.g)
    (hd : ∀ w : ℂ, w ^ n.toNat = -1 → 1 / 10 ≤ gramAt (int16ToBigInt key.f) (int16ToBigInt key.g) w)
    (hgcd : ∀ Nf Ng, IsNorm n.toNat (polyZ (int16ToBigInt key.f)) Nf → IsNorm n.toNat (polyZ (int16ToBigInt key.g)) Ng → Int.gcd Nf Ng ≤ 2 ^ 64) :
    (∃ a : List Int, a.length = n.toNat ∧ (∀ v ∈ a, -1 ≤ v ∧ v ≤ 1) ∧
      CongrZ n.toNat (polyZ (int16ToBigInt key'.F)) (polyZ (int16ToBigInt key.F) + polyZ a * polyZ (int16ToBigInt key.f)) ∧
      CongrZ n.toNat (polyZ (int16ToBigInt key'.G)) (polyZ (int16ToBigInt key.G) + polyZ a * polyZ (int16ToBigInt key.g))) ∧
    ∀ k κ, n.toNat = 2 ^ k → IsQuot k (realI (int16ToBigInt key.f)) (realI (int16ToBigInt key.g)) (realI (int16ToBigInt key.F)) (realI (int16ToBigInt key.G)) κ →
      (∀ x ∈ κ, FarFromTie (1 / 10 ^ 6) x) → key' = key := by
  rw [P.generate_eq hP] at h
  rw [P'.generate_eq hP'] at h'
  exact variants_key _ _ rand rand' fuel fuel' n n' pos pos' key key' p p' h h' hf hg hd hgcd

/-- C96: at degree 2 key generation has the same outcome on every accurate platform, that of exact arithmetic. -/
theorem C96_degree2 (P : Platform) (hP : P.Accurate) (rand : Rand) (pos : Nat) (v : Go (Except KeyErr (PrivateKey × Nat))) (hv : v ≠ .diverge) :
    (∃ fuel, GeneratePrivateKey P.ops rand fuel 2 pos = v) ↔ ∃ fuel, GeneratePrivateKey exactOps rand fuel 2 pos = v := by
  rw [← variant_C95_degree2 (P.variant hP) rand pos v hv]
  simp only [P.generate_eq hP]

/-- C96: at degree 2 key generation on an accurate platform ends on every finite random source, with a key or because the source is used up. -/
theorem C96_degree2_ends (P : Platform) (hP : P.Accurate) (N : Nat) (d : Fin N → Draw) : ∃ fuel, GeneratePrivateKey P.ops (source d) fuel 2 0 = .panic ∨
    ∃ key pos, GeneratePrivateKey P.ops (source d) fuel 2 0 = .ok (.ok (key, pos)) := by
  simp only [P.generate_eq hP]
  exact variant_C70_degree2_keygen (P.variant hP) N d

/-- A complete run on arm64. -/
example : ∃ fuel, GeneratePrivateKey Platform.arm64.ops runRand fuel 2 0 = .ok (.ok (⟨2, [72, 5], [60, 31], [-40, 31], [124, 0]⟩, 8192)) :=
  (C96_degree2 Platform.arm64 Platform.arm64_accurate runRand 0 _ (by decide)).2 ⟨20, exact_run_key⟩

/-- The platforms do compute different numbers: the transform of `1 + 3x + 2x^2 + 3x^3` on amd64 is not that on arm64, ... -/
example : FFT Platform.amd64.ops ([1, 3, 2, 3].map Platform.amd64.ops.ofInt) ≠ FFT Platform.arm64.ops ([1, 3, 2, 3].map Platform.arm64.ops.ofInt) := by
  decide +kernel

/-- ... nor is the product with `1 + 3x + 5x^2 + 7x^3`, which is the same after rounding (`C96_mul_exact`). -/
example : Mul Platform.amd64.ops ([1, 3, 2, 3].map Platform.amd64.ops.ofInt) ([1, 3, 5, 7].map Platform.amd64.ops.ofInt) ≠
    Mul Platform.arm64.ops ([1, 3, 2, 3].map Platform.arm64.ops.ofInt) ([1, 3, 5, 7].map Platform.arm64.ops.ofInt) := by decide +kernel

/-- Quotients differ as well. -/
example : Platform.amd64.cdiv (.fin 1, .fin 1) (.fin 7, .fin 3) ≠ Platform.arm64.cdiv (.fin 1, .fin 1) (.fin 7, .fin 3) := by decide +kernel

end Falcon
