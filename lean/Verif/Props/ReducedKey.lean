import Verif.Props.Reduced
/-!
# Generated keys in IEEE and in exact arithmetic (C95)
-/

namespace Falcon
open Spec Polynomial ComplexConjugate F64

theorem unit_ne_zero (k : Nat) (f : List Int16) (u : Zq[X]) (hu : (X ^ 2 ^ k + 1 : Zq[X]) ∣ polyQ f * u - 1) : ∃ x ∈ int16ToBigInt f, x ≠ 0 := by
  by_contra hc
  push Not at hc
  have hz : polyQ f = 0 := by
    unfold polyQ
    unfold int16ToBigInt at hc
    clear hu
    induction f with
    | nil => rfl
    | cons a f ih =>
      rw [List.map_cons, poly_cons, ih fun x hx => hc x (List.mem_cons_of_mem _ hx)]
      have := hc a.toInt (List.mem_cons_self)
      simp [zq, this]
  rw [hz, zero_mul, zero_sub, dvd_neg] at hu
  have hd := degree_le_of_dvd hu one_ne_zero
  rw [degree_one] at hd
  have := degree_X_pow_add_C (Nat.two_pow_pos k) (1 : Zq)
  rw [map_one] at this
  rw [this] at hd
  have h3 : (2 ^ k : Nat) ≤ 0 := by exact_mod_cast hd
  have := Nat.two_pow_pos k
  omega

/-- What is common to the keys generated in the two arithmetics. -/
theorem key_solution (O : FloatOps) (rand : Rand) (fuel : Nat) (n : UInt16) (pos : Nat) (key : PrivateKey) (pos' : Nat) (k : Nat) (h1 : 1 ≤ k) (h2 : k ≤ 10)
    (hn : n.toNat = 2 ^ k) (h : GeneratePrivateKey O rand fuel n pos = .ok (.ok (key, pos')))
    (hd : ∀ w : ℂ, w ^ n.toNat = -1 → 784 / 100 ≤ gramAt (int16ToBigInt key.f) (int16ToBigInt key.g) w)
    (hsn : sqNorm (realI (int16ToBigInt key.f)) + sqNorm (realI (int16ToBigInt key.g)) ≤ 1.17 ^ 2 * 12289)
    (hgcd : ∀ Nf Ng, IsNorm n.toNat (polyZ (int16ToBigInt key.f)) Nf → IsNorm n.toNat (polyZ (int16ToBigInt key.g)) Ng → Int.gcd Nf Ng ≤ 2 ^ 64)
    (B : ℝ) (hB0 : 0 ≤ B) (hB : B ≤ 1 / 2 + 7 / 10 ^ 7) (hq : ∀ fuel F0 G0 F G, F0.length = 2 ^ k → G0.length = 2 ^ k → reduce O fuel (int16ToBigInt key.f) (int16ToBigInt key.g) F0 G0 = .ok (F, G) →
      CongrZ (2 ^ k) (ntruDet (int16ToBigInt key.f) (int16ToBigInt key.g) F G) (C 12289) →
      ∃ κ, IsQuot k (realI (int16ToBigInt key.f)) (realI (int16ToBigInt key.g)) (realI F) (realI G) κ ∧ ∀ x ∈ κ, |x| ≤ B) :
    CongrZ (2 ^ k) (ntruDet (int16ToBigInt key.f) (int16ToBigInt key.g) (int16ToBigInt key.F) (int16ToBigInt key.G)) (C 12289) ∧
    ∃ κ, IsQuot k (realI (int16ToBigInt key.f)) (realI (int16ToBigInt key.g)) (realI (int16ToBigInt key.F)) (realI (int16ToBigInt key.G)) κ ∧
      ∀ x ∈ κ, |x| ≤ B := by
  obtain ⟨-, hkn, hq'⟩ := GeneratePrivateKey_ok O rand fuel n pos key pos' h
  obtain ⟨fuel', F, G, norm, r, lf, lg, -, -, -, -, hs, eF, eG⟩ := NtruGen_ok O rand fuel n pos _ pos' hq'
  simp only at lf lg hs eF eG
  have lf' : (int16ToBigInt key.f).length = 2 ^ k := by rw [int16ToBigInt, List.length_map, lf, hn]
  have lg' : (int16ToBigInt key.g).length = 2 ^ k := by rw [int16ToBigInt, List.length_map, lg, hn]
  rw [hn] at hgcd hd
  have hlat : Lat k (int16ToBigInt key.f) (int16ToBigInt key.g) := ⟨lf', lg', hsn, fun w hw => hd w ((mem_rootsC k w).1 hw)⟩
  obtain ⟨Nf, tf, nf⟩ := towerNorm_ok k _ lf'
  obtain ⟨Ng, tg, ng⟩ := towerNorm_ok k _ lg'
  obtain ⟨lF, lG, hdet⟩ := C40_solution_partial O k h1 h2 _ _ lf' lg' Nf Ng nf ng (hgcd Nf Ng nf ng) fuel' F G hs
  obtain ⟨fuel'', F0, G0, lF0, lG0, hred⟩ := NtruSolve_reduce O k h1 h2 _ _ lf' lg' fuel' F G hs
  obtain ⟨κ, hκ, bκ⟩ := hq fuel'' F0 G0 F G lF0 lG0 hred hdet
  have small : ∀ v ∈ F ++ G, -6465 ≤ v ∧ v ≤ 6465 := by
    intro v hv
    have := (sol_l1_0 h2 hlat (solves_of_det lF lG hdet) κ _ hκ hB0 bκ).2 (v : ℝ) (by
      unfold realI
      rw [← List.map_append]
      exact List.mem_map_of_mem hv)
    have h3 : |(v : ℝ)| ≤ 6465 := by
      norm_num at this ⊢
      linarith
    have h4 : |v| ≤ 6465 := by exact_mod_cast h3
    rw [abs_le] at h4
    exact h4
  have fF : int16ToBigInt key.F = F := by
    rw [eF]
    exact bigIntToInt16_fits F fun v hv => by have := small v (List.mem_append_left _ hv); omega
  have fG : int16ToBigInt key.G = G := by
    rw [eG]
    exact bigIntToInt16_fits G fun v hv => by have := small v (List.mem_append_right _ hv); omega
  rw [fF, fG]
  exact ⟨hdet, κ, hκ, bκ⟩

theorem int16ToBigInt_injective {a b : List Int16} (h : int16ToBigInt a = int16ToBigInt b) : a = b := by
  unfold int16ToBigInt at h
  exact List.map_injective_iff.2 (fun x y hxy => Int16.toInt_inj.1 hxy) h

/-- `C95_key` for every variant of the arithmetic. -/
theorem variant_C95_key (va : Variant) (rand rand' : Rand) (fuel fuel' : Nat) (n n' : UInt16) (pos pos' : Nat) (key key' : PrivateKey) (p p' : Nat) (k : Nat) (hn : n.toNat = 2 ^ k)
    (h : GeneratePrivateKey va.ops rand fuel n pos = .ok (.ok (key, p))) (h' : GeneratePrivateKey exactOps rand' fuel' n' pos' = .ok (.ok (key', p')))
    (hf : key'.f = key.f) (hg : key'.g = key.g)
    (hd : ∀ w : ℂ, w ^ n.toNat = -1 → 1 / 10 ≤ gramAt (int16ToBigInt key.f) (int16ToBigInt key.g) w)
    (hgcd : ∀ Nf Ng, IsNorm n.toNat (polyZ (int16ToBigInt key.f)) Nf → IsNorm n.toNat (polyZ (int16ToBigInt key.g)) Ng → Int.gcd Nf Ng ≤ 2 ^ 64)
    (κ : List ℝ) (hκ : IsQuot k (realI (int16ToBigInt key.f)) (realI (int16ToBigInt key.g)) (realI (int16ToBigInt key.F)) (realI (int16ToBigInt key.G)) κ)
    (hfar : ∀ x ∈ κ, FarFromTie (1 / 10 ^ 6) x) : key' = key := by
  obtain ⟨s1, s2, -⟩ := (variant_C68_generated va) rand fuel n pos key p h hd
  obtain ⟨⟨k0, h1, h2, hn0⟩, hkn, hq⟩ := GeneratePrivateKey_ok va.ops rand fuel n pos key p h
  obtain rfl : k0 = k := Nat.pow_right_injective (le_refl 2) (hn0.symm.trans hn)
  obtain ⟨-, -, -, -, -, lf, lg, -⟩ := NtruGen_ok va.ops rand fuel n pos _ p hq
  obtain ⟨-, hkn', hq'⟩ := GeneratePrivateKey_ok exactOps rand' fuel' n' pos' key' p' h'
  obtain ⟨-, -, -, -, -, lf0, lg0, -⟩ := NtruGen_ok exactOps rand' fuel' n' pos' _ p' hq'
  simp only at lf lg lf0 lg0
  have hnn : n' = n := UInt16.toNat_inj.1 (by rw [← lf0, ← lf, hf])
  subst hnn
  obtain ⟨⟨u, hu⟩, -⟩ := C43_public_key va.ops rand fuel n' pos key p h
  obtain ⟨hnorm, Ft, Gt, lFt, lGt, dF, dG, hgs⟩ := C56_generated rand' fuel' n' pos' key' p' h'
  rw [hn] at hu lFt lGt dF dG
  rw [hf, hg] at hnorm dF dG
  have lf' : (int16ToBigInt key.f).length = 2 ^ k0 := by rw [int16ToBigInt, List.length_map, lf, hn]
  have lg' : (int16ToBigInt key.g).length = 2 ^ k0 := by rw [int16ToBigInt, List.length_map, lg, hn]
  have hsn : sqNorm (realI (int16ToBigInt key.f)) + sqNorm (realI (int16ToBigInt key.g)) ≤ 1.17 ^ 2 * 12289 := by
    rw [realI_int16, realI_int16]
    exact hnorm
  have hd' : ∀ w : ℂ, w ^ n'.toNat = -1 → 784 / 100 ≤ gramAt (int16ToBigInt key.f) (int16ToBigInt key.g) w := fun w hw => le_trans (by norm_num) (s2 w hw)
  have hsh : Short k0 (int16ToBigInt key.f) (int16ToBigInt key.g) := by
    refine ⟨lf', lg', unit_ne_zero k0 key.f u hu, hsn, Ft, Gt, lFt, lGt, ?_, ?_, ?_⟩
    · rw [realI_int16, realI_int16]
      exact dF
    · rw [realI_int16, realI_int16]
      exact dG
    · norm_num at hgs
      linarith
  obtain ⟨det, μ, hμ, bμ⟩ := key_solution va.ops rand fuel n' pos key p k0 h1 h2 hn h hd' hsn hgcd (1 / 2 + 7 / 10 ^ 7) (by norm_num) le_rfl (by
    intro fu F0 G0 F G l1 l2 hr hdet
    exact ((variant_C67_sharp va) k0 h1 h2 _ _ F0 G0 lf' lg' l1 l2 hsn (fun w hw => hd' w (by rw [hn]; exact (mem_rootsC k0 w).1 hw)) fu F G hr hdet).1)
  obtain ⟨det', μ', hμ', bμ'⟩ := key_solution exactOps rand' fuel' n' pos' key' p' k0 h1 h2 hn h' (by rw [hf, hg]; exact hd') (by rw [hf, hg]; exact hsn)
    (by rw [hf, hg]; exact hgcd) (1 / 2) (by norm_num) (by norm_num) (by
    intro fu F0 G0 F G l1 l2 hr hdet
    rw [hf, hg] at hr hdet ⊢
    obtain ⟨κ', hκ', b'⟩ := exact_quot k0 h1 h2 _ _ F0 G0 hsh l1 l2 fu F G hr hdet
    exact ⟨κ', hκ', fun x hx => (b' x hx).le⟩)
  obtain ⟨a, c1, c2⟩ := (C91_completion k0 h1 h2 key key' (lf.trans hn) (lg.trans hn) hf hg ⟨u, hu⟩ det).1 det'
  rw [hf, hg] at hμ'
  obtain rfl := quot_unique k0 _ _ _ _ _ _ hsh.coprime hκ hμ
  obtain ⟨-, -, -, lF, lG, -⟩ := C42_mod16_partial va.ops rand fuel n' pos key p h
  obtain ⟨-, -, -, lF', lG', -⟩ := C42_mod16_partial exactOps rand' fuel' n' pos' key' p' h'
  rw [hn] at lF lG lF' lG'
  obtain ⟨e1, e2⟩ := C95_unique k0 _ _ _ _ _ _ hsh.coprime (by simp [int16ToBigInt, lF']) (by simp [int16ToBigInt, lG']) (by simp [int16ToBigInt, lF])
    (by simp [int16ToBigInt, lG]) (Sibling.symm ⟨a, c1, c2⟩) μ' κ hμ' hκ (1 / 2) (1 / 2) bμ'
    (fun x hx => lt_of_le_of_lt (far_bound x (hfar x hx) (bμ x hx)) (by norm_num)) (by norm_num)
  have e3 := int16ToBigInt_injective e1
  have e4 := int16ToBigInt_injective e2
  cases key
  cases key'
  simp_all

/-- C95: a key generated in IEEE arithmetic and a key generated in exact arithmetic from the same `f` and `g` are equal, if no coefficient of the
quotient of the first is within `10^-6` of a tie, `|f(w)|^2 + |g(w)|^2 >= 1/10` at every root of `x^n+1` and the gcd of the norms of `f` and `g` is at most `2^64`. The
random sources, the fuel and the positions may differ. -/
theorem C95_key (rand rand' : Rand) (fuel fuel' : Nat) (n n' : UInt16) (pos pos' : Nat) (key key' : PrivateKey) (p p' : Nat) (k : Nat) (hn : n.toNat = 2 ^ k)
    (h : GeneratePrivateKey ieeeOps rand fuel n pos = .ok (.ok (key, p))) (h' : GeneratePrivateKey exactOps rand' fuel' n' pos' = .ok (.ok (key', p')))
    (hf : key'.f = key.f) (hg : key'.g = key.g)
    (hd : ∀ w : ℂ, w ^ n.toNat = -1 → 1 / 10 ≤ gramAt (int16ToBigInt key.f) (int16ToBigInt key.g) w)
    (hgcd : ∀ Nf Ng, IsNorm n.toNat (polyZ (int16ToBigInt key.f)) Nf → IsNorm n.toNat (polyZ (int16ToBigInt key.g)) Ng → Int.gcd Nf Ng ≤ 2 ^ 64)
    (κ : List ℝ) (hκ : IsQuot k (realI (int16ToBigInt key.f)) (realI (int16ToBigInt key.g)) (realI (int16ToBigInt key.F)) (realI (int16ToBigInt key.G)) κ)
    (hfar : ∀ x ∈ κ, FarFromTie (1 / 10 ^ 6) x) : key' = key :=
  variant_C95_key amd64V rand rand' fuel fuel' n n' pos pos' key key' p p' k hn h h' hf hg hd hgcd κ hκ hfar

end Falcon
