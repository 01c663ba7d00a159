import Verif.Props.HaltIeee
import Verif.Props.GsFloat
/-!
# The size of generated keys (C67)
-/

namespace Falcon
open Spec Polynomial ComplexConjugate F64

/-- `C67_key_size` for every variant of the arithmetic. -/
theorem variant_C67_key_size (va : Variant) (rand : Rand) (fuel : Nat) (n : UInt16) (pos : Nat) (key : PrivateKey) (pos' : Nat)
    (h : GeneratePrivateKey va.ops rand fuel n pos = .ok (.ok (key, pos')))
    (hd : ∀ w : ℂ, w ^ n.toNat = -1 → 1 / 10 ≤ gramAt (int16ToBigInt key.f) (int16ToBigInt key.g) w)
    (hgcd : ∀ Nf Ng, IsNorm n.toNat (polyZ (int16ToBigInt key.f)) Nf → IsNorm n.toNat (polyZ (int16ToBigInt key.g)) Ng →
      Int.gcd Nf Ng ≤ 2 ^ 64) :
    ∀ v ∈ key.F ++ key.G, |(v.toInt : ℝ)| ≤ 65 * √n.toNat + 130 := by
  obtain ⟨s1, s2, Ft, Gt, lFt, lGt, dF, dG, hgs⟩ := (variant_C68_generated va) rand fuel n pos key pos' h hd
  obtain ⟨⟨k, h1, h2, hn⟩, hkn, hq⟩ := GeneratePrivateKey_ok va.ops rand fuel n pos key pos' h
  obtain ⟨fuel', F, G, norm, r, lf, lg, -, -, -, -, hs, eF, eG⟩ := NtruGen_ok va.ops rand fuel n pos _ pos' hq
  simp only at lf lg hs eF eG
  have lf' : (int16ToBigInt key.f).length = 2 ^ k := by rw [int16ToBigInt, List.length_map, lf, hn]
  have lg' : (int16ToBigInt key.g).length = 2 ^ k := by rw [int16ToBigInt, List.length_map, lg, hn]
  rw [hn] at hgcd s2 lFt lGt dF dG ⊢
  obtain ⟨Nf, tf, nf⟩ := towerNorm_ok k _ lf'
  obtain ⟨Ng, tg, ng⟩ := towerNorm_ok k _ lg'
  obtain ⟨lF, lG, hdet⟩ := C40_solution_partial va.ops k h1 h2 _ _ lf' lg' Nf Ng nf ng (hgcd Nf Ng nf ng) fuel' F G hs
  obtain ⟨fuel'', F0, G0, lF0, lG0, hred⟩ := NtruSolve_reduce va.ops k h1 h2 _ _ lf' lg' fuel' F G hs
  have hnorm : sqNorm (realI (int16ToBigInt key.f)) + sqNorm (realI (int16ToBigInt key.g)) ≤ 16822 := by
    rw [realI_int16, realI_int16]; exact s1
  have hgr : ∀ w ∈ rootsC k, 784 / 100 ≤ gramAt (int16ToBigInt key.f) (int16ToBigInt key.g) w :=
    fun w hw => le_trans (by norm_num) (s2 w ((mem_rootsC k w).1 hw))
  obtain ⟨⟨κ, hκ, bκ⟩, b⟩ := (variant_C67_sharp va) k h1 h2 _ _ F0 G0 lf' lg' lF0 lG0 (hnorm.trans (by norm_num)) hgr fuel'' F G hred hdet
  have hlat : Lat k (int16ToBigInt key.f) (int16ToBigInt key.g) := ⟨lf', lg', hnorm.trans (by norm_num), hgr⟩
  have hsol := solves_of_det lF lG hdet
  have q1 := sqNorm_nonneg Ft
  have q2 := sqNorm_nonneg Gt
  have hB : ∀ l : List ℝ, sqNorm l ≤ sqNorm Ft + sqNorm Gt → ∀ x ∈ l, |x| ≤ 130 / 12289 := by
    intro l hl x hx
    have := sq_le_sqNorm l x hx
    apply abs_le_of_sq_le_sq _ (by norm_num)
    norm_num
    linarith
  rw [← realI_int16, ← realI_int16] at dF dG
  obtain ⟨r1, r2⟩ := core_bound k _ _ (realI F) (realI G) κ Ft Gt [12289] (by rw [realI_length, lf']) (by rw [realI_length, lg'])
    (by rw [realI_length, lF]) (by rw [realI_length, lG]) hκ.1 lFt lGt hlat.coprime _ bκ (130 / 12289)
    (hB Ft (by linarith)) (hB Gt (by linarith)) hκ.2 dF dG (by simpa using hsol.det)
  have hl : l1 [(12289 : ℝ)] = 12289 := by simp [l1]
  rw [hl] at r1 r2
  have hsq : ∀ l : List Int, l.length = 2 ^ k → sqNorm (realI l) ≤ 16822 → l1 (realI l) ≤ 1298 / 10 * √((2 ^ k : Nat) : ℝ) := by
    intro l hl hb
    have h3 := l1_sq_le (realI l)
    rw [realI_length, hl] at h3
    have p0 : (0 : ℝ) ≤ ((2 ^ k : Nat) : ℝ) := by positivity
    apply (abs_le_of_sq_le_sq' _ (by positivity)).2
    rw [mul_pow, Real.sq_sqrt p0]
    have h4 : ((2 ^ k : Nat) : ℝ) * sqNorm (realI l) ≤ ((2 ^ k : Nat) : ℝ) * 16822 := mul_le_mul_of_nonneg_left hb p0
    linarith
  have t1 := sqNorm_nonneg (realI (int16ToBigInt key.f))
  have t2 := sqNorm_nonneg (realI (int16ToBigInt key.g))
  have u1 := hsq _ lf' (by linarith)
  have u2 := hsq _ lg' (by linarith)
  have hr0 : 0 ≤ √((2 ^ k : Nat) : ℝ) := Real.sqrt_nonneg _
  clear hsq
  generalize √((2 ^ k : Nat) : ℝ) = z at *
  have small : ∀ v ∈ F ++ G, |(v : ℝ)| ≤ 65 * z + 130 := by
    intro v hv
    rcases List.mem_append.1 hv with hv | hv
    · have := r1 v (List.mem_map_of_mem hv)
      norm_num at this u1 ⊢
      linarith
    · have := r2 v (List.mem_map_of_mem hv)
      norm_num at this u2 ⊢
      linarith
  have fits : ∀ v ∈ F ++ G, -6465 ≤ v ∧ v ≤ 6465 := by
    intro v hv
    have h3 : |v| ≤ 6465 := by exact_mod_cast b v hv
    rw [abs_le] at h3
    exact h3
  have fF : int16ToBigInt key.F = F := by
    rw [eF]
    exact bigIntToInt16_fits F fun v hv => by have := fits v (List.mem_append_left _ hv); omega
  have fG : int16ToBigInt key.G = G := by
    rw [eG]
    exact bigIntToInt16_fits G fun v hv => by have := fits v (List.mem_append_right _ hv); omega
  intro v hv
  apply small
  rw [← fF, ← fG]
  unfold int16ToBigInt
  rw [← List.map_append]
  exact List.mem_map_of_mem hv

/-- C67: in IEEE arithmetic, every coefficient of `F` and `G` in a generated key of degree `n` is at most `65 sqrt(n) + 130` in absolute value
(1600 for `n = 512` and 2210 for `n = 1024`), if `|f(w)|^2 + |g(w)|^2 >= 1/10` at every root of `x^n + 1` and the norms of `f` and `g` do not
share a factor above `2^64`. -/
theorem C67_key_size (rand : Rand) (fuel : Nat) (n : UInt16) (pos : Nat) (key : PrivateKey) (pos' : Nat)
    (h : GeneratePrivateKey ieeeOps rand fuel n pos = .ok (.ok (key, pos')))
    (hd : ∀ w : ℂ, w ^ n.toNat = -1 → 1 / 10 ≤ gramAt (int16ToBigInt key.f) (int16ToBigInt key.g) w)
    (hgcd : ∀ Nf Ng, IsNorm n.toNat (polyZ (int16ToBigInt key.f)) Nf → IsNorm n.toNat (polyZ (int16ToBigInt key.g)) Ng →
      Int.gcd Nf Ng ≤ 2 ^ 64) :
    ∀ v ∈ key.F ++ key.G, |(v.toInt : ℝ)| ≤ 65 * √n.toNat + 130 :=
  variant_C67_key_size amd64V rand fuel n pos key pos' h hd hgcd

/-- The hypotheses hold for the run at degree 2. -/
example : |((124 : Int16).toInt : ℝ)| ≤ 65 * √(2 : ℕ) + 130 :=
  C67_key_size runRand 20 2 0 _ _ ieee_run_key ieee_run_gram (by
    intro Nf Ng hf hg
    obtain ⟨N, t, hN⟩ := towerNorm_ok 1 [72, 5] rfl
    obtain ⟨M, t', hM⟩ := towerNorm_ok 1 [60, 31] rfl
    have e1 : N = 5209 := (Go.ok.inj (t.symm.trans (by decide +kernel : towerNorm 1 [72, 5] = .ok 5209)))
    have e2 : M = 4561 := (Go.ok.inj (t'.symm.trans (by decide +kernel : towerNorm 1 [60, 31] = .ok 4561)))
    have u1 : Nf = N := by exact_mod_cast hf.trans hN.symm
    have u2 : Ng = M := by exact_mod_cast hg.trans hM.symm
    rw [u1, u2, e1, e2]
    decide +kernel) 124 (by decide)

end Falcon
