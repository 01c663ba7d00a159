import Verif.Lemmas.Ntrugen
import Verif.Lemmas.FftLen
import Mathlib.Analysis.Complex.Polynomial.Basic
/-! Lemmas about `bitsize`, `reduce`, the iterated norm and `NtruSolve`. -/

namespace Falcon
open Spec Polynomial

/-! ### bitsize -/

theorem bitsizeLoop_spec (v : Nat) : 8 ∣ bitsizeLoop v ∧ v < 2 ^ bitsizeLoop v ∧ ∀ m, 8 ∣ m → v < 2 ^ m → bitsizeLoop v ≤ m := by
  induction v using Nat.strongRecOn with
  | _ v ih =>
    rw [bitsizeLoop]
    split
    · rename_i h
      have e : v >>> 8 = v / 256 := Nat.shiftRight_eq_div_pow v 8
      obtain ⟨i1, i2, i3⟩ := ih (v >>> 8) (by rw [e]; omega)
      refine ⟨Dvd.dvd.add (by decide) i1, ?_, ?_⟩
      · rw [pow_add]
        generalize 2 ^ bitsizeLoop (v >>> 8) = z at *
        omega
      · intro m hm hv
        obtain ⟨c, rfl⟩ := hm
        cases c with
        | zero => simp at hv; omega
        | succ c =>
          have := i3 (8 * c) ⟨c, rfl⟩ (by
            rw [e]
            rw [Nat.mul_succ, pow_add] at hv
            generalize 2 ^ (8 * c) = z at *
            omega)
          omega
    · exact ⟨by simp, by simp; omega, by simp⟩

/-! ### reduce -/

variable {O : FloatOps}

theorem minFromBigInt_ok (l : List Int) (h : l ≠ []) : ∃ m, minFromBigInt l = .ok m := by
  cases l with
  | nil => exact absurd rfl h
  | cons a l => exact ⟨_, rfl⟩

theorem maxFromBigInt_ok (l : List Int) (h : l ≠ []) : ∃ m, maxFromBigInt l = .ok m := by
  cases l with
  | nil => exact absurd rfl h
  | cons a l => exact ⟨_, rfl⟩

theorem sizeOf2_ok (a b : List Int) (ha : a ≠ []) (hb : b ≠ []) : ∃ s, sizeOf2 a b = .ok s := by
  obtain ⟨m1, h1⟩ := minFromBigInt_ok a ha
  obtain ⟨m2, h2⟩ := maxFromBigInt_ok a ha
  obtain ⟨m3, h3⟩ := minFromBigInt_ok b hb
  obtain ⟨m4, h4⟩ := maxFromBigInt_ok b hb
  unfold sizeOf2
  rw [h1, Go.ok_bind, h2, Go.ok_bind, h3, Go.ok_bind, h4, Go.ok_bind]
  exact ⟨_, rfl⟩

/-- Length of `FFT` output on inputs of length `2^k`. -/
def fftLen (k : Nat) : Nat := if k = 0 then 0 else 2 ^ k

theorem FFT_ok' (k : Nat) (h2 : k ≤ 10) (f : List O.F) (hf : f.length = 2 ^ k) :
    ∃ r, FFT O f = .ok r ∧ r.length = fftLen k := by
  unfold fftLen
  split
  · subst k
    match f, hf with
    | [x], _ =>
      rw [FFT, dif_neg (by simp)]
      exact ⟨[], rfl, rfl⟩
  · exact FFT_ok k (by omega) h2 f hf

theorem IFFT_ok' (k : Nat) (h2 : k ≤ 10) (f : List O.C) (hf : f.length = fftLen k) :
    ∃ r, IFFT O f = .ok r ∧ r.length = fftLen k := by
  unfold fftLen at *
  split
  · subst k
    match f, hf with
    | [], _ => exact ⟨[], rfl, rfl⟩
  · rename_i h0
    rw [if_neg h0] at hf
    exact IFFT_ok k (by omega) h2 f hf

theorem MulFFT_ok (f g : List O.C) (h : f.length = g.length) : ∃ r, MulFFT O f g = .ok r ∧ r.length = f.length := by
  unfold MulFFT
  simp [h]

theorem AddFFT_ok (f g : List O.C) (h : f.length = g.length) : ∃ r, AddFFT O f g = .ok r ∧ r.length = f.length := by
  unfold AddFFT
  simp [h]

theorem DivFFT_ok (f g : List O.C) (h : f.length = g.length) : ∃ r, DivFFT O f g = .ok r ∧ r.length = f.length := by
  unfold DivFFT
  simp [h]

theorem AdjFFT_length (f : List O.C) : (AdjFFT O f).length = f.length := by simp [AdjFFT]

theorem babai_ok (k : Nat) (h2 : k ≤ 10) (fa ga : List O.C) (F G : List O.F) (hfa : fa.length = fftLen k)
    (hga : ga.length = fftLen k) (hF : F.length = 2 ^ k) (hG : G.length = 2 ^ k) :
    ∃ r, babai O fa ga F G = .ok r ∧ r.length = fftLen k := by
  obtain ⟨Fa, e1, l1⟩ := FFT_ok' k h2 F hF
  obtain ⟨Ga, e2, l2⟩ := FFT_ok' k h2 G hG
  obtain ⟨d1, e3, l3⟩ := MulFFT_ok fa (AdjFFT O fa) (AdjFFT_length _).symm
  obtain ⟨d2, e4, l4⟩ := MulFFT_ok ga (AdjFFT O ga) (AdjFFT_length _).symm
  obtain ⟨den, e5, l5⟩ := AddFFT_ok d1 d2 (by omega)
  obtain ⟨n1, e6, l6⟩ := MulFFT_ok Fa (AdjFFT O fa) (by rw [AdjFFT_length]; omega)
  obtain ⟨n2, e7, l7⟩ := MulFFT_ok Ga (AdjFFT O ga) (by rw [AdjFFT_length]; omega)
  obtain ⟨num, e8, l8⟩ := AddFFT_ok n1 n2 (by omega)
  obtain ⟨q, e9, l9⟩ := DivFFT_ok num den (by omega)
  obtain ⟨r, e10, l10⟩ := IFFT_ok' k h2 q (by omega)
  unfold babai
  rw [e1, Go.ok_bind, e2, Go.ok_bind, e3, Go.ok_bind, e4, Go.ok_bind, e5, Go.ok_bind, e6, Go.ok_bind, e7, Go.ok_bind,
    e8, Go.ok_bind, e9, Go.ok_bind, e10, Go.ok_bind]
  exact ⟨_, rfl, by simp [RoundAll, l10]⟩

theorem subShifted_ok (x : List Int) (sh m i : Nat) (F : List Int) (h0 : i + m ≤ x.length) (h1 : i + m ≤ F.length) :
    ∃ r, subShifted x sh m i F = .ok r ∧ r.length = F.length ∧
      poly r = poly F - C (2 ^ sh) * (X ^ i * poly ((x.drop i).take m)) := by
  induction m generalizing i F with
  | zero => exact ⟨F, rfl, rfl, by simp⟩
  | succ m ih =>
    obtain ⟨z', hz, hl, hp⟩ := addAt_ok F i (-((x[i]'(by omega)) <<< sh)) (by omega)
    obtain ⟨r, hr, hrl, hrp⟩ := ih (i + 1) z' (by omega) (by omega)
    rw [subShifted, idx_ok (by omega), Go.ok_bind, hz, Go.ok_bind]
    refine ⟨r, hr, hrl.trans hl, ?_⟩
    rw [poly_window _ _ _ (by omega), hrp, hp, C_neg, Int.shiftLeft_eq, C_mul]
    push_cast
    ring

theorem congrZ_refl (n : Nat) (p : ℤ[X]) : CongrZ n p p := by simp [CongrZ]

theorem ne_nil_of_length {α : Type*} {l : List α} {k : Nat} (h : l.length = 2 ^ k) : l ≠ [] := by
  rintro rfl
  have := Nat.two_pow_pos k
  simp at h; omega

/-- One multiple of `(f,g)` was subtracted from `(F,G)`. -/
def Shifted (n : Nat) (f g F G F' G' : List Int) : Prop :=
  ∃ K : ℤ[X], CongrZ n (poly F') (poly F - poly f * K) ∧ CongrZ n (poly G') (poly G - poly g * K)

theorem reduceLoop_ok (k : Nat) (h2 : k ≤ 10) (f g : List Int) (hf : f.length = 2 ^ k) (hg : g.length = 2 ^ k) (size : Nat)
    (fa ga : List O.C) (hfa : fa.length = fftLen k) (hga : ga.length = fftLen k) (fuel : Nat) (F G : List Int)
    (hF : F.length = 2 ^ k) (hG : G.length = 2 ^ k) :
    reduceLoop O f g size fa ga fuel F G ≠ .panic ∧
    ∀ F' G', reduceLoop O f g size fa ga fuel F G = .ok (F', G') →
      F'.length = 2 ^ k ∧ G'.length = 2 ^ k ∧ Shifted (2 ^ k) f g F G F' G' := by
  induction fuel generalizing F G with
  | zero => simp [reduceLoop]
  | succ fuel ih =>
    have stop : (Go.ok (F, G) : Go (List Int × List Int)) ≠ .panic ∧ ∀ F' G', (Go.ok (F, G) : Go (List Int × List Int)) = .ok (F', G') →
      F'.length = 2 ^ k ∧ G'.length = 2 ^ k ∧ Shifted (2 ^ k) f g F G F' G' := by
      refine ⟨by simp, ?_⟩
      intro F' G' h
      have h := Go.ok.inj h
      rw [Prod.mk.injEq] at h
      obtain ⟨rfl, rfl⟩ := h
      exact ⟨hF, hG, 0, by simp [congrZ_refl], by simp [congrZ_refl]⟩
    obtain ⟨S, hS⟩ := sizeOf2_ok F G (ne_nil_of_length hF) (ne_nil_of_length hG)
    obtain ⟨q, hq, lq⟩ := babai_ok (O := O) k h2 fa ga (adjust O S F) (adjust O S G) hfa hga (by simp [adjust, hF])
      (by simp [adjust, hG])
    rw [reduceLoop, hS, Go.ok_bind]
    by_cases hlt : S < size
    · rw [if_pos hlt]; exact stop
    rw [if_neg hlt, hq, Go.ok_bind]
    by_cases hz : allZeroes q = true
    · rw [if_pos hz]; exact stop
    rw [if_neg hz]
    have lq' : q.length = 2 ^ k := by
      rw [lq]
      unfold fftLen
      split
      · rename_i h0
        rw [fftLen, if_pos h0] at lq
        rw [List.length_eq_zero_iff] at lq
        subst lq
        exact absurd rfl hz
      · rfl
    obtain ⟨fk, e1, l1, c1⟩ := karamul_ok k f q hf lq'
    obtain ⟨gk, e2, l2, c2⟩ := karamul_ok k g q hg lq'
    obtain ⟨F1, e3, l3, p3⟩ := subShifted_ok fk (S - size) f.length 0 F (by omega) (by omega)
    obtain ⟨G1, e4, l4, p4⟩ := subShifted_ok gk (S - size) f.length 0 G (by omega) (by omega)
    rw [e1, Go.ok_bind, e2, Go.ok_bind, e3, Go.ok_bind, e4, Go.ok_bind]
    obtain ⟨i1, i2⟩ := ih F1 G1 (by omega) (by omega)
    refine ⟨i1, fun F' G' h => ?_⟩
    obtain ⟨m1, m2, K, ⟨a, ha⟩, ⟨b, hb⟩⟩ := i2 F' G' h
    rw [poly_full _ _ (by omega)] at p3 p4
    obtain ⟨c, hc⟩ := c1
    obtain ⟨d, hd⟩ := c2
    refine ⟨m1, m2, K + C (2 ^ (S - size)) * poly q, ⟨a + C (2 ^ (S - size)) * c, ?_⟩, ⟨b + C (2 ^ (S - size)) * d, ?_⟩⟩
    · linear_combination ha + p3 + C (2 ^ (S - size)) * hc
    · linear_combination hb + p4 + C (2 ^ (S - size)) * hd

theorem reduce_ok (k : Nat) (h2 : k ≤ 10) (f g : List Int) (hf : f.length = 2 ^ k) (hg : g.length = 2 ^ k) (fuel : Nat)
    (F G : List Int) (hF : F.length = 2 ^ k) (hG : G.length = 2 ^ k) :
    reduce O fuel f g F G ≠ .panic ∧
    ∀ F' G', reduce O fuel f g F G = .ok (F', G') →
      F'.length = 2 ^ k ∧ G'.length = 2 ^ k ∧ Shifted (2 ^ k) f g F G F' G' := by
  obtain ⟨s, hs⟩ := sizeOf2_ok f g (ne_nil_of_length hf) (ne_nil_of_length hg)
  obtain ⟨fa, e1, l1⟩ := FFT_ok' (O := O) k h2 (adjust O s f) (by simp [adjust, hf])
  obtain ⟨ga, e2, l2⟩ := FFT_ok' (O := O) k h2 (adjust O s g) (by simp [adjust, hg])
  unfold reduce
  rw [hs, Go.ok_bind, e1, Go.ok_bind, e2, Go.ok_bind]
  exact reduceLoop_ok k h2 f g hf hg s fa ga l1 l2 fuel F G hF hG

theorem Shifted.det {n : Nat} {f g F G F' G' : List Int} (h : Shifted n f g F G F' G') :
    CongrZ n (ntruDet f g F' G') (ntruDet f g F G) := by
  obtain ⟨K, ⟨a, ha⟩, ⟨b, hb⟩⟩ := h
  refine ⟨poly f * b - poly g * a, ?_⟩
  unfold ntruDet polyZ
  linear_combination poly f * hb - poly g * ha

/-! ### Norm to the integers -/

/-- The chain of `fieldNorm` calls of `NtruSolve`, down to an integer. -/
def towerNorm : Nat → List Int → Go Int
  | 0, f => idx f 0
  | k + 1, f => fieldNorm f >>= towerNorm k

theorem roots_sq (m : Nat) (s : ℂ → ℂ) (hs : ∀ w, s w ^ 2 = w) (hm : 0 < m) :
    (X ^ (2 * m) + 1 : ℂ[X]).roots = (X ^ m + 1 : ℂ[X]).roots.bind fun w => {s w, -s w} := by
  have hmonic : (X ^ m + 1 : ℂ[X]).Monic := by
    simpa using monic_X_pow_add_C (1 : ℂ) (by omega : m ≠ 0)
  have hsplit := (IsAlgClosed.splits (X ^ m + 1 : ℂ[X])).eq_prod_roots_of_monic hmonic
  have e : (X ^ (2 * m) + 1 : ℂ[X]) =
      (((X ^ m + 1 : ℂ[X]).roots.bind fun w => {s w, -s w}).map fun a => X - C a).prod := by
    rw [Multiset.map_bind, Multiset.prod_bind]
    have h1 : (X ^ (2 * m) + 1 : ℂ[X]) = (X ^ m + 1 : ℂ[X]).comp (X ^ 2) := by simp [pow_mul]
    rw [h1]
    conv_lhs => rw [hsplit]
    rw [Polynomial.multiset_prod_comp, Multiset.map_map]
    congr 1
    apply Multiset.map_congr rfl
    intro w _
    simp only [Function.comp, sub_comp, X_comp, C_comp, Multiset.insert_eq_cons, Multiset.map_cons, Multiset.map_singleton,
      Multiset.prod_cons, Multiset.prod_singleton, C_neg]
    conv_lhs => rw [← hs w]
    rw [C_pow]; ring
  rw [e, roots_multiset_prod_X_sub_C]

theorem exists_sqrt : ∃ s : ℂ → ℂ, ∀ w, s w ^ 2 = w := by
  have : ∀ w : ℂ, ∃ z, z ^ 2 = w := fun w => IsAlgClosed.exists_pow_nat_eq w (by decide)
  exact ⟨fun w => (this w).choose, fun w => (this w).choose_spec⟩

theorem isNorm_step (m : Nat) (hm : 0 < m) (a r : ℤ[X]) (h : CongrZ (2 * m) (a * a.comp (-X)) (r.comp (X ^ 2))) (N : ℤ)
    (hN : IsNorm m r N) : IsNorm (2 * m) a N := by
  obtain ⟨s, hs⟩ := exists_sqrt
  unfold IsNorm at *
  rw [roots_sq m s hs hm, Multiset.map_bind, Multiset.prod_bind, hN]
  congr 1
  apply Multiset.map_congr rfl
  intro w hw
  have hmonic : (X ^ m + 1 : ℂ[X]).Monic := by
    simpa using monic_X_pow_add_C (1 : ℂ) (by omega : m ≠ 0)
  have hw' : w ^ m + 1 = 0 := by simpa using (mem_roots hmonic.ne_zero).1 hw
  simp only [Multiset.insert_eq_cons, Multiset.map_cons, Multiset.map_singleton, Multiset.prod_cons, Multiset.prod_singleton]
  obtain ⟨c, hc⟩ := h
  have h1 := congrArg (eval₂ (Int.castRingHom ℂ) (s w)) hc
  rw [eval₂_sub, eval₂_mul, eval₂_mul, eval₂_comp, eval₂_comp] at h1
  simp only [eval₂_neg, eval₂_X, eval₂_pow, eval₂_add, eval₂_one, pow_mul, hs, hw', zero_mul] at h1
  linear_combination -h1

theorem isNorm_base (f : List Int) (hf : f.length = 1) : ∃ x, f = [x] ∧ IsNorm (2 ^ 0) (poly f) x := by
  match f, hf with
  | [x], _ =>
    refine ⟨x, rfl, ?_⟩
    unfold IsNorm
    have : (X ^ 2 ^ 0 + 1 : ℂ[X]).roots = {-1} := by
      rw [show (X ^ 2 ^ 0 + 1 : ℂ[X]) = X - C (-1) by simp, roots_X_sub_C]
    rw [this]
    simp only [poly_cons, poly_nil, mul_zero, add_zero, Multiset.map_singleton, Multiset.prod_singleton, eval₂_C]
    rfl

theorem towerNorm_ok (k : Nat) (f : List Int) (hf : f.length = 2 ^ k) :
    ∃ N, towerNorm k f = .ok N ∧ IsNorm (2 ^ k) (poly f) N := by
  induction k generalizing f with
  | zero =>
    obtain ⟨x, rfl, hx⟩ := isNorm_base f hf
    exact ⟨x, rfl, hx⟩
  | succ k ih =>
    obtain ⟨r, e, l, c⟩ := fieldNorm_ok k f hf
    obtain ⟨N, hN, iN⟩ := ih r l
    refine ⟨N, by rw [towerNorm, e, Go.ok_bind, hN], ?_⟩
    have := fieldNorm_conj k f r hf c
    rw [pow_succ, mul_comm] at this ⊢
    exact isNorm_step _ (Nat.two_pow_pos k) _ _ this N iN

theorem isNorm_unique {n : Nat} {p : ℤ[X]} {N M : ℤ} (h1 : IsNorm n p N) (h2 : IsNorm n p M) : N = M := by
  unfold IsNorm at *
  exact_mod_cast h1.trans h2.symm

theorem towerNorm_nonneg (k : Nat) (f : List Int) (hf : f.length = 2 ^ (k + 1)) (N : Int) (h : towerNorm (k + 1) f = .ok N) :
    0 ≤ N := by
  induction k generalizing f N with
  | zero =>
    obtain ⟨r, e, l, ⟨c, hc⟩⟩ := fieldNorm_ok 0 f hf
    match f, hf, r, l with
    | [a, b], _, [x], _ =>
      rw [towerNorm, e, Go.ok_bind] at h
      have h := Go.ok.inj h
      have := congrArg (eval (-1)) hc
      simp [splitPolys] at this
      rw [← h]
      nlinarith [sq_nonneg a, sq_nonneg b]
  | succ k ih =>
    obtain ⟨r, e, l, _⟩ := fieldNorm_ok (k + 1) f hf
    rw [towerNorm, e, Go.ok_bind] at h
    exact ih r l N h

/-! ### NtruSolve -/

theorem NtruSolve_ok (k : Nat) (hk : k ≤ 10) (f g : List Int) (hf : f.length = 2 ^ k) (hg : g.length = 2 ^ k) (Nf Ng : Int)
    (hNf : towerNorm k f = .ok Nf) (hNg : towerNorm k g = .ok Ng) (fuel : Nat) :
    NtruSolve O fuel f g ≠ .panic ∧
    (NtruSolve O fuel f g = .ok none → bigInt64 (xgcd Nf Ng).1 ≠ 1) ∧
    ∀ F G, NtruSolve O fuel f g = .ok (some (F, G)) → bigInt64 (xgcd Nf Ng).1 = 1 ∧ F.length = 2 ^ k ∧ G.length = 2 ^ k ∧
      CongrZ (2 ^ k) (ntruDet f g F G) (C (12289 * (xgcd Nf Ng).1)) := by
  induction k generalizing f g fuel with
  | zero =>
    cases fuel with
    | zero => simp [NtruSolve]
    | succ fuel =>
      match f, g, hf, hg with
      | [a], [b], _, _ =>
        have h1 := Go.ok.inj hNf
        have h2 := Go.ok.inj hNg
        subst h1 h2
        rw [NtruSolve, if_pos (by simp)]
        simp only [idx, List.getElem?_cons_zero, Go.ok_bind]
        by_cases hd : bigInt64 (xgcd a b).1 ≠ 1
        · rw [if_pos hd]
          exact ⟨by simp, fun _ => hd, fun F G h => by simp at h⟩
        · rw [if_neg hd]
          refine ⟨by simp, fun h => by simp at h, fun F G h => ?_⟩
          simp only [Go.pure_eq, Go.ok.injEq, Option.some.injEq, Prod.mk.injEq] at h
          obtain ⟨rfl, rfl⟩ := h
          refine ⟨not_not.1 hd, rfl, rfl, 0, ?_⟩
          have hb := (xgcdLoop_spec a b a b 1 0 0 1 (by ring) (by ring)).1
          change (xgcd a b).1 = (xgcd a b).2.1 * a + (xgcd a b).2.2 * b at hb
          unfold ntruDet polyZ
          simp only [poly_cons, poly_nil, mul_zero, add_zero, Q]
          rw [← C_mul, ← C_mul, ← C_sub, ← C_sub, ← C_0]
          congr 1
          rw [hb]
          ring
  | succ k ih =>
    cases fuel with
    | zero => simp [NtruSolve]
    | succ fuel =>
      have hp := Nat.two_pow_pos k
      have e := pow_succ 2 k
      obtain ⟨fp, ef, lf, cf⟩ := fieldNorm_ok k f hf
      obtain ⟨gp, eg, lg, cg⟩ := fieldNorm_ok k g hg
      rw [towerNorm, ef, Go.ok_bind] at hNf
      rw [towerNorm, eg, Go.ok_bind] at hNg
      obtain ⟨i1, i2, i3⟩ := ih (by omega) fp gp lf lg hNf hNg fuel
      rw [NtruSolve, if_neg (by omega), ef, Go.ok_bind, eg, Go.ok_bind]
      cases hr : NtruSolve O fuel fp gp with
      | panic => exact absurd hr i1
      | diverge => simp
      | ok r =>
        rw [Go.ok_bind]
        cases r with
        | none => exact ⟨by simp, fun _ => i2 hr, fun F G h => by simp at h⟩
        | some FG =>
          obtain ⟨Fp, Gp⟩ := FG
          obtain ⟨hd, lF, lG, hdet⟩ := i3 Fp Gp hr
          obtain ⟨F, e1, l1, c1⟩ := karamul_ok (k + 1) (lift Fp) (galoisConjugate g) (by rw [lift_length]; omega)
            (by rw [galois_length]; omega)
          obtain ⟨G, e2, l2, c2⟩ := karamul_ok (k + 1) (lift Gp) (galoisConjugate f) (by rw [lift_length]; omega)
            (by rw [galois_length]; omega)
          simp only [e1, e2, Go.ok_bind]
          obtain ⟨r1, r2⟩ := reduce_ok (O := O) (k + 1) hk f g hf hg (fuel + 1) F G l1 l2
          cases hr' : reduce O (fuel + 1) f g F G with
          | panic => exact absurd hr' r1
          | diverge => simp
          | ok FG' =>
            refine ⟨by simp, fun h => by simp at h, fun F' G' h => ?_⟩
            simp only [Go.ok_bind, Go.pure_eq, Go.ok.injEq, Option.some.injEq] at h
            subst h
            obtain ⟨m1, m2, hs⟩ := r2 F' G' hr'
            refine ⟨hd, m1, m2, ?_⟩
            obtain ⟨a, ha⟩ := hs.det
            obtain ⟨b, hb⟩ := congrZ_comp_sq hdet
            obtain ⟨c, hc⟩ := fieldNorm_conj k f fp hf cf
            obtain ⟨d, hd⟩ := fieldNorm_conj k g gp hg cg
            obtain ⟨u, hu⟩ := c1
            obtain ⟨v, hv⟩ := c2
            rw [poly_lift, poly_galois] at hu hv
            rw [show 2 * 2 ^ k = 2 ^ (k + 1) by omega] at hb
            unfold ntruDet polyZ at *
            simp only [sub_comp, mul_comp, C_comp] at hb
            refine ⟨a + b + (poly Gp).comp (X ^ 2) * c - (poly Fp).comp (X ^ 2) * d - poly f * v + poly g * u, ?_⟩
            linear_combination ha + hb + (poly Gp).comp (X ^ 2) * hc - (poly Fp).comp (X ^ 2) * hd - poly f * hv + poly g * hu

end Falcon
