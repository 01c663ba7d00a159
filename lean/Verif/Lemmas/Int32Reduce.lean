import Verif.Lemmas.ConstSolve
import Verif.Lemmas.Babai
/-!
# `reduce` on constants with another conversion to `int`

The arithmetic of amd64 with any conversion of floats to `int`: the transforms are the same, only `RoundAll` (util.go:321-327) differs.
-/

namespace Falcon
open F64

/-- `int(x)` on 386 (CVTTSD2SL): the most negative 32-bit integer if the value does not fit. -/
def toI32 (a : F64) : Int :=
  if a.isFinite && decide (-(2 ^ 31) ≤ truncInt a.val) && decide (truncInt a.val < 2 ^ 31) then truncInt a.val else -(2 ^ 31)

/-- IEEE arithmetic with another conversion to `int`. -/
abbrev opsWith (t : F64 → Int) : FloatOps := { ieeeOps with toInt := t }

variable (t : F64 → Int)

theorem mergeLoop_with (n i : Nat) (l m : List (F64 × F64)) : mergeFFTLoop (opsWith t) n i l m = mergeFFTLoop ieeeOps n i l m := by
  induction l generalizing i m with
  | nil => rfl
  | cons a l ih =>
    cases m with
    | nil => rfl
    | cons b m =>
      rw [mergeFFTLoop, mergeFFTLoop]
      simp only [ih]
      rfl

theorem splitLoop_with (n i : Nat) (l : List (F64 × F64)) : splitFFTLoop (opsWith t) n i l = splitFFTLoop ieeeOps n i l := by
  induction l using List.twoStepInduction generalizing i with
  | nil => rfl
  | singleton x => rfl
  | cons_cons x y l ih _ =>
    rw [splitFFTLoop, splitFFTLoop]
    simp only [ih]
    rfl

theorem FFT_with (l : List F64) : FFT (opsWith t) l = FFT ieeeOps l := by
  induction hn : l.length using Nat.strong_induction_on generalizing l with
  | _ n ih =>
    subst hn
    by_cases hl : l.length > 2
    · rw [FFT.eq_def (opsWith t), FFT.eq_def ieeeOps l, dif_pos hl, dif_pos hl]
      rw [ih _ (by rw [splitPolys_length1]; omega) _ rfl, ih _ (by rw [splitPolys_length2]; omega) _ rfl]
      unfold MergeFFT
      simp only [mergeLoop_with]
    · rw [FFT.eq_def (opsWith t), FFT.eq_def ieeeOps l, dif_neg hl, dif_neg hl]
      match l, hl with
      | [], _ => rfl
      | [_], _ => rfl
      | [_, _], _ => rfl
      | _ :: _ :: _ :: _, hl => simp at hl

theorem ifft_with (fuel : Nat) (l : List (F64 × F64)) : ifftAux (opsWith t) fuel l = ifftAux ieeeOps fuel l := by
  induction fuel generalizing l with
  | zero => rfl
  | succ fuel ih =>
    unfold ifftAux SplitFFT
    simp only [splitLoop_with, ih]
    by_cases hl : l.length > 2
    · rw [if_pos hl, if_pos hl]
    · rw [if_neg hl, if_neg hl]
      match l, hl with
      | [], _ => rfl
      | [_], _ => rfl
      | [_, _], _ => rfl
      | _ :: _ :: _ :: _, hl => simp at hl

theorem IFFT_with (l : List (F64 × F64)) : IFFT (opsWith t) l = IFFT ieeeOps l := by
  unfold IFFT
  rw [ifft_with]

theorem roundAll_with (n : Nat) (v : ℚ) (h0 : v ≠ 0) (hz : ∀ s, t (F64.round (.zero s)) = 0) (r : List F64) (h : List.Forall₂ Is r (cst n v)) :
    RoundAll (opsWith t) r = cst n (t (F64.round (.fin v))) := by
  unfold cst at h ⊢
  generalize n - 1 = m at h ⊢
  cases h with | @cons x _ xs _ hx h =>
  unfold RoundAll
  rw [List.map_cons]
  congr 1
  · rcases hx with ⟨e, -⟩ | ⟨-, rfl⟩
    · exact absurd e h0
    · rfl
  · induction m generalizing xs with
    | zero => cases h; rfl
    | succ m ih =>
      rw [List.replicate_succ] at h ⊢
      cases h with | @cons y _ ys _ hy h =>
      rw [List.map_cons, ih h]
      congr 1
      rcases hy with ⟨-, s, rfl⟩ | ⟨e, -⟩
      · exact hz s
      · exact absurd rfl e

/-- The quotient with `f = 1`, `g = 0` is the leading part of `F`. -/
theorem babai_one (k : Nat) (h1 : 1 ≤ k) (h2 : k ≤ 10) (hz : ∀ s, t (F64.round (.zero s)) = 0) {A B : ℚ} (A0 : A ≠ 0)
    (pA : Rp A) (pB : Rp B) (bA : |A| ≤ 2 ^ 65) (bB : |B| ≤ 2 ^ 65) (f g : List (F64 × F64)) (hf : AllC (2 ^ k) 1 f) (hg : AllC (2 ^ k) 0 g)
    (F G : List F64) (hF : List.Forall₂ Is F (cst (2 ^ k) A)) (hG : List.Forall₂ Is G (cst (2 ^ k) B)) :
    babai (opsWith t) f g F G = .ok (cst (2 ^ k) (t (F64.round (.fin A)))) := by
  have L := lim_ge
  have e65 : (2 : ℚ) ^ 65 ≤ lim := le_trans (by norm_num) L
  have r1 : rd 1 = 1 := by decide +kernel
  obtain ⟨c1, e1, l1, q1⟩ := FFT_cst k h1 h2 A pA (bA.trans e65) F hF
  obtain ⟨c2, e2, l2, q2⟩ := FFT_cst k h1 h2 B pB (bB.trans e65) G hG
  have s1 : AllC (2 ^ k) A c1 := ⟨l1, q1⟩
  have s2 : AllC (2 ^ k) B c2 := ⟨l2, q2⟩
  have rA : rd A = A := pA.rd (bA.trans e65)
  obtain ⟨x1, y1, z1⟩ := hf.mul hf.adj (by norm_num)
  obtain ⟨x2, y2, z2⟩ := hg.mul hg.adj (by norm_num)
  rw [mul_one, r1] at z1
  rw [mul_zero, rd_zero] at z2
  obtain ⟨x3, y3, z3⟩ := z1.add z2 (by norm_num)
  rw [add_zero, r1] at z3
  obtain ⟨x4, y4, z4⟩ := s1.mul hf.adj (by rw [mul_one]; exact bA.trans (by norm_num))
  obtain ⟨x5, y5, z5⟩ := s2.mul hg.adj (by rw [mul_zero]; norm_num)
  rw [mul_one, rA] at z4
  rw [mul_zero, rd_zero] at z5
  obtain ⟨x6, y6, z6⟩ := z4.add z5 (by rw [add_zero]; exact bA.trans (by norm_num))
  rw [add_zero, rA] at z6
  obtain ⟨x7, y7, z7⟩ := z6.div z3 one_ne_zero pA (r1 ▸ rp_rd 1) (bA.trans (by norm_num)) (by norm_num) (by rw [div_one]; exact bA.trans (by norm_num))
  rw [div_one, rA] at z7
  obtain ⟨r, e8, hr⟩ := IFFT_cst k h1 h2 _ pA (by linarith) x7 z7.1 z7.2
  have m : ∀ a b, MulFFT (opsWith t) a b = MulFFT ieeeOps a b := fun _ _ => rfl
  have d : ∀ a b, DivFFT (opsWith t) a b = DivFFT ieeeOps a b := fun _ _ => rfl
  have a : ∀ a b, AddFFT (opsWith t) a b = AddFFT ieeeOps a b := fun _ _ => rfl
  have j : ∀ a, AdjFFT (opsWith t) a = AdjFFT ieeeOps a := fun _ => rfl
  unfold babai
  rw [FFT_with, e1, Go.ok_bind, FFT_with, e2, Go.ok_bind, j, j, m, y1, Go.ok_bind, m, y2, Go.ok_bind, a, y3, Go.ok_bind, m, y4, Go.ok_bind, m, y5,
    Go.ok_bind, a, y6, Go.ok_bind, d, y7, Go.ok_bind, IFFT_with, e8, Go.ok_bind, Go.pure_eq, roundAll_with t _ _ A0 hz r hr]

/-- The leading part of a large `F`. -/
theorem lead_large (n : Nat) (hn : 2 ≤ n) (F : Int) (hF : 2 ^ 31 ≤ F) (S : Nat) (h : sizeOf2 (cst n F) (cst n 12289) = .ok S) :
    53 ≤ S ∧ ∃ m : Int, 2 ^ 31 ≤ m ∧ m < 2 ^ 53 ∧ adjV S F = m := by
  obtain ⟨h1, h2, h3⟩ := sizeOf2_spec _ _ S h
  refine ⟨h1, F >>> (S - 53), ?_⟩
  have hF2 : F < 2 ^ S := by
    have h4 := h2 F (by simp [cst])
    have h5 : F = (F.natAbs : Int) := by omega
    rw [h5]
    exact_mod_cast h4
  rw [Int.shiftRight_eq_div_pow]
  push_cast
  have hp : (0 : Int) < 2 ^ (S - 53) := by positivity
  have up : F / 2 ^ (S - 53) < 2 ^ 53 := by
    refine Int.ediv_lt_of_lt_mul hp ?_
    rwa [← pow_add, show 53 + (S - 53) = S by omega]
  have lo : 2 ^ 31 ≤ F / 2 ^ (S - 53) := by
    refine (Int.le_ediv_iff_mul_le hp).2 ?_
    rcases h3 with rfl | ⟨h56, v, hv, hb⟩
    · simpa using hF
    · have h8 : (2 : Nat) ^ 48 ≤ 2 ^ (S - 8) := Nat.pow_le_pow_right (by omega) (by omega)
      have hv' : v = F := by
        simp only [cst, List.mem_append, List.mem_cons, List.mem_replicate] at hv
        rcases hv with (rfl | ⟨-, rfl⟩) | (rfl | ⟨-, rfl⟩)
        · rfl
        all_goals (exfalso; revert hb; simp only [Int.natAbs_zero, show Int.natAbs 12289 = 12289 from rfl]; omega)
      subst hv'
      have h9 : (2 : Int) ^ (S - 8) ≤ v := by
        have h5 : v = (v.natAbs : Int) := by omega
        rw [h5]
        exact_mod_cast hb
      have h10 : (2 : Int) ^ 31 * 2 ^ (S - 53) ≤ 2 ^ (S - 8) := by
        rw [← pow_add]
        exact pow_le_pow_right₀ (by norm_num) (by omega)
      exact h10.trans h9
  refine ⟨lo, up, ?_⟩
  unfold adjV
  rw [Int.shiftRight_eq_div_pow]
  push_cast
  generalize F / 2 ^ (S - 53) = m at lo up
  have hb : bigInt64 m = m := by
    unfold bigInt64 i64
    simp only [Int.bmod_def]
    split <;> split <;> (try split) <;> omega
  rw [hb]
  have a0 : |(m : ℚ)| < 2 ^ 53 := by
    rw [abs_lt]
    constructor
    · have : (0 : ℚ) ≤ m := by exact_mod_cast (by omega : (0 : Int) ≤ m)
      linarith
    · exact_mod_cast up
  exact Rp.rd ⟨m, 0, by simp, by simpa using a0, by norm_num⟩ (a0.le.trans (le_trans (by norm_num) lim_ge))

theorem toI32_zero (s : Bool) : toI32 (F64.round (.zero s)) = 0 := by
  cases s <;> decide +kernel

theorem toI32_large (m : Int) (h : 2 ^ 31 ≤ m) : toI32 (F64.round (.fin (m : ℚ))) = -(2 ^ 31) := by
  have hf : Rat.floor ((m : ℚ) + 1 / 2) = m := by
    show ⌊(m : ℚ) + 1 / 2⌋ = m
    rw [Int.floor_eq_iff]
    constructor <;> linarith
  have ha : awayInt (m : ℚ) = m := by
    unfold awayInt
    rw [if_pos (by exact_mod_cast (by omega : (0 : Int) ≤ m)), hf]
  show toI32 (if awayInt (m : ℚ) = 0 then .zero (decide ((m : ℚ) < 0)) else .fin (awayInt (m : ℚ))) = _
  rw [ha, if_neg (by omega)]
  unfold toI32
  rw [show val (.fin (m : ℚ)) = m from rfl, truncInt_int, if_neg]
  simp only [Bool.and_eq_true, decide_eq_true_eq]
  omega

theorem loop_grows (k : Nat) (h1 : 1 ≤ k) (h2 : k ≤ 10) (fa ga : List (F64 × F64)) (hf : AllC (2 ^ k) 1 fa) (hg : AllC (2 ^ k) 0 ga)
    (fuel : Nat) (F : Int) (hF : 2 ^ 31 ≤ F) :
    reduceLoop (opsWith toI32) (cst (2 ^ k) 1) (cst (2 ^ k) 0) 53 fa ga fuel (cst (2 ^ k) F) (cst (2 ^ k) 12289) = .diverge := by
  have hp : 2 ^ 1 ≤ 2 ^ k := Nat.pow_le_pow_right (by omega) h1
  induction fuel generalizing F with
  | zero => rfl
  | succ fuel ih =>
    have hs := size_cst (2 ^ k) (by omega) F 12289
    obtain ⟨hS, m, m1, m2, m3⟩ := lead_large _ (by omega) F hF _ hs
    have m0 : (m : ℚ) ≠ 0 := by
      have : m ≠ 0 := by omega
      exact_mod_cast this
    obtain ⟨-, A2, A3⟩ := is_sAdj (sSize F 12289) F
    obtain ⟨-, B2, B3⟩ := is_sAdj (sSize F 12289) 12289
    have ea : ∀ s l, adjust (opsWith toI32) s l = adjust ieeeOps s l := fun _ _ => rfl
    rw [reduceLoop, hs, Go.ok_bind, if_neg (by omega), ea, ea,
      babai_one toI32 k h1 h2 toI32_zero (by rw [m3]; exact m0) A2 B2 A3 B3 fa ga hf hg _ _ (adjust_cst _ _ F) (adjust_cst _ _ 12289), Go.ok_bind, m3,
      toI32_large m m1, allZeroes_cst, if_neg (by simp), karamul_cst, Go.ok_bind, karamul_cst, Go.ok_bind, cst_length _ (by omega), sub_cst _ (by omega),
      Go.ok_bind, sub_cst _ (by omega), Go.ok_bind, zero_mul, mul_zero, sub_zero]
    refine ih _ ?_
    have : (0 : Int) < 2 ^ (sSize F 12289 - 53) := by positivity
    omega

/-- With a 32-bit `int`, `reduce` with `f = 1`, `g = 0` does not return if `F` is a constant from `2^31` on. -/
theorem reduce_grows (k : Nat) (h1 : 1 ≤ k) (h2 : k ≤ 10) (fuel : Nat) (F : Int) (hF : 2 ^ 31 ≤ F) :
    reduce (opsWith toI32) fuel (cst (2 ^ k) 1) (cst (2 ^ k) 0) (cst (2 ^ k) F) (cst (2 ^ k) 12289) = .diverge := by
  have hp : 2 ^ 1 ≤ 2 ^ k := Nat.pow_le_pow_right (by omega) h1
  have e65 : (2 : ℚ) ^ 65 ≤ lim := le_trans (by norm_num) lim_ge
  have s0 : sSize 1 0 = 53 := by decide +kernel
  have v1 : adjV 53 1 = 1 := by decide +kernel
  have v0 : adjV 53 0 = 0 := by decide +kernel
  obtain ⟨-, a2, a3⟩ := is_sAdj 53 1
  obtain ⟨-, b2, b3⟩ := is_sAdj 53 0
  obtain ⟨c1, e1, l1, q1⟩ := FFT_cst k h1 h2 _ a2 (a3.trans e65) _ (adjust_cst (2 ^ k) 53 1)
  obtain ⟨c2, e2, l2, q2⟩ := FFT_cst k h1 h2 _ b2 (b3.trans e65) _ (adjust_cst (2 ^ k) 53 0)
  have ea : ∀ s l, adjust (opsWith toI32) s l = adjust ieeeOps s l := fun _ _ => rfl
  unfold reduce
  rw [size_cst _ (by omega), Go.ok_bind, s0, ea, ea, FFT_with, e1, Go.ok_bind, FFT_with, e2, Go.ok_bind]
  rw [v1] at q1
  rw [v0] at q2
  exact loop_grows k h1 h2 c1 c2 ⟨l1, q1⟩ ⟨l2, q2⟩ fuel F hF

end Falcon
