import Verif.Model.Sampler32
import Verif.Lemmas.Int32Reduce
import Verif.Props.Samplerz
/-!
# C101: the sampler with a 32-bit `int`

`opsWith toI32` is the arithmetic of 386: `int(x)` gives `-2^31` for values that do not fit. In `berexp` the shift count is at most 63, and a value below `-2^31` panics with
both sizes of `int`, so nothing depends on the size; in `Samplerz` only the conversion of the centre does.
-/

namespace Falcon
open F64

theorem i32_small (x : Int) (h1 : -(2 ^ 31) ≤ x) (h2 : x < 2 ^ 31) : i32 x = x := by
  unfold i32
  rw [Int.bmod_def]
  split <;> omega

theorem i32_mod (x : Int) : i32 x % 256 = x % 256 := by
  unfold i32
  rw [Int.bmod_def]
  split <;> omega

theorem int8_i32 (x : Int) : Int8.ofInt (i32 x) = Int8.ofInt x := by
  apply Int8.toInt.inj
  rw [Int8.toInt_ofInt, Int8.toInt_ofInt]
  have := i32_mod x
  simp only [Int.bmod_def]
  norm_num
  rw [this]

theorem loop32 (b : Int) (h0 : 0 ≤ b) (h1 : b < 256) (z : UInt64) (l : List Nat) (w : Int) : berexpLoop32 b z l w = berexpLoop b z l w := by
  induction l generalizing w with
  | nil => rfl
  | cons i is ih =>
    have e : i32 (b - i32 ((shr64 z i).toNat : Nat) % 256) = b - ((shr64 z i).toNat % 256 : Nat) := by
      rw [i32_mod, i32_small _ (by omega) (by omega)]
      omega
    rw [berexpLoop32, berexpLoop]
    simp only [e, ih]

/-- Below 64 the conversions to 32 and to 64 bits agree, or both are negative. -/
theorem toI_small (a : F64) (h : lt a (.fin 63) = true) : toI32 a = toI64 a ∨ toI32 a < 0 ∧ toI64 a < 0 := by
  unfold toI32 toI64
  cases hf : a.isFinite
  · right
    simp
  · have ht : truncInt a.val ≤ 63 := by
      have hn : a.isNaN = false ∧ a.isInf = false := by
        cases a <;> simp_all [F64.isFinite, F64.isNaN, F64.isInf]
      unfold lt at h
      rw [hn.1, hn.2] at h
      have hv' : a.val < F64.val (.fin 63) := by simpa [F64.isNaN, F64.isInf] using h
      have hv : a.val < 63 := hv'
      unfold truncInt
      split
      · have : a.val.floor ≤ 63 := by
          have := Int.floor_le a.val
          show ⌊a.val⌋ ≤ 63
          have h3 : (⌊a.val⌋ : ℚ) < 63 := lt_of_le_of_lt this hv
          have : ⌊a.val⌋ < 63 := by exact_mod_cast h3
          omega
        exact this
      · have : 0 ≤ (-a.val).floor := by
          show 0 ≤ ⌊-a.val⌋
          rw [Int.floor_nonneg]
          linarith
        omega
    simp only [Bool.true_and, Bool.and_eq_true, decide_eq_true_eq]
    generalize truncInt a.val = m at ht
    by_cases h1 : -(2 ^ 31) ≤ m
    · left
      rw [if_pos (by omega), if_pos (by omega)]
    · right
      rw [if_neg (by omega)]
      split <;> omega

/-- C101: `berexp` with a 32-bit `int` returns the same for all `x` and `ccs`, also for infinities and NaN, and for every random byte. -/
theorem C101_berexp (x ccs : F64) (rb : UInt8) : berexp32 (opsWith toI32) x ccs [rb] = berexp ieeeOps x ccs [rb] := by
  have hb : setBytes [rb] % 2 ^ 64 = rb.toNat := by
    have := rb.toNat_lt
    simp only [setBytes, List.foldl]
    omega
  have hr := rb.toNat_lt
  have e1 : i32 ((setBytes [rb] % 2 ^ 64 : Nat) : Int) = (rb.toNat : Int) := by
    rw [hb]
    exact i32_small _ (by omega) (by omega)
  have e2 : i64 ((setBytes [rb] % 2 ^ 64 : Nat) : Int) = (rb.toNat : Int) := by
    rw [hb]
    unfold i64
    rw [Int.bmod_def]
    split <;> omega
  unfold berexp32 berexp
  simp only [e1, e2]
  have hs : ∀ s : F64, toI32 (goMin ieeeOps s (ieeeOps.lit 63)) = toI64 (goMin ieeeOps s (ieeeOps.lit 63)) ∨
      toI32 (goMin ieeeOps s (ieeeOps.lit 63)) < 0 ∧ toI64 (goMin ieeeOps s (ieeeOps.lit 63)) < 0 := by
    intro s
    have h63 : ieeeOps.lit 63 = (.fin 63 : F64) := by decide +kernel
    unfold goMin
    rw [h63]
    split
    · next h => exact toI_small s h
    · left
      decide +kernel
  have a1 : ∀ u v, approxexp (opsWith toI32) u v = approxexp ieeeOps u v := fun _ _ => rfl
  have a2 : ∀ s : F64, goMin (opsWith toI32) s ((opsWith toI32).lit 63) = goMin ieeeOps s (ieeeOps.lit 63) := fun _ => rfl
  show (if toI32 (goMin ieeeOps (ieeeOps.floor (ieeeOps.mul x (ILN2 ieeeOps))) (ieeeOps.lit 63)) < 0 then _ else _) =
    (if toI64 (goMin ieeeOps (ieeeOps.floor (ieeeOps.mul x (ILN2 ieeeOps))) (ieeeOps.lit 63)) < 0 then _ else _)
  rcases hs (ieeeOps.floor (ieeeOps.mul x (ILN2 ieeeOps))) with h | ⟨h1, h2⟩
  · rw [h]
    split
    · rfl
    · rw [loop32 _ (by omega) (by omega), a1]
      show _ = Go.ok (decide (berexpLoop _ (shr64 _ (toI64 _).toNat) _ _ < 0))
      rw [← h]
      rfl
  · rw [if_pos h1, if_pos h2]

/-- The centre fits in 32 bits: its floor is an integer in the range of a 32-bit `int`. -/
def Fits32 (mu : F64) : Prop := (F64.floor mu).isFinite = true ∧ -(2 ^ 31) ≤ truncInt (F64.floor mu).val ∧ truncInt (F64.floor mu).val < 2 ^ 31

instance (mu : F64) : Decidable (Fits32 mu) := by
  unfold Fits32
  infer_instance

theorem Fits32.eq {mu : F64} (h : Fits32 mu) : toI32 (F64.floor mu) = toI64 (F64.floor mu) := by
  obtain ⟨h1, h2, h3⟩ := h
  unfold toI32 toI64
  rw [h1, if_pos (by simp only [Bool.true_and, Bool.and_eq_true, decide_eq_true_eq]; omega),
    if_pos (by simp only [Bool.true_and, Bool.and_eq_true, decide_eq_true_eq]; omega)]

/-- Small integers are converted exactly by both conversions. -/
theorem toI_ofInt : ∀ n : Fin 40, toI32 (ieeeOps.ofInt ((n : Nat) - 20 : Int)) = toI64 (ieeeOps.ofInt ((n : Nat) - 20 : Int)) := by decide +kernel

/-- C101: `Samplerz` with a 32-bit `int` returns the same sample after the same draws, for every centre whose floor fits in 32 bits and all other arguments. -/
theorem C101_samplerz (rand : Rand) (mu sigma sigmin : F64) (h : Fits32 mu) (fuel pos : Nat) :
    Samplerz32 (opsWith toI32) rand mu sigma sigmin fuel pos = Samplerz ieeeOps rand mu sigma sigmin fuel pos := by
  induction fuel generalizing pos with
  | zero => rfl
  | succ fuel ih =>
    rw [Samplerz32, Samplerz]
    cases hr : rand pos with
    | none => rfl
    | some rb =>
      simp only
      have hz := C44_range (splitRandBytes rb).1
      have hs : (splitRandBytes rb).2.1 = [rb 9] := rfl
      have ht : (splitRandBytes rb).2.2 = [rb 10] := rfl
      have h9 := (rb 9).toNat_lt
      have e9 : setBytes [rb 9] = (rb 9).toNat := by simp [setBytes]
      have ez : i32 ((BaseSampler (splitRandBytes rb).1 : Nat) : Int) = (BaseSampler (splitRandBytes rb).1 : Nat) := i32_small _ (by omega) (by omega)
      have eb : i32 ((setBytes [rb 9] % 2 ^ 64 : Nat) : Int) % 2 = ((setBytes [rb 9] % 2 : Nat) : Int) := by
        rw [e9, i32_small _ (by omega) (by omega)]
        omega
      rw [hs, ht, ez, eb]
      generalize BaseSampler (splitRandBytes rb).1 = z0 at hz
      have hb : setBytes [rb 9] % 2 < 2 := by omega
      generalize setBytes [rb 9] % 2 = b at hb
      have ev : i32 ((b : Int) + i32 (i32 (2 * (b : Int) - 1) * (z0 : Int))) = (b : Int) + (2 * (b : Int) - 1) * (z0 : Int) := by
        have : b = 0 ∨ b = 1 := by omega
        rcases this with rfl | rfl
        · rw [i32_small (2 * _ - 1) (by omega) (by omega), i32_small (_ * _) (by push_cast; omega) (by push_cast; omega), i32_small _ (by push_cast; omega) (by push_cast; omega)]
        · rw [i32_small (2 * _ - 1) (by omega) (by omega), i32_small (_ * _) (by push_cast; omega) (by push_cast; omega), i32_small _ (by push_cast; omega) (by push_cast; omega)]
      have ei : toI32 (ieeeOps.ofInt ((b : Int) + (2 * (b : Int) - 1) * (z0 : Int))) = toI64 (ieeeOps.ofInt ((b : Int) + (2 * (b : Int) - 1) * (z0 : Int))) := by
        have : b = 0 ∨ b = 1 := by omega
        rcases this with rfl | rfl
        · have := toI_ofInt ⟨20 - z0, by omega⟩
          rw [show (((⟨20 - z0, by omega⟩ : Fin 40) : Nat) : Int) - 20 = -(z0 : Int) by show ((20 - z0 : Nat) : Int) - 20 = _; omega] at this
          simpa using this
        · have := toI_ofInt ⟨21 + z0, by omega⟩
          rw [show (((⟨21 + z0, by omega⟩ : Fin 40) : Nat) : Int) - 20 = 1 + (z0 : Int) by show ((21 + z0 : Nat) : Int) - 20 = _; omega] at this
          simpa using this
      rw [ev, C101_berexp]
      show ((berexp ieeeOps _ _ _).bind fun r => if r then Go.ok (Int8.ofInt (i32 (toI32 (F64.floor mu) + toI32 _)), pos + 1) else _) =
        ((berexp ieeeOps _ _ _).bind fun r => if r then Go.ok (Int8.ofInt (toI64 (F64.floor mu) + toI64 _), pos + 1) else _)
      rw [int8_i32]
      have ei' : toI32 (ofRat (((b : Int) + (2 * (b : Int) - 1) * (z0 : Int) : Int) : ℚ)) = toI64 (ofRat (((b : Int) + (2 * (b : Int) - 1) * (z0 : Int) : Int) : ℚ)) := ei
      rw [h.eq, ei']
      simp only [ih]
      rfl

theorem samplingOn_eq (O : FloatOps) (rand : Rand) (T : FFTtree O) (sigmin : O.F) (fuel : Nat) (t : List O.C × List O.C) (pos : Nat) :
    FfSamplingOn O (fun mu sigma => Samplerz O rand mu sigma sigmin) T.Value fuel t pos = FfSamplingFFT O rand T sigmin fuel t pos := by
  induction fuel generalizing t pos with
  | zero => rfl
  | succ fuel ih =>
    rw [FfSamplingOn, FfSamplingFFT]
    simp only [ih]

/-- `Samplerz` that fails on a centre that does not fit in 32 bits (not Go; for stating that the centres fit). -/
def Samplerz_check (rand : Rand) (sigmin : F64) (mu sigma : F64) (fuel pos : Nat) : Go (Int8 × Nat) :=
  if Fits32 mu then Samplerz ieeeOps rand mu sigma sigmin fuel pos else .panic

/-- The checked run fails or all three runs are the same. -/
def Same3 {α : Type} (c a b : Go α) : Prop := c = .panic ∨ c = a ∧ b = a

theorem Same3.refl {α : Type} (a : Go α) : Same3 a a a := .inr ⟨rfl, rfl⟩

theorem Same3.bind {α β : Type} {c a b : Go α} (h : Same3 c a b) {fc fa fb : α → Go β} (hf : ∀ x, Same3 (fc x) (fa x) (fb x)) :
    Same3 (c >>= fc) (a >>= fa) (b >>= fb) := by
  rcases h with rfl | ⟨rfl, rfl⟩
  · exact .inl rfl
  · cases b with
    | ok x => exact hf x
    | panic => exact .inl rfl
    | diverge => exact .inr ⟨rfl, rfl⟩

theorem sampling_same (rand : Rand) (sigmin : F64) (V : List (F64 × F64)) (fuel : Nat) (t : List (F64 × F64) × List (F64 × F64)) (pos : Nat) :
    Same3 (FfSamplingOn ieeeOps (Samplerz_check rand sigmin) V fuel t pos)
      (FfSamplingOn ieeeOps (fun mu sigma => Samplerz ieeeOps rand mu sigma sigmin) V fuel t pos)
      (FfSamplingOn (opsWith toI32) (fun mu sigma => Samplerz32 (opsWith toI32) rand mu sigma sigmin) V fuel t pos) := by
  have hs : ∀ l, SplitFFT (opsWith toI32) l = SplitFFT ieeeOps l := fun l => by
    unfold SplitFFT
    simp only [splitLoop_with]
  have hm : ∀ l, MergeFFT (opsWith toI32) l = MergeFFT ieeeOps l := fun l => by
    unfold MergeFFT
    simp only [mergeLoop_with]
  have hc : ∀ mu sigma fuel pos, Same3 (Samplerz_check rand sigmin mu sigma fuel pos) (Samplerz ieeeOps rand mu sigma sigmin fuel pos)
      (Samplerz32 (opsWith toI32) rand mu sigma sigmin fuel pos) := by
    intro mu sigma fuel pos
    unfold Samplerz_check
    split
    · next h => exact .inr ⟨rfl, C101_samplerz rand mu sigma sigmin h fuel pos⟩
    · exact .inl rfl
  have s1 : ∀ a b, SubFFT (opsWith toI32) a b = SubFFT ieeeOps a b := fun _ _ => rfl
  have s2 : ∀ a b, MulFFT (opsWith toI32) a b = MulFFT ieeeOps a b := fun _ _ => rfl
  have s3 : ∀ a b, AddFFT (opsWith toI32) a b = AddFFT ieeeOps a b := fun _ _ => rfl
  induction fuel generalizing t pos with
  | zero => exact .refl _
  | succ fuel ih =>
    rw [FfSamplingOn, FfSamplingOn, FfSamplingOn]
    simp only [hs, hm, s1, s2, s3]
    split
    · refine (Same3.refl _).bind fun s => (ih _ _).bind fun u => (Same3.refl _).bind fun z1 => (Same3.refl _).bind fun d => (Same3.refl _).bind fun m =>
        (Same3.refl _).bind fun t0 => (Same3.refl _).bind fun s => (ih _ _).bind fun u => (Same3.refl _).bind fun z0 => .refl _
    · split
      · refine (Same3.refl _).bind fun t0 => (Same3.refl _).bind fun v => (hc _ _ _ _).bind fun a => (Same3.refl _).bind fun t1 => (hc _ _ _ _).bind fun b => .refl _
      · exact .refl _

/-- C101: `FfSamplingFFT` with a 32-bit `int` returns the same, or does not return either, if no centre passed to `Samplerz` is outside the range of 32 bits. -/
theorem C101_sampling (rand : Rand) (T : FFTtree ieeeOps) (sigmin : F64) (fuel : Nat) (t : List (F64 × F64) × List (F64 × F64)) (pos : Nat)
    (h : FfSamplingOn ieeeOps (Samplerz_check rand sigmin) T.Value fuel t pos ≠ .panic) :
    FfSamplingOn (opsWith toI32) (fun mu sigma => Samplerz32 (opsWith toI32) rand mu sigma sigmin) T.Value fuel t pos =
      FfSamplingFFT ieeeOps rand T sigmin fuel t pos := by
  rcases sampling_same rand sigmin T.Value fuel t pos with e | ⟨-, e⟩
  · exact absurd e h
  · rw [← samplingOn_eq]
    exact e

/-- The range is needed: for the centre `2^31 + 200` the same draw gives -55 on amd64 and 1 on 386. -/
theorem C101_range_needed : ∃ rand : Rand, ¬ Fits32 (.fin (2 ^ 31 + 200)) ∧
    Samplerz ieeeOps rand (.fin (2 ^ 31 + 200)) (.fin (3 / 2)) (.fin (5 / 4)) 1 0 = .ok (-55, 1) ∧
    Samplerz32 (opsWith toI32) rand (.fin (2 ^ 31 + 200)) (.fin (3 / 2)) (.fin (5 / 4)) 1 0 = .ok (1, 1) :=
  ⟨fun _ => some fun j => if j = 9 then 1 else if j = 0 then 255 else 0, by decide +kernel, by decide +kernel, by decide +kernel⟩

/-- A run at degree 2 with centres in range, one of them negative. -/
example : ∃ r, FfSamplingOn ieeeOps (Samplerz_check (fun _ => some fun j => if j = 9 then 1 else if j = 0 then 255 else 0) (.fin (5 / 4)))
    [(.fin (3 / 2), .zero false), (.fin (3 / 2), .zero false)] 3
    ([(.fin (5 / 2), .zero false), (.fin (-7 / 2), .zero false)], [(.fin (1 / 2), .zero false), (.fin (9 / 4), .zero false)]) 0 = .ok r := by
  have h : (FfSamplingOn ieeeOps (Samplerz_check (fun _ => some fun j => if j = 9 then 1 else if j = 0 then 255 else 0) (.fin (5 / 4)))
    [(.fin (3 / 2), .zero false), (.fin (3 / 2), .zero false)] 3
    ([(.fin (5 / 2), .zero false), (.fin (-7 / 2), .zero false)], [(.fin (1 / 2), .zero false), (.fin (9 / 4), .zero false)]) 0 >>= fun _ => pure 0) = .ok 0 := by
    decide +kernel
  obtain ⟨r, e, -⟩ := Go.bind_eq_ok.1 h
  exact ⟨r, e⟩

end Falcon
