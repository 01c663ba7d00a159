import Verif.Props.Babai
/-!
# Key generation does not panic (C59)
-/

namespace Falcon
open Spec Polynomial

/-! ### Everything but the sampler, for all floating-point operations -/

/-- The call of the sampler made by key generation (ntrugen.go:291). -/
def keySample (O : FloatOps) (rand : Rand) (fuel pos : Nat) : Go (Int8 × Nat) :=
  Samplerz O rand (O.ofInt 0) (O.lit 1.43300980528773) (O.sub (O.lit 1.43300980528773) (O.lit 0.001)) fuel pos

theorem Samplerz_pos (O : FloatOps) (rand : Rand) (mu sigma sigmin : O.F) (fuel pos : Nat) (v : Int8) (p : Nat)
    (h : Samplerz O rand mu sigma sigmin fuel pos = .ok (v, p)) : pos < p := by
  induction fuel generalizing pos with
  | zero => simp [Samplerz] at h
  | succ fuel ih =>
    rw [Samplerz] at h
    cases hr : rand pos with
    | none => simp [hr] at h
    | some rb =>
      simp only [hr] at h
      obtain ⟨acc, _, h⟩ := Go.bind_eq_ok.1 h
      cases acc with
      | true => simp at h; omega
      | false =>
        simp only [Bool.false_eq_true, if_false] at h
        have := ih (pos + 1) h
        omega

theorem genSamples_panic (O : FloatOps) (rand : Rand) (fuel m pos : Nat) (h : genSamples O rand fuel m pos = .panic) :
    ∃ p, pos ≤ p ∧ keySample O rand fuel p = .panic := by
  induction m generalizing pos with
  | zero => simp [genSamples] at h
  | succ m ih =>
    rw [genSamples] at h
    rcases Go.bind_eq_panic.1 h with h | ⟨⟨v, p⟩, h1, h⟩
    · exact ⟨pos, le_refl _, h⟩
    · have hpos := Samplerz_pos O rand _ _ _ fuel pos v p h1
      rcases Go.bind_eq_panic.1 h with h | ⟨⟨vs, p'⟩, h2, h⟩
      · obtain ⟨p'', hp, e⟩ := ih p h
        exact ⟨p'', by omega, e⟩
      · simp at h

theorem genSamples_pos (O : FloatOps) (rand : Rand) (fuel m pos : Nat) (l : List Int8) (p : Nat)
    (h : genSamples O rand fuel m pos = .ok (l, p)) : pos ≤ p := by
  induction m generalizing pos l with
  | zero => simp [genSamples] at h; omega
  | succ m ih =>
    rw [genSamples] at h
    obtain ⟨⟨v, p1⟩, h1, h⟩ := Go.bind_eq_ok.1 h
    obtain ⟨⟨vs, p2⟩, h2, h⟩ := Go.bind_eq_ok.1 h
    simp only [Go.pure_eq, Go.ok.injEq, Prod.mk.injEq] at h
    obtain ⟨-, rfl⟩ := h
    have := Samplerz_pos O rand _ _ _ fuel pos v p1 h1
    have := ih _ _ h2
    omega

theorem GenPoly_pos (O : FloatOps) (rand : Rand) (fuel : Nat) (n : UInt16) (pos : Nat) (f : List Int16) (p : Nat)
    (h : GenPoly O rand fuel n pos = .ok (f, p)) : pos ≤ p := by
  unfold GenPoly at h
  split at h
  · simp at h
  · obtain ⟨⟨f0, p1⟩, h1, h⟩ := Go.bind_eq_ok.1 h
    obtain ⟨r, -, h⟩ := Go.bind_eq_ok.1 h
    simp only [Go.pure_eq, Go.ok.injEq, Prod.mk.injEq] at h
    have := genSamples_pos O rand fuel _ pos f0 p1 h1
    omega

theorem GenPoly_panic (O : FloatOps) (rand : Rand) (fuel : Nat) (n : UInt16) (hn : n.toNat ≤ 4096) (pos : Nat)
    (h : GenPoly O rand fuel n pos = .panic) : ∃ p, pos ≤ p ∧ keySample O rand fuel p = .panic := by
  unfold GenPoly at h
  rw [if_neg (by rw [gt_iff_lt, UInt16.lt_iff_toNat_lt]; exact Nat.not_lt.2 hn)] at h
  rcases Go.bind_eq_panic.1 h with h | ⟨⟨f0, p⟩, h1, h⟩
  · exact genSamples_panic O rand fuel _ pos h
  · have l0 := genSamples_length O rand fuel 4096 pos f0 p h1
    obtain ⟨r, e, -⟩ := sumBlocks_ok f0 (4096 / n.toNat) n.toNat 0 (by rw [Nat.zero_add, l0]; exact Nat.mul_div_le 4096 n.toNat)
    simp [e] at h

theorem GsNorm_ok (O : FloatOps) (k : Nat) (h1 : 1 ≤ k) (h2 : k ≤ 10) (f g : List O.F) (q : O.F) (hf : f.length = 2 ^ k)
    (hg : g.length = 2 ^ k) : ∃ r, GsNorm O f g q = .ok r := by
  obtain ⟨af, e1, l1⟩ := Adj_ok (O := O) k h1 h2 f hf
  obtain ⟨ff, e2, l2⟩ := Mul_ok (O := O) k h1 h2 f af hf l1
  obtain ⟨ag, e3, l3⟩ := Adj_ok (O := O) k h1 h2 g hg
  obtain ⟨gg, e4, l4⟩ := Mul_ok (O := O) k h1 h2 g ag hg l3
  obtain ⟨s, e5, l5⟩ := Add_ok (O := O) ff gg (by omega)
  obtain ⟨Ft, e6, -⟩ := Div_ok (O := O) k h1 h2 af s l1 (by omega)
  obtain ⟨Gt, e7, -⟩ := Div_ok (O := O) k h1 h2 ag s l3 (by omega)
  unfold GsNorm
  simp only [e1, e2, e3, e4, e5, e6, e7, Go.ok_bind, BiggestFloat64, idx, List.getElem?_cons_zero, Go.pure_eq]
  exact ⟨_, rfl⟩

theorem NtruGen_panic (O : FloatOps) (rand : Rand) (k : Nat) (h1 : 1 ≤ k) (h2 : k ≤ 10) (n : UInt16) (hn : n.toNat = 2 ^ k) (fuel pos : Nat)
    (h : NtruGen O rand fuel n pos = .panic) : ∃ fuel' p, pos ≤ p ∧ keySample O rand fuel' p = .panic := by
  have hle : n.toNat ≤ 4096 := by
    rw [hn]
    exact (Nat.pow_le_pow_right (by norm_num) h2).trans (by norm_num)
  induction fuel generalizing pos with
  | zero => simp [NtruGen] at h
  | succ fuel ih =>
    rw [NtruGen] at h
    rcases Go.bind_eq_panic.1 h with h | ⟨⟨f, p1⟩, ef, h⟩
    · exact ⟨_, GenPoly_panic O rand _ n hle pos h⟩
    have q1 := GenPoly_pos O rand _ n pos f p1 ef
    rcases Go.bind_eq_panic.1 h with h | ⟨⟨g, p2⟩, eg, h⟩
    · obtain ⟨p, hp, e⟩ := GenPoly_panic O rand _ n hle p1 h
      exact ⟨_, p, by omega, e⟩
    have q2 := GenPoly_pos O rand _ n p1 g p2 eg
    have again : NtruGen O rand fuel n p2 = .panic → ∃ fuel' p, pos ≤ p ∧ keySample O rand fuel' p = .panic := by
      intro h
      obtain ⟨fuel', p, hp, e⟩ := ih p2 h
      exact ⟨fuel', p, by omega, e⟩
    have lf : f.length = 2 ^ k := by rw [← hn]; exact GenPoly_length O rand _ n _ f _ ef
    have lg : g.length = 2 ^ k := by rw [← hn]; exact GenPoly_length O rand _ n _ g _ eg
    obtain ⟨norm, e⟩ := GsNorm_ok O k h1 h2 (Int16ToFloat64 O f) (Int16ToFloat64 O g) (O.ofInt Q) (by simp [Int16ToFloat64, lf])
      (by simp [Int16ToFloat64, lg])
    simp only [e, Go.ok_bind] at h
    split at h
    · exact again h
    obtain ⟨r, e, -⟩ := NTT_spec wrap64_good k h1 h2 f lf
    simp only [e, Go.ok_bind] at h
    split at h
    · exact again h
    have lf' : (int16ToBigInt f).length = 2 ^ k := by simp [int16ToBigInt, lf]
    have lg' : (int16ToBigInt g).length = 2 ^ k := by simp [int16ToBigInt, lg]
    obtain ⟨Nf, tf, -⟩ := towerNorm_ok k _ lf'
    obtain ⟨Ng, tg, -⟩ := towerNorm_ok k _ lg'
    rcases Go.bind_eq_panic.1 h with h | ⟨s, es, h⟩
    · exact absurd h (NtruSolve_ok (O := O) k h2 _ _ lf' lg' Nf Ng tf tg _).1
    · match s with
      | none => exact again h
      | some (F, G) => simp at h

/-- C59: for every degree and all floating-point operations, a panic of `GeneratePrivateKey` comes from a call of the sampler. -/
theorem C59_only_sampler (O : FloatOps) (rand : Rand) (fuel : Nat) (n : UInt16) (pos : Nat)
    (h : GeneratePrivateKey O rand fuel n pos = .panic) : ∃ fuel' p, pos ≤ p ∧ keySample O rand fuel' p = .panic := by
  unfold GeneratePrivateKey at h
  split at h
  · simp at h
  · rename_i hv
    obtain ⟨k, h1, h2, hn⟩ := (isValidDegree_iff n).1 (by simpa using hv)
    rcases Go.bind_eq_panic.1 h with h | ⟨q, -, h⟩
    · exact NtruGen_panic O rand k h1 h2 n hn fuel pos h
    · simp at h

/-- C59: the same for `NewKeyPair`. -/
theorem C59_new_key_pair (O : FloatOps) (rand : Rand) (fuel : Nat) (hfu : 10 ≤ fuel) (n : UInt16) (pos : Nat)
    (h : NewKeyPair O rand fuel n pos = .panic) : ∃ fuel' p, pos ≤ p ∧ keySample O rand fuel' p = .panic := by
  unfold NewKeyPair at h
  rcases Go.bind_eq_panic.1 h with h' | ⟨r, hr, h'⟩
  · exact C59_only_sampler O rand fuel n pos h'
  · match r with
    | .error e => simp at h'
    | .ok (key, pos') =>
      have := C31_violated_always O rand fuel hfu n pos key pos' hr
      unfold NewKeyPair at this
      rw [this] at h
      simp at h

/-! ### The sampler in exact arithmetic -/

theorem berShift_exact (x : ℝ) (hx : 0 ≤ x) : 0 ≤ berShift exactOps x := by
  unfold berShift goMin ILN2
  have h0 : (0 : ℝ) ≤ (⌊x * ((1.44269504089 : ℚ) : ℝ)⌋ : ℝ) := by
    have : 0 ≤ ⌊x * ((1.44269504089 : ℚ) : ℝ)⌋ := Int.floor_nonneg.2 (mul_nonneg hx (by norm_num))
    exact_mod_cast this
  have tr : ∀ y : ℝ, 0 ≤ y → 0 ≤ truncR y := fun y hy => by
    unfold truncR
    rw [if_pos hy]
    exact Int.floor_nonneg.2 hy
  simp only
  split
  · exact tr _ h0
  · exact tr _ (by norm_num)

/-- In exact arithmetic, for every centre and every deviation up to that of the base sampler, the exponent passed to the rejection
step is not negative. -/
theorem exponent_nonneg (mu sigma : ℝ) (hs : 0 < sigma) (hs' : sigma ≤ 1.8205) (z0 : Nat) (b : Nat) (hb : b = 0 ∨ b = 1) :
    0 ≤ ((((b : Int) + (2 * (b : Int) - 1) * (z0 : Int) : Int) : ℝ) - (mu - (⌊mu⌋ : ℝ))) ^ 2 * (1 / (2 * sigma * sigma)) -
      ((z0 : Int) : ℝ) ^ 2 * (1 / (2 * (1.8205 : ℝ) ^ 2)) := by
  have r0 := Int.floor_le mu
  have r1 := Int.lt_floor_add_one mu
  have hz : (0 : ℝ) ≤ z0 := Nat.cast_nonneg z0
  set r := mu - (⌊mu⌋ : ℝ) with hr
  have hr0 : 0 ≤ r := by linarith
  have hr1 : r ≤ 1 := by linarith
  have h1 : ((z0 : Int) : ℝ) ^ 2 ≤ ((((b : Int) + (2 * (b : Int) - 1) * (z0 : Int) : Int) : ℝ) - r) ^ 2 := by
    rcases hb with rfl | rfl <;> push_cast <;> nlinarith
  have h2 : 1 / (2 * (1.8205 : ℝ) ^ 2) ≤ 1 / (2 * sigma * sigma) := by
    apply one_div_le_one_div_of_le (by positivity)
    nlinarith
  have h3 : 0 ≤ 1 / (2 * (1.8205 : ℝ) ^ 2) := by positivity
  have := mul_le_mul h1 h2 h3 (sq_nonneg _)
  linarith

theorem truncR_int (m : ℤ) : truncR (m : ℝ) = m := by
  unfold truncR
  split <;> simp

/-- C59: in exact arithmetic the sampler panics only if the random source fails. -/
theorem C59_sampler_exact (rand : Rand) (mu sigma sigmin : ℝ) (hs : 0 < sigma) (hs' : sigma ≤ 1.8205) (fuel pos : Nat)
    (h : Samplerz exactOps rand mu sigma sigmin fuel pos = .panic) : ∃ i, pos ≤ i ∧ rand i = none := by
  induction fuel generalizing pos with
  | zero => simp [Samplerz] at h
  | succ fuel ih =>
    rw [Samplerz] at h
    cases hr : rand pos with
    | none => exact ⟨pos, le_refl _, hr⟩
    | some rb =>
      simp only [hr] at h
      rcases Go.bind_eq_panic.1 h with h | ⟨acc, -, h⟩
      · rw [C46_negative] at h
        refine absurd (berShift_exact _ ?_) (not_le.2 h)
        have e := exponent_nonneg mu sigma hs hs' (BaseSampler (splitRandBytes rb).1) (setBytes (splitRandBytes rb).2.1 % 2) (by omega)
        have t : truncR ((⌊mu⌋ : ℤ) : ℝ) = ⌊mu⌋ := truncR_int _
        have q : ((1.8205 : ℚ) : ℝ) = 1.8205 := by norm_num
        show 0 ≤ _ ^ 2 * ((((1 : ℚ) : ℝ)) / (((2 : ℚ) : ℝ) * sigma * sigma)) -
          _ ^ 2 * ((((1 : ℚ) : ℝ)) / ((((2 : ℚ) : ℝ)) * ((1.8205 : ℚ) : ℝ) ^ 2))
        rw [t, q, Rat.cast_one, Rat.cast_ofNat]
        exact e
      · cases acc with
        | true => simp at h
        | false =>
          simp only [Bool.false_eq_true, if_false] at h
          obtain ⟨i, hi, e⟩ := ih (pos + 1) h
          exact ⟨i, by omega, e⟩

/-- C59: in exact arithmetic, for every degree, `GeneratePrivateKey` panics only if the random source fails. -/
theorem C59_exact (rand : Rand) (fuel : Nat) (n : UInt16) (pos : Nat)
    (h : GeneratePrivateKey exactOps rand fuel n pos = .panic) : ∃ i, pos ≤ i ∧ rand i = none := by
  obtain ⟨fuel', p, hp, e⟩ := C59_only_sampler exactOps rand fuel n pos h
  obtain ⟨i, hi, hn⟩ := C59_sampler_exact rand _ ((1.43300980528773 : ℚ) : ℝ) _ (by norm_num) (by norm_num) fuel' p e
  exact ⟨i, by omega, hn⟩

/-- C59: in exact arithmetic `NewKeyPair` panics only if the random source fails. -/
theorem C59_new_key_pair_exact (rand : Rand) (fuel : Nat) (hfu : 10 ≤ fuel) (n : UInt16) (pos : Nat)
    (h : NewKeyPair exactOps rand fuel n pos = .panic) : ∃ i, pos ≤ i ∧ rand i = none := by
  obtain ⟨fuel', p, hp, e⟩ := C59_new_key_pair exactOps rand fuel hfu n pos h
  obtain ⟨i, hi, hn⟩ := C59_sampler_exact rand _ ((1.43300980528773 : ℚ) : ℝ) _ (by norm_num) (by norm_num) fuel' p e
  exact ⟨i, by omega, hn⟩

/-- A failing random source does make key generation panic, and a panic of the sampler occurs with a deviation above 1.8205. -/
example (O : FloatOps) (fuel : Nat) : GeneratePrivateKey O (fun _ => none) (fuel + 1) 2 0 = .panic := by
  have : genSamples O (fun _ => none) (fuel + 1) (4095 + 1) 0 = .panic := by
    rw [genSamples, Samplerz]; rfl
  simp [GeneratePrivateKey, isValidDegree, ParamSets, NtruGen, GenPoly, this]
example : Samplerz ratOps (fun _ => some fun _ => 0) (0 : ℚ) (2 : ℚ) (1 : ℚ) 1 0 = .panic := by decide +kernel

end Falcon
