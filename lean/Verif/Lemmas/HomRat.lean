import Verif.Lemmas.Hom
import Verif.Props.Keygen
/-!
# Rational runs are exact runs

The embedding of the rationals in the reals is a homomorphism from `ratOps` to `exactOps`, so that the run of key generation computed with
rationals is a run in exact arithmetic.
-/

namespace Falcon

/-- Gaussian rationals as complex numbers. -/
noncomputable def toC (z : ℚ × ℚ) : ℂ := ⟨(z.1 : ℝ), (z.2 : ℝ)⟩

theorem cast_floor (x : ℚ) : ⌊(x : ℝ)⌋ = x.floor := by
  rw [Rat.floor_cast]; rfl

theorem truncR_cast (x : ℚ) : truncR (x : ℝ) = if 0 ≤ x then x.floor else -(-x).floor := by
  unfold truncR
  have h : (0 : ℝ) ≤ (x : ℝ) ↔ 0 ≤ x := by exact_mod_cast Iff.rfl
  simp only [h]
  split
  · exact cast_floor x
  · rw [← cast_floor, ← Int.ceil_neg]
    push_cast
    rw [neg_neg]

theorem pow2_cast (x : ℚ) : (x : ℝ) ^ 2 = ((x * x : ℚ) : ℝ) := by
  push_cast; ring

theorem round_cast (x : ℚ) : (if (0 : ℝ) ≤ (x : ℝ) then (⌊(x : ℝ) + 1 / 2⌋ : ℝ) else (⌈(x : ℝ) - 1 / 2⌉ : ℝ)) =
    (((if (0 : ℚ) ≤ x then (((x + 1 / 2).floor : ℤ) : ℚ) else -(((-x + 1 / 2).floor : ℤ) : ℚ)) : ℚ) : ℝ) := by
  have h : (0 : ℝ) ≤ (x : ℝ) ↔ 0 ≤ x := by exact_mod_cast Iff.rfl
  simp only [h]
  split
  · rw [Rat.cast_intCast, ← cast_floor]
    push_cast; rfl
  · rw [Rat.cast_neg, Rat.cast_intCast, ← cast_floor]
    have e : (x : ℝ) - 1 / 2 = -(((-x + 1 / 2 : ℚ)) : ℝ) := by push_cast; ring
    rw [e, Int.ceil_neg]
    push_cast; rfl

theorem toUInt64_cast (x : ℚ) : UInt64.ofNat (truncR (x : ℝ)).toNat = UInt64.ofNat x.floor.toNat := by
  rw [truncR_cast]
  split
  · rfl
  · rename_i h
    congr 1
    have h1 : x < 0 := lt_of_not_ge h
    have h2 : x.floor ≤ 0 := by
      have : x.floor = ⌊x⌋ := rfl
      rw [this]
      exact Int.floor_nonpos h1.le
    have h3 : 0 ≤ (-x).floor := by
      have : (-x).floor = ⌊-x⌋ := rfl
      rw [this]
      exact Int.floor_nonneg.2 (by linarith)
    omega

theorem cmul_cast (x y : ℚ × ℚ) : toC x * toC y = toC (x.1 * y.1 - x.2 * y.2, x.1 * y.2 + x.2 * y.1) := by
  apply Complex.ext
  · simp [toC, Complex.mul_re]
  · simp [toC, Complex.mul_im]

theorem cdiv_cast (x y : ℚ × ℚ) : toC x / toC y =
    toC ((x.1 * y.1 + x.2 * y.2) / (y.1 * y.1 + y.2 * y.2), (x.2 * y.1 - x.1 * y.2) / (y.1 * y.1 + y.2 * y.2)) := by
  apply Complex.ext
  · rw [Complex.div_re]
    simp only [toC, Complex.normSq_mk]
    push_cast; ring
  · rw [Complex.div_im]
    simp only [toC, Complex.normSq_mk]
    push_cast; ring

/-- The embedding of rational arithmetic in exact arithmetic. -/
noncomputable def ratHom : FHom ratOps exactOps where
  f := fun x : ℚ => (x : ℝ)
  c := toC
  lit _ := rfl
  ofInt k := (Rat.cast_intCast k).symm
  add x y := (Rat.cast_add x y).symm
  sub x y := (Rat.cast_sub x y).symm
  mul x y := (Rat.cast_mul x y).symm
  div x y := (Rat.cast_div x y).symm
  neg x := (Rat.cast_neg x).symm
  pow2 x := pow2_cast x
  floor x := by
    refine Eq.trans ?_ (Rat.cast_intCast _).symm
    exact congrArg (fun z : ℤ => (z : ℝ)) (cast_floor x)
  round x := round_cast x
  lt x y := decide_eq_decide.2 Rat.cast_lt
  toInt x := truncR_cast x
  toUInt64 x := toUInt64_cast x
  cplx _ _ := rfl
  re _ := rfl
  im _ := rfl
  cadd x y := by
    apply Complex.ext
    · exact (Rat.cast_add _ _).symm
    · exact (Rat.cast_add _ _).symm
  csub x y := by
    apply Complex.ext
    · exact (Rat.cast_sub _ _).symm
    · exact (Rat.cast_sub _ _).symm
  cmul x y := cmul_cast x y
  cdiv x y := cdiv_cast x y
  cneg x := by
    apply Complex.ext
    · exact (Rat.cast_neg _).symm
    · exact (Rat.cast_neg _).symm
  conj x := by
    apply Complex.ext
    · rfl
    · exact (Rat.cast_neg _).symm

theorem hom_Int16ToFloat64 {O P : FloatOps} (h : FHom O P) (f : List Int16) : Int16ToFloat64 P f = (Int16ToFloat64 O f).map h.f := by
  unfold Int16ToFloat64
  rw [List.map_map]
  apply List.map_congr_left
  intro x _
  exact h.ofInt _

theorem hom_NtruGen {O P : FloatOps} (h : FHom O P) (rand : Rand) (fuel pos : Nat) : NtruGen P rand fuel 2 pos = NtruGen O rand fuel 2 pos := by
  induction fuel generalizing pos with
  | zero => rfl
  | succ fuel ih =>
    rw [NtruGen, NtruGen]
    simp only [hom_GenPoly h]
    cases hf : GenPoly O rand (fuel + 1) 2 pos with
    | panic => rfl
    | diverge => rfl
    | ok a =>
      obtain ⟨f, p1⟩ := a
      have lf : f.length = 2 := GenPoly_length O rand _ 2 _ f _ hf
      simp only [Go.ok_bind]
      cases hg : GenPoly O rand (fuel + 1) 2 p1 with
      | panic => rfl
      | diverge => rfl
      | ok b =>
        obtain ⟨g, p2⟩ := b
        have lg : g.length = 2 := GenPoly_length O rand _ 2 _ g _ hg
        obtain ⟨r, e1, e2⟩ := hom_GsNorm h (Int16ToFloat64 O f) (Int16ToFloat64 O g) (O.ofInt Q) (by simp [Int16ToFloat64, lf])
          (by simp [Int16ToFloat64, lg])
        simp only [Go.ok_bind]
        rw [hom_Int16ToFloat64 h, hom_Int16ToFloat64 h, h.ofInt, e1, e2]
        simp only [Go.ok_bind]
        rw [h.lit, h.pow2, h.mul, h.lt, ih, hom_NtruSolve h _ _ (by simp [int16ToBigInt, lf]) (by simp [int16ToBigInt, lg])]

theorem hom_GeneratePrivateKey {O P : FloatOps} (h : FHom O P) (rand : Rand) (fuel pos : Nat) :
    GeneratePrivateKey P rand fuel 2 pos = GeneratePrivateKey O rand fuel 2 pos := by
  unfold GeneratePrivateKey
  rw [hom_NtruGen h]

/-- A complete run of key generation in exact arithmetic. -/
theorem exact_run_key : GeneratePrivateKey exactOps runRand 20 2 0 = .ok (.ok (⟨2, [72, 5], [60, 31], [-40, 31], [124, 0]⟩, 8192)) := by
  rw [hom_GeneratePrivateKey ratHom, run_key]

end Falcon
