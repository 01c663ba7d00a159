import Verif.Lemmas.Int32Reduce
import Verif.Props.Platforms
import Verif.Props.Int32
/-!
# C100: key generation with a 32-bit `int`

The type `int` is used in key generation for the quotients of `reduce` (`RoundAll`, util.go:321-327, called at ntrugen.go:205) and in the number
theoretic transform, whose forward direction does not overflow (C99). `Platform.x86` is the platform 386 with SSE2, `Platform.arm` a 32-bit
platform that fuses whenever it can and saturates. Both are accurate, so the theorems of C94, C96 and C97 that do not ask for `P.Wide` apply.
-/

namespace Falcon
open Spec Polynomial F64

/-- `int(x)` on 32-bit arm (VCVT): out of range the nearest integer in range, NaN gives zero. -/
def saturate32 (a : F64) : Int :=
  if a.isNaN then 0 else if a.isInf then (if a.sign then -(2 ^ 31) else 2 ^ 31 - 1) else max (-(2 ^ 31)) (min (2 ^ 31 - 1) (truncInt a.val))

/-- The platform 386: no fusing, conversion to a 32-bit `int`, everything else as on amd64. -/
def Platform.x86 : Platform := { Platform.amd64 with
  toInt := toI32
  toInt_in := fun a h h1 h2 => by
    unfold toI32
    rw [h, decide_eq_true h1, decide_eq_true h2]
    rfl }

/-- A platform with a 32-bit `int` that fuses whenever it can, also in the division of the runtime, and converts with saturation. -/
def Platform.arm : Platform := { Platform.arm64 with
  toInt := saturate32
  toInt_in := fun a h h1 h2 => by
    obtain ⟨e1, e2⟩ := finite_flags a h
    unfold saturate32
    rw [e1, e2]
    simp only [Bool.false_eq_true, if_false]
    omega }

theorem Platform.x86_accurate : Platform.x86.Accurate := by
  refine ⟨Platform.amd64_accurate.cdiv_near, fun a ha ho => ?_⟩
  show toI32 a ≠ 0
  unfold toI32
  rw [if_neg (by simp only [Bool.and_eq_true, decide_eq_true_eq]; omega)]
  decide

theorem Platform.arm_accurate : Platform.arm.Accurate := by
  refine ⟨Platform.arm64_accurate.cdiv_near, fun a ha ho => ?_⟩
  obtain ⟨e1, e2⟩ := finite_flags a ha
  show saturate32 a ≠ 0
  unfold saturate32
  rw [e1, e2]
  simp only [Bool.false_eq_true, if_false]
  omega

/-- These platforms have no 64-bit `int`. -/
theorem Platform.x86_not_wide : ¬ Platform.x86.Wide ∧ ¬ Platform.arm.Wide := by
  have e : truncInt (2 ^ 31) = 2 ^ 31 := by decide +kernel
  constructor
  · intro h
    have := h (.fin (2 ^ 31)) rfl (by show _ ≤ truncInt (2 ^ 31); omega) (by show truncInt (2 ^ 31) < _; omega)
    revert this
    decide +kernel
  · intro h
    have := h (.fin (2 ^ 31)) rfl (by show _ ≤ truncInt (2 ^ 31); omega) (by show truncInt (2 ^ 31) < _; omega)
    revert this
    decide +kernel

theorem x86_reduce (fuel : Nat) (f g F G : List Int) : reduce Platform.x86.ops fuel f g F G = reduce (opsWith toI32) fuel f g F G := by
  rw [(Platform.x86.hom Platform.x86_accurate).reduce_eq]
  rfl

/-- C100: the candidates `f, g` do not depend on the platform, and the test that `f` has no zero in its transform does not either. -/
theorem C100_candidates_partial (P P' : Platform) (rand : Rand) (fuel : Nat) (n : UInt16) (pos : Nat) (f : List Int16) :
    GenPoly P.ops rand fuel n pos = GenPoly P'.ops rand fuel n pos ∧ NTT wrap32 f = NTT wrap64 f :=
  ⟨C94_candidates (C94_platform P) (C94_platform P') rand fuel n pos, (C99_forward_partial f []).1⟩

/-- C100: at degree 2 key generation on 386, on 32-bit arm and on amd64 has the same outcomes on every random source, and ends on every finite source. -/
theorem C100_degree2_partial (P : Platform) (hP : P = Platform.x86 ∨ P = Platform.arm) (rand : Rand) (pos : Nat)
    (v : Go (Except KeyErr (PrivateKey × Nat))) (hv : v ≠ .diverge) (N : Nat) (d : Fin N → Draw) :
    ((∃ fuel, GeneratePrivateKey P.ops rand fuel 2 pos = v) ↔ ∃ fuel, GeneratePrivateKey ieeeOps rand fuel 2 pos = v) ∧
    ∃ fuel, GeneratePrivateKey P.ops (source d) fuel 2 0 = .panic ∨ ∃ key pos, GeneratePrivateKey P.ops (source d) fuel 2 0 = .ok (.ok (key, pos)) := by
  have hA : P.Accurate := by
    rcases hP with rfl | rfl
    · exact Platform.x86_accurate
    · exact Platform.arm_accurate
  exact ⟨(C96_degree2 P hA rand pos v hv).trans (C95_degree2 rand pos v hv).symm, C96_degree2_ends P hA N d⟩

/-- C100: with any `int` of at least 32 bits `reduce` returns at every degree, as in `C96_reduce_ends`, if moreover the coefficients of the quotient are at
most `10^9` and the absolute values of the coefficients of `F` and `G` add up to at most `2^44`; 20 iterations are enough. -/
theorem C100_reduce_ends_partial (P : Platform) (hP : P.Accurate) (k : Nat) (h1 : 1 ≤ k) (h2 : k ≤ 10) (f g F G : List Int) (hf : f.length = 2 ^ k)
    (hg : g.length = 2 ^ k) (hn : sqNorm (realI f) + sqNorm (realI g) ≤ 1.17 ^ 2 * 12289) (hd : ∀ w ∈ rootsC k, 784 / 100 ≤ gramAt f g w)
    (lF : F.length = 2 ^ k) (lG : G.length = 2 ^ k) (hdet : CongrZ (2 ^ k) (ntruDet f g F G) (C 12289)) (κ : List ℝ)
    (hκ : IsQuot k (realI f) (realI g) (realI F) (realI G) κ) (hfar : ∀ x ∈ κ, FarFromTie (1 / 10 ^ 6) x)
    (hl : l1 (realI F) + l1 (realI G) ≤ 2 ^ 44) (hb : ∀ x ∈ κ, |x| ≤ 10 ^ 9) (fuel : Nat) (hfu : 20 ≤ fuel) :
    ∃ r, reduce P.ops fuel f g F G = .ok r := by
  rw [(P.hom hP).reduce_eq]
  exact variant_C70_narrow (P.variant hP) k h1 h2 f g F G hf hg hn hd lF lG hdet κ hκ hfar hl hb fuel hfu

/-- C100 is violated: at every degree from 2 to 1024 there is a solution `(F, G)` of the NTRU equation on which `reduce` returns on amd64 and loops forever on
386: the quotient `2^31` does not fit, is converted to `-2^31`, and `F` grows in every iteration. The first part holds for all larger `F`. -/
theorem C100_violated_reduce (k : Nat) (h1 : 1 ≤ k) (h2 : k ≤ 10) :
    (∀ fuel F, 2 ^ 31 ≤ F → reduce Platform.x86.ops fuel (cst (2 ^ k) 1) (cst (2 ^ k) 0) (cst (2 ^ k) F) (cst (2 ^ k) 12289) = .diverge) ∧
    reduce Platform.amd64.ops 3 (cst (2 ^ k) 1) (cst (2 ^ k) 0) (cst (2 ^ k) (2 ^ 31)) (cst (2 ^ k) 12289) = .ok (cst (2 ^ k) 0, cst (2 ^ k) 12289) ∧
    ∀ F, CongrZ (2 ^ k) (ntruDet (cst (2 ^ k) 1) (cst (2 ^ k) 0) (cst (2 ^ k) F) (cst (2 ^ k) 12289)) (C 12289) := by
  refine ⟨fun fuel F hF => ?_, ?_, fun F => ?_⟩
  · rw [x86_reduce]
    exact reduce_grows k h1 h2 fuel F hF
  · rw [(Platform.amd64.hom Platform.amd64_accurate).reduce_eq]
    exact reduce_cst k h1 h2 1 0 (2 ^ 31) 12289 3 (0, 12289) (by decide +kernel)
  · unfold ntruDet polyZ
    rw [poly_cst, poly_cst, poly_cst, poly_cst]
    exact ⟨0, by simp⟩

/-- On 32-bit arm the conversion saturates and `reduce` does return. -/
example : reduce Platform.arm.ops 4 [1, 0] [0, 0] [2 ^ 31, 0] [12289, 0] = .ok ([0, 0], [12289, 0]) := by decide +kernel

/-- A complete run on 386. -/
example : ∃ fuel, GeneratePrivateKey Platform.x86.ops runRand fuel 2 0 = .ok (.ok (⟨2, [72, 5], [60, 31], [-40, 31], [124, 0]⟩, 8192)) :=
  (C96_degree2 Platform.x86 Platform.x86_accurate runRand 0 _ (by decide)).2 ⟨20, exact_run_key⟩

end Falcon
