import Verif.Model.Ntrugen
import Verif.Model.Samplerz
/-!
# Model of the random part of `src/internal/ntrugen.go`
-/

namespace Falcon

/-- ntrugen.go:290-293: the calls `Samplerz(0, sigma, sigma-0.001)`, `m` of them. -/
def genSamples (O : FloatOps) (rand : Rand) (fuel : Nat) : Nat → Nat → Go (List Int8 × Nat)
  | 0, pos => .ok ([], pos)
  | m + 1, pos => do
    let (v, pos) ← Samplerz O rand (O.ofInt 0) (O.lit 1.43300980528773) (O.sub (O.lit 1.43300980528773) (O.lit 0.001)) fuel pos
    let (vs, pos) ← genSamples O rand fuel m pos
    pure (v :: vs, pos)

/-- ntrugen.go:301-303: `sum += int(f0[i*k+j])`, `m` iterations left. -/
def sumBlock (f0 : List Int8) (start : Nat) : Nat → Int → Go Int
  | 0, acc => .ok acc
  | m + 1, acc => do
    let v ← idx f0 start
    sumBlock f0 (start + 1) m (acc + v.toInt)

/-- ntrugen.go:299-305: coefficients `i, i+1, ...` of `f`, `m` of them. -/
def sumBlocks (f0 : List Int8) (k : Nat) : Nat → Nat → Go (List Int16)
  | 0, _ => .ok []
  | m + 1, i => do
    let s ← sumBlock f0 (i * k) k 0
    let r ← sumBlocks f0 k m (i + 1)
    pure (Int16.ofInt s :: r)

/-- ntrugen.go:285-307 `GenPoly`. Line 295 `int(math.Floor(4096 / float64(n)))` is the integer quotient for `1 ≤ n ≤ 4096`: the
distance of a non-integral `4096/n` to the next integer is at least `1/4096`, far above the rounding error of the division. For
`n = 0` the value is not used. -/
def GenPoly (O : FloatOps) (rand : Rand) (fuel : Nat) (n : UInt16) (pos : Nat) : Go (List Int16 × Nat) :=
  if n > 4096 then .panic
  else do
    let (f0, pos) ← genSamples O rand fuel 4096 pos
    let f ← sumBlocks f0 (4096 / n.toNat) n.toNat 0
    pure (f, pos)

/-- A generated quadruple `f, g, F, G`. -/
structure Quad where
  f : List Int16
  g : List Int16
  F : List Int16
  G : List Int16
  deriving DecidableEq

/-- ntrugen.go:309-331 `NtruGen`. `fuel` bounds the iterations of this loop and of every loop inside. -/
def NtruGen (O : FloatOps) (rand : Rand) : Nat → UInt16 → Nat → Go (Quad × Nat)
  | 0, _, _ => .diverge
  | fuel + 1, n, pos => do
    let (f, pos) ← GenPoly O rand (fuel + 1) n pos
    let (g, pos) ← GenPoly O rand (fuel + 1) n pos
    let norm ← GsNorm O (Int16ToFloat64 O f) (Int16ToFloat64 O g) (O.ofInt Q)
    if O.lt (O.mul (O.pow2 (O.lit 1.17)) (O.ofInt Q)) norm then NtruGen O rand fuel n pos
    else do
      let fntt ← NTT wrap64 f
      if anyZeroes fntt then NtruGen O rand fuel n pos
      else do
        match ← NtruSolve O (fuel + 1) (int16ToBigInt f) (int16ToBigInt g) with
        | none => NtruGen O rand fuel n pos
        | some (F, G) => pure (⟨f, g, bigIntToInt16 F, bigIntToInt16 G⟩, pos)

end Falcon
