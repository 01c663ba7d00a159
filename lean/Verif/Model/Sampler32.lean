import Verif.Model.Samplerz
import Verif.Model.Ffsampling
/-!
# The sampler with a 32-bit `int`

`Samplerz` and `berexp` with every operation on `int` wrapping at 32 bits. The conversion from `float64` to `int` is that of `O`. `uint64(x)` is the conversion of
`O` as well.
-/

namespace Falcon

/-- The value of an `int` of 32 bits. -/
def i32 (x : Int) : Int := Int.bmod x (2 ^ 32)

/-- samplerz.go:136-142 as `berexpLoop` in Model/Samplerz.lean, with `int(z >> i) & 0xFF` and the difference on 32 bits. -/
def berexpLoop32 (b : Int) (z : UInt64) : List Nat → Int → Int
  | [], w => w
  | i :: is, _ =>
    let w := i32 (b - i32 ((shr64 z i).toNat : Nat) % 256)
    if w ≠ 0 then w else berexpLoop32 b z is w

/-- samplerz.go:130-144 `berexp` with a 32-bit `int`. -/
def berexp32 (O : FloatOps) (x ccs : O.F) (randomBytes : List UInt8) : Go Bool :=
  let s := O.floor (O.mul x (ILN2 O))
  let r := O.sub x (O.mul s (LN2 O))
  let s := goMin O s (O.lit 63)
  let sh := O.toInt s
  if sh < 0 then .panic
  else
    let z := shr64 (approxexp O r ccs - 1) sh.toNat
    let b := i32 (setBytes randomBytes % 2 ^ 64 : Nat)
    .ok (decide (berexpLoop32 b z berexpShifts 0 < 0))

/-- samplerz.go:159-179 `Samplerz` with a 32-bit `int`. -/
def Samplerz32 (O : FloatOps) (rand : Rand) (mu sigma sigmin : O.F) : Nat → Nat → Go (Int8 × Nat)
  | 0, _ => .diverge
  | fuel + 1, pos =>
    let s := O.toInt (O.floor mu)
    let r := O.sub mu (O.ofInt s)
    let dss := O.div (O.lit 1) (O.mul (O.mul (O.lit 2) sigma) sigma)
    let ccs := O.div sigmin sigma
    match rand pos with
    | none => .panic
    | some rb => do
      let (fb, sb, tb) := splitRandBytes rb
      let z0 := i32 (BaseSampler fb : Nat)
      let b := i32 (setBytes sb % 2 ^ 64 : Nat) % 2
      let z := O.ofInt (i32 (b + i32 (i32 (2 * b - 1) * z0)))
      let x := O.mul (O.pow2 (O.sub z r)) dss
      let x := O.sub x (O.mul (O.pow2 (O.ofInt z0)) (inv2sigma2 O))
      if ← berexp32 O x ccs tb then pure (Int8.ofInt (i32 (s + O.toInt z)), pos + 1)
      else Samplerz32 O rand mu sigma sigmin fuel (pos + 1)

/-- ffsampling.go:250-273 `FfSamplingFFT` as in Model/Ffsampling.lean, with the sampler as a parameter (`smp mu sigma fuel pos`) and
`V` for `T.Value`, the only part of the tree that is read. -/
def FfSamplingOn (O : FloatOps) (smp : O.F → O.F → Nat → Nat → Go (Int8 × Nat)) (V : List O.C) :
    Nat → List O.C × List O.C → Nat → Go ((List O.C × List O.C) × Nat)
  | 0, _, _ => .diverge
  | fuel + 1, t, pos =>
    let n := t.1.length
    if n > 1 then do
      let s ← SplitFFT O t.2
      let (u, pos) ← FfSamplingOn O smp V fuel s pos
      let z1 ← MergeFFT O u
      let d ← SubFFT O t.2 z1
      let m ← MulFFT O d V
      let t0b ← AddFFT O t.1 m
      let s ← SplitFFT O t0b
      let (u, pos) ← FfSamplingOn O smp V fuel s pos
      let z0 ← MergeFFT O u
      pure ((z0, z1), pos)
    else if n = 1 then do
      let t0 ← idx t.1 0
      let v ← idx V 0
      let (a, pos) ← smp (O.re t0) (O.re v) (fuel + 1) pos
      let t1 ← idx t.2 0
      let (b, pos) ← smp (O.re t1) (O.re v) (fuel + 1) pos
      pure (([O.cplx (O.ofInt a.toInt) (O.lit 0)], [O.cplx (O.ofInt b.toInt) (O.lit 0)]), pos)
    else pure (([O.cplx (O.lit 0) (O.lit 0)], [O.cplx (O.lit 0) (O.lit 0)]), pos)

end Falcon
