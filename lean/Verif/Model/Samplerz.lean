import Verif.Model.Float
import Verif.Model.Util
/-!
# Model of `src/internal/samplerz.go`

The random bytes of package crypto/rand are an arbitrary sequence of draws of 11 bytes, each of which may fail.
-/

namespace Falcon

/-- Successive results of `generateRandBytes` (samplerz.go:189-193): the 11 bytes of the `i`-th call, `none` if it returns an error. -/
abbrev Rand := Nat → Option (Fin 11 → UInt8)

/-- samplerz.go:26-45 `RCDT`. -/
def RCDT : List Nat := [
  3024686241123004913666, 1564742784480091954050, 636254429462080897535, 199560484645026482916, 47667343854657281903,
  8595902006365044063, 1163297957344668388, 117656387352093658, 8867391802663976, 496969357462633, 20680885154299,
  638331848991, 14602316184, 247426747, 3104126, 28824, 198, 1]

/-- samplerz.go:52-66 the table `C`. -/
def expTable : List UInt64 := [
  0x00000004741183A3, 0x00000036548CFC06, 0x0000024FDCBF140A, 0x0000171D939DE045, 0x0000D00CF58F6F84, 0x000680681CF796E3,
  0x002D82D8305B0FEA, 0x011111110E066FD0, 0x0555555555070F00, 0x155555555581FF00, 0x400000000002B400, 0x7FFFFFFFFFFF4800,
  0x8000000000000000]

/-- `new(big.Int).SetBytes(b)`: big-endian value. -/
def setBytes (b : List UInt8) : Nat := b.foldl (fun acc x => acc * 256 + x.toNat) 0

/-- samplerz.go:79-90 `BaseSampler`. -/
def BaseSampler (randomBytes : List UInt8) : Nat :=
  let u := setBytes randomBytes
  RCDT.foldl (fun z0 elt => if u < elt then z0 + 1 else z0) 0

/-- samplerz.go:104-114 `approxexp`. All `uint64` operations wrap modulo 2^64. -/
def approxexp (O : FloatOps) (x ccs : O.F) : UInt64 :=
  let z := O.toUInt64 (O.mul x (O.lit (2 ^ 63)))
  let y := expTable.tail.foldl (fun y elt => elt - ((z * y) >>> 63)) (expTable.headD 0)
  let z := O.toUInt64 (O.mul ccs (O.lit (2 ^ 63))) <<< 1
  (z * y) >>> 63

/-- Go's `x >> s` on `uint64`: shifting by 64 or more gives 0. -/
def shr64 (x : UInt64) (s : Nat) : UInt64 := if s < 64 then x >>> UInt64.ofNat s else 0

/-- samplerz.go:136-142: the loop of `berexp`. The argument is the list of the remaining shift amounts `uint64(i)`,
the result the last `w`. `b` is the same in every iteration (line 137). -/
def berexpLoop (b : Int) (z : UInt64) : List Nat → Int → Int
  | [], w => w
  | i :: is, _ =>
    let w := b - ((shr64 z i).toNat % 256 : Nat)
    if w ≠ 0 then w else berexpLoop b z is w

/-- samplerz.go:136: the values of `uint64(i)` for `i = 56, 48, ..., 0, -8`. -/
def berexpShifts : List Nat := [56, 48, 40, 32, 24, 16, 8, 0, 2 ^ 64 - 8]

/-- util.go:88-93 `Min`. -/
def goMin (O : FloatOps) (a b : O.F) : O.F := if O.lt a b then a else b

/-- samplerz.go:16-22 `inv2sigma2`, `LN2`, `ILN2`. -/
def inv2sigma2 (O : FloatOps) : O.F := O.div (O.lit 1) (O.mul (O.lit 2) (O.pow2 (O.lit 1.8205)))

/-- samplerz.go:21. -/
def LN2 (O : FloatOps) : O.F := O.lit 0.69314718056

/-- samplerz.go:22. -/
def ILN2 (O : FloatOps) : O.F := O.lit 1.44269504089

/-- samplerz.go:130-144 `berexp`; a negative shift count panics. -/
def berexp (O : FloatOps) (x ccs : O.F) (randomBytes : List UInt8) : Go Bool :=
  let s := O.floor (O.mul x (ILN2 O))
  let r := O.sub x (O.mul s (LN2 O))
  let s := goMin O s (O.lit 63)
  let sh := O.toInt s
  if sh < 0 then .panic
  else
    let z := shr64 (approxexp O r ccs - 1) sh.toNat
    let b := i64 (setBytes randomBytes % 2 ^ 64 : Nat)
    .ok (decide (berexpLoop b z berexpShifts 0 < 0))

/-- samplerz.go:196-206 `splitRandBytes`. -/
def splitRandBytes (rb : Fin 11 → UInt8) : List UInt8 × List UInt8 × List UInt8 :=
  ([rb 0, rb 1, rb 2, rb 3, rb 4, rb 5, rb 6, rb 7, rb 8], [rb 9], [rb 10])

/-- samplerz.go:159-179 `Samplerz`, from draw number `pos` on; also returns the number of the next draw. `fuel` bounds the number of
iterations of the rejection loop. -/
def Samplerz (O : FloatOps) (rand : Rand) (mu sigma sigmin : O.F) : Nat → Nat → Go (Int8 × Nat)
  | 0, _ => .diverge
  | fuel + 1, pos =>
    let s := O.toInt (O.floor mu)
    let r := O.sub mu (O.ofInt s)
    let dss := O.div (O.lit 1) (O.mul (O.mul (O.lit 2) sigma) sigma)
    let ccs := O.div sigmin sigma
    match rand pos with
    | none => .panic
    | some rb => do
      let (fb, sb, tb) := splitRandBytes rb
      let z0 := BaseSampler fb
      let b := setBytes sb % 2
      let z := O.ofInt (b + (2 * b - 1) * z0)
      let x := O.mul (O.pow2 (O.sub z r)) dss
      let x := O.sub x (O.mul (O.pow2 (O.ofInt z0)) (inv2sigma2 O))
      if ← berexp O x ccs tb then pure (Int8.ofInt (s + O.toInt z), pos + 1)
      else Samplerz O rand mu sigma sigmin fuel (pos + 1)

end Falcon
