import Verif.Model.Go
/-!
# Model of `src/util/util.go` (integer part)
-/

namespace Falcon

/-- util.go:17 `const Q = 12289`. -/
def Q : Int := 12289

/-- util.go:65-74 `Pmod`, the part after the division-by-zero check. Go's `%` truncates toward zero
(`Int.tmod`). Used directly when the modulus is the constant `Q`. -/
def pmodVal (x b : Int) : Int :=
  let x := x.tmod b
  if x ≥ 0 then x
  else if b < 0 then x - b
  else x + b

/-- util.go:65-74 `Pmod`; Go's integer `%` panics on a zero divisor. Arguments are mathematical
integers; the results of the additions stay within the range of the operands, so no wrap occurs. -/
def Pmod (x b : Int) : Go Int :=
  if b = 0 then .panic else .ok (pmodVal x b)

/-- util.go:77-85 `Max`: `biggest := a[0]` panics on an empty list. -/
def goMax (a : List Int) : Go Int := do
  let b ← idx a 0
  pure (a.foldl (fun biggest v => if v > biggest then v else biggest) b)

/-- util.go:267-275 `MaxFromBigInt`. -/
def maxFromBigInt (x : List Int) : Go Int := do
  let m ← idx x 0
  pure (x.foldl (fun max v => if v > max then v else max) m)

/-- util.go:278-286 `MinFromBigInt`. -/
def minFromBigInt (x : List Int) : Go Int := do
  let m ← idx x 0
  pure (x.foldl (fun min v => if v < min then v else min) m)

/-- util.go:237-246 `CmpMinFromBigInt` (the final `panic("")` is unreachable since `Cmp` is in {-1,0,1}). -/
def cmpMinFromBigInt (x y : Int) : Int := if x ≤ y then x else y

/-- util.go:255-264 `CmpMaxFromBigInt`. -/
def cmpMaxFromBigInt (x y : Int) : Int := if x ≥ y then x else y

/-- util.go:289-296 `AllZeroes`: loop with early return, as a recursion. -/
def allZeroes : List Int → Bool
  | [] => true
  | n :: ns => if n ≠ 0 then false else allZeroes ns

/-- util.go:312-319 `AnyZeroes`. -/
def anyZeroes : List Int16 → Bool
  | [] => false
  | n :: ns => if n = 0 then true else anyZeroes ns

/-- util.go:303-308, the comparison loop of `BigIntSliceEqual` at index `i`; `b[i]` may not panic
because the lengths were compared before. -/
def bigIntSliceEqualLoop (b : List Int) : Nat → List Int → Go Bool
  | _, [] => .ok true
  | i, v :: vs => do
    let bi ← idx b i
    if v ≠ bi then pure false else bigIntSliceEqualLoop b (i + 1) vs

/-- util.go:300-310 `BigIntSliceEqual`. -/
def bigIntSliceEqual (a b : List Int) : Go Bool :=
  if a.length ≠ b.length then .ok false else bigIntSliceEqualLoop b 0 a

/-- util.go:115-121 `IntToInt16`. -/
def intToInt16 (s : List Int) : List Int16 := s.map Int16.ofInt

/-- util.go:158-165 `Int16ToBigInt`. -/
def int16ToBigInt (s : List Int16) : List Int := s.map Int16.toInt

/-- `(*big.Int).Int64()` (math/big, int.go): the low 64 bits of the absolute value as an `int64`, negated
when the number is negative. Documented as undefined out of range; this is the implementation. -/
def bigInt64 (x : Int) : Int :=
  let v := i64 (x.natAbs : Int)
  if x < 0 then i64 (-v) else v

/-- util.go:212-218 `BigIntToInt16`: `int16(v.Int64())`. -/
def bigIntToInt16 (x : List Int) : List Int16 := x.map fun v => Int16.ofInt (bigInt64 v)

/-- util.go:330-346 `SplitPolysInt` and 349-365 `SplitPolysFloat64` (same code for both element
types): `fn = floor(len/2)`, `f0[i] = f[2i]`, `f1[i] = f[2i+1]`. The indices are in range, so the loop
never panics; with an odd length the last element is not read. -/
def splitPolys {α : Type u} : List α → List α × List α
  | a :: b :: rest =>
    let r := splitPolys rest
    (a :: r.1, b :: r.2)
  | _ => ([], [])

/-- util.go:368-381 `MergePolysInt` and 384-397 `MergePolysfloat64`: `n = 2*len(f0)`, `f[2i] = f0[i]`,
`f[2i+1] = f1[i]`; `f1[i]` panics when `f1` is shorter than `f0`; surplus elements of `f1` are ignored. -/
def mergePolys {α : Type u} : List α → List α → Go (List α)
  | [], _ => .ok []
  | _ :: _, [] => .panic
  | a :: f0, b :: f1 => do
    let r ← mergePolys f0 f1
    pure (a :: b :: r)

end Falcon
