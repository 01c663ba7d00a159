import Verif.Model.Fft
import Verif.Model.Ntrugen
/-!
# Model of the rest of `src/util/util.go`: byte, float and random helpers
-/

namespace Falcon

/-- util.go:19-22 `UintFromBytes`: `binary.LittleEndian.Uint64` reads 8 bytes and panics on a shorter slice. -/
def UintFromBytes (b : List UInt8) : Go UInt64 :=
  match b with
  | b0 :: b1 :: b2 :: b3 :: b4 :: b5 :: b6 :: b7 :: _ =>
    .ok (b0.toUInt64 ||| b1.toUInt64 <<< 8 ||| b2.toUInt64 <<< 16 ||| b3.toUInt64 <<< 24 ||| b4.toUInt64 <<< 32 |||
      b5.toUInt64 <<< 40 ||| b6.toUInt64 <<< 48 ||| b7.toUInt64 <<< 56)
  | _ => .panic

/-- util.go:30-37 `RandElement`. `draw m` is the result of `cryptoRand.Int(cryptoRand.Reader, m)` for `m > 0`: a number below `m`, or an error
(`none`); for `m = 0` that function panics. -/
def RandElement (draw : (m : Nat) → Option (Fin m)) (elements : List Int) : Go Int :=
  if elements.length = 0 then .panic
  else
    match draw elements.length with
    | none => .panic
    | some n => idx elements n

/-- util.go:40-44 `RandomFft`. -/
def RandomFft (O : FloatOps) (draw : (m : Nat) → Option (Fin m)) : Go O.F := do
  let e ← RandElement draw [-3, -2, -1, 0, 1, 2, 3, 4]
  pure (O.ofInt e)

/-- util.go:48-51 `GenerateRandSalt`: not implemented, the result is nil. -/
def GenerateRandSalt : List UInt8 := []

/-- One digit of `hex.EncodeToString`. -/
def hexDigit (d : Nat) : Char := "0123456789abcdef".toList.getD d '0'

/-- util.go:54-62 `RandomHexString`; the characters of the string. `data` is the content of the slice after `RandomBytes`, whose error is
ignored: `none` leaves the zeros of `make`. A negative length makes `make` panic. -/
def RandomHexString (data : (m : Nat) → Option (Fin m → UInt8)) (length : Int) : Go (List Char) :=
  if length = 0 then .ok []
  else if length < 0 then .panic
  else
    let b := match data length.toNat with
      | none => List.replicate length.toNat 0
      | some v => List.ofFn v
    .ok (b.flatMap fun x => [hexDigit (x.toNat / 16), hexDigit (x.toNat % 16)])

/-- util.go:88-93 `Min`. -/
def minFloat64 (O : FloatOps) (a b : O.F) : O.F := if O.lt a b then a else b

/-- util.go:95-103 `SmallestFloat64`. -/
def SmallestFloat64 (O : FloatOps) (f : List O.F) : Go O.F := do
  let x ← idx f 0
  pure (f.foldl (fun m v => if O.lt v m then v else m) x)

/-- util.go:123-129 `ComplexRealToFloat64`. -/
def ComplexRealToFloat64 (O : FloatOps) (c : List O.C) : List O.F := c.map O.re

/-- util.go:131-137 `Float64ToComplexReal`. -/
def Float64ToComplexReal (O : FloatOps) (f : List O.F) : List O.C := f.map fun x => O.cplx x (O.lit 0)

/-- util.go:139-146 `Int8ToFloat64`. -/
def Int8ToFloat64 (O : FloatOps) (f : List Int8) : List O.F := f.map fun x => O.ofInt x.toInt

/-- util.go:167-169 `SquareInt16`. -/
def SquareInt16 (x : Int16) : Int16 := x * x

/-- util.go:173-175, 181-183: `r[i] = x[i] - y[i]` for `i < len(x)`; `y[i]` panics when `y` is shorter. -/
def subVec {α : Type} (sub : α → α → α) : List α → List α → Go (List α)
  | [], _ => .ok []
  | _ :: _, [] => .panic
  | a :: x, b :: y => do
    let r ← subVec sub x y
    pure (sub a b :: r)

/-- util.go:171-177 `SubFloat64`. -/
def SubFloat64 (O : FloatOps) (x y : List O.F) : Go (List O.F) := subVec O.sub x y

/-- util.go:179-185 `SubInt16`. -/
def SubInt16 (x y : List Int16) : Go (List Int16) := subVec (· - ·) x y

/-- util.go:187-193 `NegFloat64`. -/
def NegFloat64 (O : FloatOps) (x : List O.F) : List O.F := x.map O.neg

/-- util.go:195-201 `NegInt16`. -/
def NegInt16 (x : List Int16) : List Int16 := x.map fun v => -v

/-- util.go:203-210 `IntToBigInt`. -/
def IntToBigInt (s : List Int) : List Int := s

/-- util.go:220-227 `Float64ToInt16`. -/
def Float64ToInt16 (O : FloatOps) (f : List O.F) : List Int16 := f.map O.toInt16

/-- util.go:249-252 `CmpBigInt`. -/
def CmpBigInt (x y : Int) : Bool := compare x y == .eq

end Falcon
