import Verif.Model.FftConstants
import Verif.Model.Float
import Mathlib.Data.Rat.Floor
/-!
# IEEE 754 binary64 arithmetic

The instance of `FloatOps` in which `float64` is IEEE 754 binary64 with rounding to nearest, ties to even, as the Go specification requires,
and `complex128` a pair of those. What Go leaves to the implementation is taken from the compiler gc on amd64: no fusing of multiplications
and additions, the result of conversions out of range, and complex division by the function `complex128div` of the runtime. Payloads of
NaNs are not modelled. The table of roots is the table of the repository, correctly rounded.
-/

namespace Falcon

/-- A binary64 datum. The constructor `fin` is used for non-zero finite values only. -/
inductive F64 where
  | nan
  | inf (neg : Bool)
  | zero (neg : Bool)
  | fin (x : ℚ)
deriving DecidableEq

namespace F64

/-- `2^k`. -/
def two (k : Int) : ℚ := if 0 ≤ k then ((2 ^ k.toNat : Nat) : ℚ) else mkRat 1 (2 ^ (-k).toNat)

/-- The exponent of a positive rational: the largest `k` with `2^k ≤ x`. -/
def flog2 (x : ℚ) : Int :=
  let k : Int := Nat.log2 x.num.natAbs - Nat.log2 x.den
  if two k ≤ x then k else k - 1

/-- Rounding to the nearest integer, ties to even. -/
def roundEven (y : ℚ) : Int :=
  let f := y.floor
  let d := y - f
  if d < 1 / 2 then f else if 1 / 2 < d then f + 1 else if f % 2 = 0 then f else f + 1

/-- The exponent of the last place of the binary64 numbers near `x`. -/
def ulpExp (x : ℚ) : Int := max (flog2 x) (-1022) - 52

/-- The multiple of the unit in the last place nearest to a positive rational; the exponent range is unbounded above. -/
def nearest (x : ℚ) : ℚ := roundEven (x / two (ulpExp x)) * two (ulpExp x)

/-- Rounding of a non-zero rational to binary64. -/
def rnd (x : ℚ) : F64 :=
  let r := nearest |x|
  if r = 0 then .zero (decide (x < 0))
  else if two 1024 ≤ r then .inf (decide (x < 0))
  else .fin (if x < 0 then -r else r)

/-- Conversion of a rational constant or integer. -/
def ofRat (x : ℚ) : F64 := if x = 0 then .zero false else rnd x

/-- The value of a finite datum. -/
def val : F64 → ℚ
  | .fin x => x
  | _ => 0

/-- The sign bit. -/
def sign : F64 → Bool
  | .nan => false
  | .inf s => s
  | .zero s => s
  | .fin x => decide (x < 0)

def isNaN : F64 → Bool
  | .nan => true
  | _ => false

def isInf : F64 → Bool
  | .inf _ => true
  | _ => false

def isZero : F64 → Bool
  | .zero _ => true
  | _ => false

def isFinite (a : F64) : Bool := !a.isNaN && !a.isInf

def neg : F64 → F64
  | .nan => .nan
  | .inf s => .inf !s
  | .zero s => .zero !s
  | .fin x => .fin (-x)

def add (a b : F64) : F64 :=
  if a.isNaN || b.isNaN then .nan
  else if a.isInf then (if b.isInf && a.sign != b.sign then .nan else a)
  else if b.isInf then b
  else if a.val + b.val = 0 then .zero (a.sign && b.sign)
  else rnd (a.val + b.val)

def sub (a b : F64) : F64 := add a b.neg

def mul (a b : F64) : F64 :=
  if a.isNaN || b.isNaN then .nan
  else if a.isInf then (if b.isZero then .nan else .inf (a.sign != b.sign))
  else if b.isInf then (if a.isZero then .nan else .inf (a.sign != b.sign))
  else if a.isZero || b.isZero then .zero (a.sign != b.sign)
  else rnd (a.val * b.val)

def div (a b : F64) : F64 :=
  if a.isNaN || b.isNaN then .nan
  else if a.isInf then (if b.isInf then .nan else .inf (a.sign != b.sign))
  else if b.isInf then .zero (a.sign != b.sign)
  else if b.isZero then (if a.isZero then .nan else .inf (a.sign != b.sign))
  else if a.isZero then .zero (a.sign != b.sign)
  else rnd (a.val / b.val)

/-- A rational that is rounded like the square root of `x > 0`: the integral part of the root scaled to at least 64 bits, plus a half unit if
the root is not exact. -/
def sqrtApprox (x : ℚ) : ℚ :=
  let k : Int := 64 - flog2 x / 2
  let y := x * two (2 * k)
  let r := Nat.sqrt y.floor.toNat
  (if (r : ℚ) * r = y then (r : ℚ) else (r : ℚ) + 1 / 2) * two (-k)

def sqrt : F64 → F64
  | .nan => .nan
  | .inf s => if s then .nan else .inf false
  | .zero s => .zero s
  | .fin x => if x < 0 then .nan else rnd (sqrtApprox x)

/-- `math.Floor`. -/
def floor : F64 → F64
  | .fin x => if x.floor = 0 then .zero false else .fin x.floor
  | a => a

/-- Rounding to the nearest integer, halves away from zero. -/
def awayInt (x : ℚ) : Int := if 0 ≤ x then (x + 1 / 2).floor else -(-x + 1 / 2).floor

/-- `math.Round`. -/
def round : F64 → F64
  | .fin x => if awayInt x = 0 then .zero (decide (x < 0)) else .fin (awayInt x)
  | a => a

/-- `a < b`. -/
def lt (a b : F64) : Bool :=
  if a.isNaN || b.isNaN then false
  else if a.isInf then (a.sign && !(b.isInf && b.sign))
  else if b.isInf then !b.sign
  else decide (a.val < b.val)

/-- Truncation toward zero. -/
def truncInt (x : ℚ) : Int := if 0 ≤ x then x.floor else -(-x).floor

/-- `int64(x)` on amd64 (CVTTSD2SQ): the most negative integer if the value does not fit. -/
def toI64 (a : F64) : Int :=
  if a.isFinite && decide (-(2 ^ 63) ≤ truncInt a.val) && decide (truncInt a.val < 2 ^ 63) then truncInt a.val else -(2 ^ 63)

/-- `uint64(x)` on amd64: values from `2^63` on are converted after subtracting `2^63`. -/
def toU64 (a : F64) : UInt64 :=
  if lt a (.fin (2 ^ 63)) then UInt64.ofInt (toI64 a) else UInt64.ofInt (toI64 (sub a (.fin (2 ^ 63)))) ^^^ 0x8000000000000000

/-- `int16(x)` on amd64 (CVTTSD2SL and truncation). -/
def toI16 (a : F64) : Int16 :=
  Int16.ofInt (if a.isFinite && decide (-(2 ^ 31) ≤ truncInt a.val) && decide (truncInt a.val < 2 ^ 31) then truncInt a.val else -(2 ^ 31))

def abs : F64 → F64
  | .nan => .nan
  | .inf _ => .inf false
  | .zero _ => .zero false
  | .fin x => .fin |x|

/-- `inf2one` of the runtime. -/
def inf2one (a : F64) : F64 := if a.isInf then .fin (if a.sign then -1 else 1) else .zero a.sign

/-- `complex128div` of the runtime (runtime/complex.go). -/
def cdiv (n m : F64 × F64) : F64 × F64 :=
  let (a, b) := n
  let (c, d) := m
  let (e, f) :=
    if !lt (abs c) (abs d) && !c.isNaN && !d.isNaN then
      let ratio := div d c
      let denom := add c (mul ratio d)
      (div (add a (mul b ratio)) denom, div (sub b (mul a ratio)) denom)
    else
      let ratio := div c d
      let denom := add d (mul ratio c)
      (div (add (mul a ratio) b) denom, div (sub (mul b ratio) a) denom)
  if e.isNaN || f.isNaN then
    if c.isZero && d.isZero && (!a.isNaN || !b.isNaN) then (mul (.inf c.sign) a, mul (.inf c.sign) b)
    else if (a.isInf || b.isInf) && c.isFinite && d.isFinite then
      let a := inf2one a
      let b := inf2one b
      (mul (.inf false) (add (mul a c) (mul b d)), mul (.inf false) (sub (mul b c) (mul a d)))
    else if (c.isInf || d.isInf) && a.isFinite && b.isFinite then
      let c := inf2one c
      let d := inf2one d
      (mul (.zero false) (add (mul a c) (mul b d)), mul (.zero false) (sub (mul b c) (mul a d)))
    else (e, f)
  else (e, f)

end F64

/-- IEEE 754 binary64 arithmetic as a `FloatOps`. `math.Pow(x, 2)` is the correctly rounded square: package math computes it by one
multiplication of the mantissa, which is exact scaling by powers of two apart from that. -/
abbrev ieeeOps : FloatOps where
  F := F64
  C := F64 × F64
  lit q := F64.ofRat q
  ofInt k := F64.ofRat k
  add := F64.add
  sub := F64.sub
  mul := F64.mul
  div := F64.div
  neg := F64.neg
  pow2 x := F64.mul x x
  sqrt := F64.sqrt
  floor := F64.floor
  round := F64.round
  lt := F64.lt
  toInt := F64.toI64
  toUInt64 := F64.toU64
  toInt16 := F64.toI16
  cplx a b := (a, b)
  re := Prod.fst
  im := Prod.snd
  cadd x y := (F64.add x.1 y.1, F64.add x.2 y.2)
  csub x y := (F64.sub x.1 y.1, F64.sub x.2 y.2)
  cmul x y := (F64.sub (F64.mul x.1 y.1) (F64.mul x.2 y.2), F64.add (F64.mul x.1 y.2) (F64.mul x.2 y.1))
  cdiv := F64.cdiv
  cneg x := (F64.neg x.1, F64.neg x.2)
  conj x := (x.1, F64.neg x.2)
  root n i :=
    let w := fftRoot n i
    (F64.ofRat w.1, F64.ofRat w.2)

end Falcon
