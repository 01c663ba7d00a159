import Verif.Model.Go
import Mathlib.Data.Rat.Defs
/-!
# Floating point

`float64` and `complex128` are not modelled bit by bit: every floating-point operation the code performs is a field of
`FloatOps`, about which nothing is assumed. Theorems for an arbitrary `FloatOps` hold for IEEE arithmetic; theorems about the value
of floating-point results use the exact instance (Verif/Spec/Exact.lean). Fusing of multiplications and additions, which the Go
specification allows and the compiler does on some architectures, is an instance as well (Verif/Spec/Fma.lean).
-/

namespace Falcon

/-- The floating-point operations used by the code (Go spec "Floating-point operators", "Complex numbers", package math and math/cmplx). -/
structure FloatOps where
  /-- `float64` -/
  F : Type
  /-- `complex128` -/
  C : Type
  /-- a decimal constant converted to `float64` -/
  lit : Rat → F
  /-- `float64(k)` for an integer -/
  ofInt : Int → F
  add : F → F → F
  sub : F → F → F
  mul : F → F → F
  div : F → F → F
  neg : F → F
  /-- `math.Pow(x, 2)` -/
  pow2 : F → F
  /-- `math.Sqrt` -/
  sqrt : F → F
  /-- `math.Floor` -/
  floor : F → F
  /-- `math.Round` -/
  round : F → F
  /-- `a < b` (`a > b` is `lt b a`) -/
  lt : F → F → Bool
  /-- `int(x)`; implementation-defined out of range -/
  toInt : F → Int
  /-- `uint64(x)`; implementation-defined out of range -/
  toUInt64 : F → UInt64
  /-- `int16(x)`; implementation-defined out of range -/
  toInt16 : F → Int16
  /-- `complex(re, im)` -/
  cplx : F → F → C
  re : C → F
  im : C → F
  cadd : C → C → C
  csub : C → C → C
  cmul : C → C → C
  cdiv : C → C → C
  cneg : C → C
  /-- `cmplx.Conj` -/
  conj : C → C
  /-- fft_constants.go:11-2123: `roots_dict[n][i]`, for `n` in {2,4,...,1024} and `i < n` -/
  root : Nat → Nat → C

/-- fft_constants.go:2112-2123: the keys of the map `roots_dict`. -/
def isRootKey (n : Nat) : Bool :=
  n = 2 || n = 4 || n = 8 || n = 16 || n = 32 || n = 64 || n = 128 || n = 256 || n = 512 || n = 1024

/-- `roots_dict[n][i]`: a missing key gives a nil slice, whose indexing panics; the entry of key `n` has `n` elements. -/
def FloatOps.rootAt (O : FloatOps) (n i : Nat) : Go O.C :=
  if isRootKey n && i < n then .ok (O.root n i) else .panic

end Falcon
