/-!
# Specification of the signature code (independent of the model)

Falcon's compressed format: a coefficient `c` is written as one sign bit (1 iff `c < 0`), the 7 low bits of
`|c|` most significant first, then `|c| / 128` zeros followed by a one.
-/

namespace Falcon.Spec

/-- The 8 bits of a byte, most significant first. -/
def bits8 (b : Nat) : List Bool :=
  [b.testBit 7, b.testBit 6, b.testBit 5, b.testBit 4, b.testBit 3, b.testBit 2, b.testBit 1, b.testBit 0]

/-- The bit string of a byte string. -/
def bytesBits (x : List UInt8) : List Bool := x.flatMap fun b => bits8 b.toNat

/-- The code of one integer. -/
def codeCoef (c : Int) : List Bool :=
  let a := c.natAbs
  decide (c < 0) ::
    [a.testBit 6, a.testBit 5, a.testBit 4, a.testBit 3, a.testBit 2, a.testBit 1, a.testBit 0] ++
    List.replicate (a / 128) false ++ [true]

/-- The code of a vector: concatenation of the codes of its coefficients. -/
def code (v : List Int) : List Bool := v.flatMap codeCoef

/-- Number of bits of the code of a vector. -/
def codeLen (v : List Int) : Nat := (v.map fun c => 9 + c.natAbs / 128).sum

/-- A bit string without its trailing zeros. -/
def trimZeros (u : List Bool) : List Bool := (u.reverse.dropWhile (! ·)).reverse

end Falcon.Spec
