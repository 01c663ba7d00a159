import Verif.Spec.Verify
/-!
# What a byte string denotes as input of `VerifyBytes`

The input consists of words of 32 bytes. A word denotes the sum of its bytes. A coefficient of the key is `256` times one word plus the
next, modulo 2^16; a byte of the message or of the signature is one word modulo 2^8.
-/

namespace Falcon.Spec

/-- The sum of the bytes of word `i`. -/
def wordSum (b : List UInt8) (i : Nat) : Nat := (((b.drop (32 * i)).take 32).map UInt8.toNat).sum

/-- The key: words 0 to 1023. -/
def keyOf (b : List UInt8) : List Int16 :=
  (List.range 512).map fun j => Int16.ofInt (256 * wordSum b (2 * j) + wordSum b (2 * j + 1) : Nat)

/-- The message: words 1024 to 1055. -/
def msgOf (b : List UInt8) : List UInt8 := (List.range 32).map fun j => UInt8.ofNat (wordSum b (1024 + j))

/-- The signature: words 1056 to 1721. -/
def sigOf (b : List UInt8) : List UInt8 := (List.range 666).map fun j => UInt8.ofNat (wordSum b (1056 + j))

end Falcon.Spec
