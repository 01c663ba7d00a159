import Verif.Model.Encoding
import Verif.Model.Ntt
import Verif.Model.Params
/-!
# Model of hashing and verification in `src/falcon.go`

SHAKE256 (`golang.org/x/crypto/sha3`) is an arbitrary function `xof` from the absorbed bytes to the infinite output
stream; `shake.Write(salt); shake.Write(message)` absorbs `salt ++ message`, and successive `Read`s return successive
bytes. Printing is not modelled.
-/

namespace Falcon

/-- An extendable-output function: absorbed bytes to output stream. -/
abbrev Xof := List UInt8 → Nat → UInt8

/-- falcon.go:278-283, one sample of the package-level `hashToPoint`: two bytes to a coefficient, or rejection.
`int16(elt % util.Q)` does not wrap. -/
def hashSample (b0 b1 : UInt8) : Option Int16 :=
  let elt := (b0.toNat <<< 8) ||| b1.toNat
  if elt < 61445 then some (Int16.ofNat (elt % 12289)) else none

/-- falcon.go:272-285, the loop of the package-level `hashToPoint`; `pos` is the position in the XOF output, the last argument the
number of coefficients still needed. `fuel` bounds the number of iterations. -/
def hashLoop (s : Nat → UInt8) : Nat → Nat → Nat → Go (List Int16)
  | _, _, 0 => .ok []
  | 0, _, _ + 1 => .diverge
  | fuel + 1, pos, need + 1 =>
    match hashSample (s pos) (s (pos + 1)) with
    | some c => do
      let r ← hashLoop s fuel (pos + 2) need
      pure (c :: r)
    | none => hashLoop s fuel (pos + 2) (need + 1)

/-- falcon.go:261-287 the package-level `hashToPoint` (n = 512). -/
def hashToPoint (xof : Xof) (fuel : Nat) (message salt : List UInt8) : Go (List Int16) :=
  hashLoop (xof (salt ++ message)) fuel 0 512

/-- falcon.go:231, 246-251, one sample of `(*PrivateKey).hashToPoint`: `k*Q` with `k = (1<<16)/Q`. The `float64` result is
an integer below 2^53, kept as `Int`. -/
def privHashSample (b0 b1 : UInt8) : Option Int :=
  let k := (1 <<< 16) / 12289
  let elt := (b0.toNat <<< 8) + b1.toNat
  if elt < k * 12289 then some ((elt % 12289 : Nat) : Int) else none

/-- falcon.go:240-253, the loop of `(*PrivateKey).hashToPoint`. -/
def privHashLoop (s : Nat → UInt8) : Nat → Nat → Nat → Go (List Int)
  | _, _, 0 => .ok []
  | 0, _, _ + 1 => .diverge
  | fuel + 1, pos, need + 1 =>
    match privHashSample (s pos) (s (pos + 1)) with
    | some c => do
      let r ← privHashLoop s fuel (pos + 2) need
      pure (c :: r)
    | none => privHashLoop s fuel (pos + 2) (need + 1)

/-- falcon.go:226-255 `(*PrivateKey).hashToPoint`; the key only contributes its degree. The `Q > 1<<16` panic is dead code. -/
def privHashToPoint (xof : Xof) (fuel : Nat) (n : UInt16) (message salt : List UInt8) : Go (List Int) :=
  privHashLoop (xof (salt ++ message)) fuel 0 n.toNat

/-- falcon.go:481 `int16((s0[i]+(util.Q>>1))%util.Q - (util.Q >> 1))`: `int16` arithmetic, Go's truncating `%`. -/
def centre (x : Int16) : Int16 := (x + 6144) % 12289 - 6144

/-- falcon.go:484-486, 488-490: `normSign += uint32(v) * uint32(v)` over a slice; `uint32(v)` sign-extends. -/
def addSquares (acc : UInt32) (l : List Int16) : UInt32 :=
  l.foldl (fun a v => a + UInt32.ofInt v.toInt * UInt32.ofInt v.toInt) acc

/-- falcon.go:453-498, `Verify` after the slicing of the signature (and the same code at 551-590 in `VerifyBytes`). -/
def verifyBody (xof : Xof) (fuel : Nat) (pubkey : List Int16) (message salt encS : List UInt8) : Go Bool := do
  let par := GetParamSet 512
  match ← Decompress encS (((par.sigbytelen - UInt16.ofNat HeadLen - UInt16.ofNat SaltLen).toNat : Nat) : Int) 512 with
  | .error _ => pure false
  | .ok ss1 => do
    let s1 := ss1.map Int16.ofInt
    let hashed ← hashToPoint xof fuel message salt
    let p ← MulZq wrap64 s1 pubkey
    let s0 ← SubZq hashed p
    let s0 := s0.map centre
    let normSign := addSquares (addSquares 0 s0) s1
    pure (!decide (normSign > par.sigbound))

/-- falcon.go:444-499 `Verify`. `signature[1:41]` and `signature[41:]` panic exactly when the signature is shorter than 41 bytes
(whatever the capacity, because of the second). -/
def Verify (xof : Xof) (fuel : Nat) (pubkey : List Int16) (message signature : List UInt8) : Go Bool := do
  let salt ← slice signature HeadLen (HeadLen + SaltLen)
  let encS ← slice signature (HeadLen + SaltLen) signature.length
  verifyBody xof fuel pubkey message salt encS

/-- falcon.go:514-516, 520-522: `temp += int16(inputBytes[i*32+k])` for 32 bytes starting at `off`. -/
def sumWord16 (b : List UInt8) (off : Nat) : Nat → Nat → Int16 → Go Int16
  | 0, _, temp => .ok temp
  | m + 1, k, temp => do
    let x ← idx b (off + k)
    sumWord16 b off m (k + 1) (temp + Int16.ofNat x.toNat)

/-- falcon.go:532-534 and 541-543: `temp += uint8(inputBytes[...])` for 32 bytes starting at `off`. -/
def sumWord8 (b : List UInt8) (off : Nat) : Nat → Nat → UInt8 → Go UInt8
  | 0, _, temp => .ok temp
  | m + 1, k, temp => do
    let x ← idx b (off + k)
    sumWord8 b off m (k + 1) (temp + x)

/-- falcon.go:512-525: the coefficients of `h`; each takes the words `i` and `i+1`. `m` is the number of coefficients left. -/
def readKey (b : List UInt8) : Nat → Nat → Go (List Int16)
  | 0, _ => .ok []
  | m + 1, i => do
    let temp ← sumWord16 b (i * 32) 32 0 0
    let temp ← sumWord16 b ((i + 1) * 32) 32 0 (temp <<< 8)
    let r ← readKey b m (i + 2)
    pure (temp :: r)

/-- falcon.go:530-536 and 539-545: `m` bytes, one per word, from word `i` on. -/
def readBytes (b : List UInt8) : Nat → Nat → Go (List UInt8)
  | 0, _ => .ok []
  | m + 1, i => do
    let temp ← sumWord8 b (i * 32) 32 0 0
    let r ← readBytes b m (i + 1)
    pure (temp :: r)

/-- falcon.go:503-591 `VerifyBytes`. -/
def VerifyBytes (xof : Xof) (fuel : Nat) (inputBytes : List UInt8) : Go Bool := do
  let h ← readKey inputBytes 512 0
  let message ← readBytes inputBytes 32 1024
  let signature ← readBytes inputBytes 666 (1024 + 32)
  let r ← slice signature HeadLen (HeadLen + SaltLen)
  let s ← slice signature (HeadLen + SaltLen) signature.length
  verifyBody xof fuel h message r s

end Falcon
