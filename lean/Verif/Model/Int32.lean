import Verif.Model.Verify
import Verif.Model.Falcon
/-!
# The ring operations and `Verify` with a 32-bit `int`

In Go the size of `int` is that of the platform: 32 bits for GOARCH=386, arm, mips. The models in `Model/Ntt.lean` take the
arithmetic as a parameter `W`; here are the 32-bit instance and `Verify` over an arbitrary `W`.
-/

namespace Falcon

/-- Go's 32-bit `int` arithmetic: the result wraps. The conversions in ntt.go (`int(fNTT[a])`, `int(inv_mod_q[...])`,
`int(util.Q)`) lose nothing with 32 bits, since they start from `int16`, `uint16` and 12289. -/
def wrap32 (x : Int) : Go Int := .ok (Int.bmod x (2 ^ 32))

/-- Checked arithmetic: fails when the mathematical result does not fit in 32 bits (not Go; for stating absence of overflow). -/
def check32 (x : Int) : Go Int := if -2 ^ 31 ≤ x ∧ x < 2 ^ 31 then .ok x else .panic

/-- falcon.go:453-498 as `verifyBody` in Model/Verify.lean, with the arithmetic of `ntt.MulZq` as a parameter. Everything else is on
fixed-width types (`int16`, `uint32`, bytes) or on small `int` values: the degree 512, the length 625, the decoded coefficients
(at most 625·8·128 in absolute value), which also fit in 32 bits. -/
def verifyBodyOn (W : Int → Go Int) (xof : Xof) (fuel : Nat) (pubkey : List Int16) (message salt encS : List UInt8) : Go Bool := do
  let par := GetParamSet 512
  match ← Decompress encS (((par.sigbytelen - UInt16.ofNat HeadLen - UInt16.ofNat SaltLen).toNat : Nat) : Int) 512 with
  | .error _ => pure false
  | .ok ss1 => do
    let s1 := ss1.map Int16.ofInt
    let hashed ← hashToPoint xof fuel message salt
    let p ← MulZq W s1 pubkey
    let s0 ← SubZq hashed p
    let s0 := s0.map centre
    let normSign := addSquares (addSquares 0 s0) s1
    pure (!decide (normSign > par.sigbound))

/-- falcon.go:444-499 `Verify`, with the arithmetic of `ntt.MulZq` as a parameter; the slicing as in Model/Verify.lean. -/
def VerifyOn (W : Int → Go Int) (xof : Xof) (fuel : Nat) (pubkey : List Int16) (message signature : List UInt8) : Go Bool := do
  let salt ← slice signature HeadLen (HeadLen + SaltLen)
  let encS ← slice signature (HeadLen + SaltLen) signature.length
  verifyBodyOn W xof fuel pubkey message salt encS

/-- falcon.go:116-123 `GetPublicKey` as in Model/Falcon.lean, with the arithmetic of `ntt.DivZq` as a parameter. -/
def GetPublicKeyOn (W : Int → Go Int) (k : PrivateKey) : Go PublicKey := do
  match ← DivZq W k.g k.f with
  | .ok h => pure ⟨k.n, h⟩
  | .error _ => pure ⟨k.n, []⟩

end Falcon
