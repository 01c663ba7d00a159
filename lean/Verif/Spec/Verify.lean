import Verif.Spec.Poly
import Verif.Spec.Code
/-!
# Specification of Falcon-512 verification
-/

namespace Falcon.Spec

open Polynomial

/-- Squared Euclidean norm. -/
def normSq (v : List Int) : Nat := (v.map fun x => x.natAbs ^ 2).sum

/-- The polynomial over Z_q of an integer vector. -/
noncomputable def polyI (s : List Int) : Zq[X] := poly (s.map fun x : Int => (x : Zq))

/-- The value of an integer after conversion to 16 bits (two's complement). -/
def narrow (x : Int) : Int := x.bmod 65536

/-- `s0 + s1*h = c` modulo `x^n+1` and `q`. -/
def SigEq (n : Nat) (c h : List Int16) (s1 s0 : List Int) : Prop :=
  (X ^ n + 1 : Zq[X]) ∣ polyI s0 + polyI s1 * polyQ h - polyQ c

/-- `s0` is the centred representative of `c - s1*h` modulo `x^n+1` and `q`. -/
def IsResidual (n : Nat) (c h : List Int16) (s1 s0 : List Int) : Prop :=
  s0.length = n ∧ (∀ x ∈ s0, -6144 ≤ x ∧ x ≤ 6144) ∧ SigEq n c h s1 s0

/-- The byte string `x` carries the 512 coefficients `s` in at most 625 bytes. -/
def Decodes (x : List UInt8) (s : List Int) : Prop :=
  x.length ≤ 625 ∧ (∃ b ∈ x, b ≠ 0) ∧ s.length = 512 ∧ code s <+: bytesBits x

/-- The acceptance bound of Falcon-512. -/
def sigBound : Nat := 34034726

/-- A byte as a 32-byte big-endian word. -/
def word (b : UInt8) : List UInt8 := List.replicate 31 0 ++ [b]

/-- A byte string as 32-byte words, one per byte. -/
def packWords (l : List UInt8) : List UInt8 := l.flatMap word

/-- A 16-bit coefficient as two words: high byte, low byte (two's complement). -/
def packCoef (x : Int16) : List UInt8 :=
  word (UInt8.ofNat ((x.toInt % 65536).toNat / 256)) ++ word (UInt8.ofNat ((x.toInt % 65536).toNat % 256))

/-- A public key as words. -/
def packKey (h : List Int16) : List UInt8 := h.flatMap packCoef

end Falcon.Spec
