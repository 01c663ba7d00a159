/-!
# Specification of hash-to-point
-/

namespace Falcon.Spec

/-- The first `N` big-endian two-byte samples of a byte stream, from position `pos`. -/
def samples (s : Nat → UInt8) (pos N : Nat) : List Nat :=
  (List.range N).map fun i => 256 * (s (pos + 2 * i)).toNat + (s (pos + 2 * i + 1)).toNat

/-- The samples below `5q`. -/
def accepted (s : Nat → UInt8) (pos N : Nat) : List Nat := (samples s pos N).filter fun e => e < 5 * 12289

end Falcon.Spec
