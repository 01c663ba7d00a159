import Verif.Model.Slice
/-!
# The memory accesses of a run

What an observer of the cache sees of a call in the slice model: which elements of which `[]int16` arrays, and which elements of the table `inv_mod_q`,
are accessed in which order. Not part of the trace: the tables of roots, which are read at indices that depend on lengths only, local variables, and
which branch `Pmod` takes (`Model/Branch.lean`).
-/

namespace Falcon.Sl

/-- One access. -/
inductive Access where
  | make (len : Nat)
  | load (a i : Nat)
  | store (a i : Nat)
  | look (i : Int)
  deriving DecidableEq

/-- The accesses of a run from the memory `m`. -/
def trace {α : Type} : MM α → Mem → List Access
  | .done _, _ => []
  | .make l k, m => .make l.length :: trace (k m.next) (m.push l)
  | .load a i k, m => .load a i :: match (m.arr a)[i]? with
    | some v => trace (k v) m
    | none => []
  | .store a i v k, m => .store a i :: trace k (m.setArr a ((m.arr a).set i v))
  | .look i k, m => .look i :: match invAt i with
    | .ok v => trace (k v) m
    | _ => []

end Falcon.Sl
