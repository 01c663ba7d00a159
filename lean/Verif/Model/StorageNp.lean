import Verif.Model.Storage
/-!
# `FfnpFFT` of `src/internal/ffsampling.go` on slices that can share storage
-/

namespace Falcon.St

variable {O : FloatOps}

/-- The values of type `[]interface{}` as in `Falcon.NpTree`; the vectors of the nodes are slices. -/
inductive NpTree (O : FloatOps) where
  | node (l10 : Slice O.C) (T0 T1 : NpTree O)
  | other

/-- The numbers of a tree. -/
def NpTree.value (m : Mem O) : NpTree O → Falcon.NpTree O
  | .node l10 T0 T1 => .node (read m l10) (T0.value m) (T1.value m)
  | .other => .other

/-- ffsampling.go:211-228 `FfnpFFT`, with the two vectors that line 214 makes. -/
def FfnpFFT : NpTree O → Slice O.C × Slice O.C → H O (Option (Slice O.C × Slice O.C))
  | .other, t => do
    let _ ← lits [O.cplx (O.lit 0) (O.lit 0)]
    let _ ← lits [O.cplx (O.lit 0) (O.lit 0)]
    let n := t.1.len
    if n > 1 then run .panic
    else if n = 1 then do
      let t0 ← load t.1 0
      let z0 ← lits [O.cplx (O.round (O.re t0)) (O.lit 0)]
      let t1 ← load t.2 0
      let z1 ← lits [O.cplx (O.round (O.re t1)) (O.lit 0)]
      pure (some (z0, z1))
    else pure none
  | .node l10 T0 T1, t => do
    let _ ← lits [O.cplx (O.lit 0) (O.lit 0)]
    let _ ← lits [O.cplx (O.lit 0) (O.lit 0)]
    let n := t.1.len
    if n > 1 then do
      let s ← SplitFFT t.2
      match ← FfnpFFT T1 s with
      | none => run .panic
      | some u => do
        let z1 ← MergeFFT u
        let d ← SubFFT t.2 z1
        let p ← MulFFT d l10
        let t0b ← AddFFT t.1 p
        let s ← SplitFFT t0b
        match ← FfnpFFT T0 s with
        | none => run .panic
        | some u => do
          let z0 ← MergeFFT u
          pure (some (z0, z1))
    else if n = 1 then do
      let t0 ← load t.1 0
      let z0 ← lits [O.cplx (O.round (O.re t0)) (O.lit 0)]
      let t1 ← load t.2 0
      let z1 ← lits [O.cplx (O.round (O.re t1)) (O.lit 0)]
      pure (some (z0, z1))
    else pure none

end Falcon.St
