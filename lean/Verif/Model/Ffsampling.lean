import Verif.Model.Fft
import Verif.Model.Samplerz
/-!
# Model of `src/internal/ffsampling.go`
-/

namespace Falcon

variable (O : FloatOps)

/-- `m[i][j]` for a matrix stored as a slice of slices. -/
def idx2 {α : Type u} (m : List (List α)) (i j : Nat) : Go α := do
  let row ← idx m i
  idx row j

/-- ffsampling.go:50-52: the inner loop of `Gram` over `k`, `m` iterations left. -/
def gramCell (B : List (List (List O.F))) (i j : Nat) : Nat → Nat → List O.F → Go (List O.F)
  | 0, _, acc => .ok acc
  | m + 1, k, acc => do
    let bik ← idx2 B i k
    let bjk ← idx2 B j k
    let adj ← Adj O bjk
    let p ← Mul O bik adj
    let acc ← Add O acc p
    gramCell B i j m (k + 1) acc

/-- ffsampling.go:49-53: the loop over `j`, `m` iterations left. -/
def gramRow (B : List (List (List O.F))) (ncols deg i : Nat) : Nat → Nat → Go (List (List O.F))
  | 0, _ => .ok []
  | m + 1, j => do
    let c ← gramCell O B i j ncols 0 (List.replicate deg (O.lit 0))
    let r ← gramRow B ncols deg i m (j + 1)
    pure (c :: r)

/-- ffsampling.go:48-54: the loop over `i`, `m` iterations left. -/
def gramRows (B : List (List (List O.F))) (ncols deg : Nat) : Nat → Nat → Go (List (List (List O.F)))
  | 0, _ => .ok []
  | m + 1, i => do
    let c ← gramRow O B ncols deg i B.length 0
    let r ← gramRows B ncols deg m (i + 1)
    pure (c :: r)

/-- ffsampling.go:32-58 `Gram`. -/
def Gram (B : List (List (List O.F))) : Go (List (List (List O.F))) := do
  let b0 ← idx B 0
  let b00 ← idx b0 0
  gramRows O B b0.length b00.length B.length 0

/-- ffsampling.go:85-108 `LdlFFT`; the result is the pair `(L, D)`. -/
def LdlFFT (G : List (List (List O.C))) : Go (List (List (List O.C)) × List (List (List O.C))) := do
  let g00 ← idx2 G 0 0
  let deg := g00.length
  let g0 ← idx G 0
  if G.length ≠ 2 ∨ G.length ≠ g0.length then .panic
  else do
    let zero := List.replicate deg (O.cplx (O.lit 0) (O.lit 0))
    let one := List.replicate deg (O.cplx (O.lit 1) (O.lit 0))
    let g10 ← idx2 G 1 0
    let L10 ← DivFFT O g10 g00
    let g11 ← idx2 G 1 1
    let p ← MulFFT O L10 (AdjFFT O L10)
    let p ← MulFFT O p g00
    let D11 ← SubFFT O g11 p
    pure ([[one, zero], [L10, one]], [[g00, zero], [zero, D11]])

/-- ffsampling.go:19-23 `FFTtree`. -/
structure FFTtree where
  Value : List O.C
  Leftchild : List O.C
  Rightchild : List O.C

/-- ffsampling.go:25-27 `AllChild`. -/
def FFTtree.AllChild (t : FFTtree O) : List (List O.C) := [t.Leftchild, t.Rightchild]

/-- ffsampling.go:138-161 `FfldlFFT`: the receiver `T` is a pointer shared by the recursive calls, so the state is threaded
through. `fuel` bounds the recursion depth. `SplitFFT` of a length below 2 gives two empty slices, on which the recursion never ends. -/
def FfldlFFT : Nat → FFTtree O → List (List (List O.C)) → Go (FFTtree O)
  | 0, _, _ => .diverge
  | fuel + 1, T, G => do
    let g00 ← idx2 G 0 0
    let n := g00.length
    let (L, D) ← LdlFFT O G
    let l10 ← idx2 L 1 0
    let d0 ← idx2 D 0 0
    let d1 ← idx2 D 1 1
    let T := { T with Value := l10 }
    if n = 2 then pure { T with Leftchild := d0, Rightchild := d1 }
    else do
      let s0 ← SplitFFT O d0
      let s1 ← SplitFFT O d1
      let T ← FfldlFFT fuel T [[s0.1, s0.2], [AdjFFT O s0.2, s0.1]]
      FfldlFFT fuel T [[s1.1, s1.2], [AdjFFT O s1.2, s1.1]]

/-- ffsampling.go:250-273 `FfSamplingFFT`; `T` is not modified. `fuel` bounds the recursion depth and the loops of `Samplerz`; `pos` is
the number of the next random draw. The two vectors of `t` are a pair. -/
def FfSamplingFFT (rand : Rand) (T : FFTtree O) (sigmin : O.F) :
    Nat → List O.C × List O.C → Nat → Go ((List O.C × List O.C) × Nat)
  | 0, _, _ => .diverge
  | fuel + 1, t, pos =>
    let n := t.1.length
    if n > 1 then do
      let s ← SplitFFT O t.2
      let (u, pos) ← FfSamplingFFT rand T sigmin fuel s pos
      let z1 ← MergeFFT O u
      let d ← SubFFT O t.2 z1
      let m ← MulFFT O d T.Value
      let t0b ← AddFFT O t.1 m
      let s ← SplitFFT O t0b
      let (u, pos) ← FfSamplingFFT rand T sigmin fuel s pos
      let z0 ← MergeFFT O u
      pure ((z0, z1), pos)
    else if n = 1 then do
      let t0 ← idx t.1 0
      let v ← idx T.Value 0
      let (a, pos) ← Samplerz O rand (O.re t0) (O.re v) sigmin (fuel + 1) pos
      let t1 ← idx t.2 0
      let (b, pos) ← Samplerz O rand (O.re t1) (O.re v) sigmin (fuel + 1) pos
      pure (([O.cplx (O.ofInt a.toInt) (O.lit 0)], [O.cplx (O.ofInt b.toInt) (O.lit 0)]), pos)
    else pure (([O.cplx (O.lit 0) (O.lit 0)], [O.cplx (O.lit 0) (O.lit 0)]), pos)

/-- The values of type `[]interface{}`, as far as the type assertions of line 216 see them: `node` is a slice of at least three elements whose
first is a `[]complex128` and whose second and third are of type `[]interface{}`; `other` is every other `[]interface{}`, on which the
assertions (or the index) panic. -/
inductive NpTree where
  | node (l10 : List O.C) (T0 T1 : NpTree)
  | other

/-- ffsampling.go:211-228 `FfnpFFT`. The recursion of the Go code is on the tree as soon as the type assertions have succeeded.
`none` is the `nil` result for `n = 0`, which makes the caller's `MergeFFT` panic. -/
def FfnpFFT : NpTree O → List O.C × List O.C → Go (Option (List O.C × List O.C))
  | T, t =>
    if t.1.length > 1 then
      match T with
      | .other => .panic
      | .node l10 T0 T1 => do
        let s ← SplitFFT O t.2
        match ← FfnpFFT T1 s with
        | none => .panic
        | some u => do
          let z1 ← MergeFFT O u
          let d ← SubFFT O t.2 z1
          let m ← MulFFT O d l10
          let t0b ← AddFFT O t.1 m
          let s ← SplitFFT O t0b
          match ← FfnpFFT T0 s with
          | none => .panic
          | some u => do
            let z0 ← MergeFFT O u
            pure (some (z0, z1))
    else if t.1.length = 1 then do
      let t0 ← idx t.1 0
      let t1 ← idx t.2 0
      pure (some ([O.cplx (O.round (O.re t0)) (O.lit 0)], [O.cplx (O.round (O.re t1)) (O.lit 0)]))
    else .ok none

end Falcon
