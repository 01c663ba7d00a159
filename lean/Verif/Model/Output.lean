import Verif.Model.Falcon
/-!
# Model of what the key functions of `src/falcon.go` print

`log.Println` and `fmt.Printf` with `%v` print every `float64` with as many digits as are needed to tell it from all others, so a printed
number is modelled by its value. The functions below are those of `Model/Falcon.lean` and `Model/Ffsampling.lean`, with the lines printed by
calls that return. The sampler, `NtruGen`, the transforms and `DivZq` print nothing.
-/

namespace Falcon

/-- A printed line. -/
inductive Line (O : FloatOps) where
  /-- ffsampling.go:148, 159 `log.Println("T: ", T)`, on standard error. -/
  | tree (T : FFTtree O)
  /-- falcon.go:97 `fmt.Printf("\nnormalizeTree: sigma = %f, trees = %v", sigma, tree)`, on standard output. -/
  | normalize (sigma : O.F) (tree : List (List O.C))

variable (O : FloatOps)

/-- ffsampling.go:138-161 `FfldlFFT` with its output; the lines of the recursive calls come before the line of the node. -/
def FfldlLines : Nat → FFTtree O → List (List (List O.C)) → Go (FFTtree O × List (Line O))
  | 0, _, _ => .diverge
  | fuel + 1, T, G => do
    let g00 ← idx2 G 0 0
    let n := g00.length
    let (L, D) ← LdlFFT O G
    let l10 ← idx2 L 1 0
    let d0 ← idx2 D 0 0
    let d1 ← idx2 D 1 1
    let T := { T with Value := l10 }
    if n = 2 then do
      let T := { T with Leftchild := d0, Rightchild := d1 }
      pure (T, [.tree T])
    else do
      let s0 ← SplitFFT O d0
      let s1 ← SplitFFT O d1
      let (T, out0) ← FfldlLines fuel T [[s0.1, s0.2], [AdjFFT O s0.2, s0.1]]
      let (T, out1) ← FfldlLines fuel T [[s1.1, s1.2], [AdjFFT O s1.2, s1.1]]
      pure (T, out0 ++ out1 ++ [.tree T])

/-- falcon.go:54-65 `basisAndMatrix` with its output. -/
def basisLines (fuel : Nat) (f g F G : List Int16) : Go ((List (List (List O.C)) × FFTtree O) × List (Line O)) := do
  let B0 := [[Int16ToFloat64 O g, Neg O (Int16ToFloat64 O f)], [Int16ToFloat64 O G, Neg O (Int16ToFloat64 O F)]]
  let G0 ← Gram O B0
  let B0FFT ← fft3D O B0
  let G0FFT ← fft3D O G0
  let (T, out) ← FfldlLines O fuel ⟨[], [], []⟩ G0FFT
  pure ((B0FFT, T), out)

/-- falcon.go:95-105 `normalizeTree` with its output; the recursive calls of lines 99-100 print `{tree[1], nil}` and `{tree[2], nil}`. As in
`normalizeTree` the three vectors are assumed not to share memory. -/
def normalizeLines (tree : List (List O.C)) (sigma : O.F) : Go (List (List O.C) × List (Line O)) :=
  if tree.length = 3 then do
    let t1 ← idx tree 1
    let n1 ← normalizeLeaf O t1 sigma
    let t2 ← idx tree 2
    let n2 ← normalizeLeaf O t2 sigma
    pure ((tree.set 1 n1).set 2 n2, [.normalize sigma tree, .normalize sigma [t1, []], .normalize sigma [t2, []]])
  else do
    let t0 ← idx tree 0
    let t0 ← normalizeLeaf O t0 sigma
    pure (tree.set 0 t0, [.normalize sigma tree])

/-- falcon.go:178-196 `NewKeyPair` with its output. -/
def NewKeyPairLines (rand : Rand) (fuel : Nat) (n : UInt16) (pos : Nat) :
    Go (Except KeyErr (Option PrivateKey × Option PublicKey) × List (Line O)) := do
  match ← GeneratePrivateKey O rand fuel n pos with
  | .error e => pure (.error e, [])
  | .ok (k, _) => do
    let ((_, T), out) ← basisLines O fuel k.f k.g k.F k.G
    let (_, out') ← normalizeLines O (T.AllChild O) (O.lit (GetParamSet n).sigma)
    let _ ← DivZq wrap64 k.g k.f
    pure (.ok (some k, none), out ++ out')

/-- falcon.go:198-221 `NewKeyPairFromPrivateKey` with its output. -/
def FromPrivateKeyLines (fuel : Nat) (n : UInt16) (f g F G : List Int16) :
    Go (Except KeyErr (Option PrivateKey × Option PublicKey) × List (Line O)) := do
  if !isValidDegree n then pure (.error .invalidDegree, [])
  else do
    if !(← isValidPolysLength n f g F G) then pure (.error .invalidPolysLength, [])
    else do
      let ((_, T), out) ← basisLines O fuel f g F G
      let (_, out') ← normalizeLines O (T.AllChild O) (O.lit (GetParamSet n).sigma)
      let _ ← DivZq wrap64 g f
      pure (.ok (none, none), out ++ out')

end Falcon
