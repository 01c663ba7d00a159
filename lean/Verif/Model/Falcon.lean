import Verif.Model.Keygen
import Verif.Model.Ffsampling
import Verif.Model.Params
/-!
# Model of the key functions of `src/falcon.go`

Printing (`fmt.Printf`, `log.Println`) has no effect on results and is not modelled. A `*PrivateKey` or `*PublicKey` is an `Option`, `none` being nil.
-/

namespace Falcon

/-- falcon.go:16-21: the errors of the key functions. -/
inductive KeyErr where
  | invalidDegree
  | invalidPolysLength
  deriving DecidableEq

/-- falcon.go:133-139 `PrivateKey`. -/
structure PrivateKey where
  n : UInt16
  f : List Int16
  g : List Int16
  F : List Int16
  G : List Int16
  deriving DecidableEq

/-- falcon.go:107-110 `PublicKey`. -/
structure PublicKey where
  n : UInt16
  h : List Int16
  deriving DecidableEq

/-- falcon.go:35-38 `isValidPolysLength`; `uint16(...)` truncates the sum, `4*n` wraps and a zero divisor panics. -/
def isValidPolysLength (n : UInt16) (f g F G : List Int16) : Go Bool :=
  if 4 * n = 0 then .panic
  else .ok (UInt16.ofNat (f.length + g.length + F.length + G.length) % (4 * n) == 0)

/-- falcon.go:116-123 `GetPublicKey`; the error of `DivZq` is ignored and its result is then nil. -/
def GetPublicKey (k : PrivateKey) : Go PublicKey := do
  match ← DivZq wrap64 k.g k.f with
  | .ok h => pure ⟨k.n, h⟩
  | .error _ => pure ⟨k.n, []⟩

/-- falcon.go:147-157 `GeneratePrivateKey`, from random draw `pos` on. -/
def GeneratePrivateKey (O : FloatOps) (rand : Rand) (fuel : Nat) (n : UInt16) (pos : Nat) : Go (Except KeyErr (PrivateKey × Nat)) :=
  if !isValidDegree n then .ok (.error .invalidDegree)
  else do
    let (q, pos) ← NtruGen O rand fuel n pos
    pure (.ok (⟨n, q.f, q.g, q.F, q.G⟩, pos))

/-- falcon.go:160-175 `GetPrivateKey`. -/
def GetPrivateKey (n : UInt16) (f g F G : List Int16) : Go (Except KeyErr PrivateKey) :=
  if !isValidDegree n then .ok (.error .invalidDegree)
  else do
    if !(← isValidPolysLength n f g F G) then pure (.error .invalidPolysLength)
    else pure (.ok ⟨n, f, g, F, G⟩)

/-- falcon.go:40-49 `fft3D`. -/
def fft3D (O : FloatOps) (p : List (List (List O.F))) : Go (List (List (List O.C))) :=
  p.mapM fun row => row.mapM (FFT O)

/-- falcon.go:54-65 `basisAndMatrix`: the pair `(B0FFT, TFFT)`. -/
def basisAndMatrix (O : FloatOps) (fuel : Nat) (f g F G : List Int16) : Go (List (List (List O.C)) × FFTtree O) := do
  let B0 := [[Int16ToFloat64 O g, Neg O (Int16ToFloat64 O f)], [Int16ToFloat64 O G, Neg O (Int16ToFloat64 O F)]]
  let G0 ← Gram O B0
  let B0FFT ← fft3D O B0
  let G0FFT ← fft3D O G0
  let T ← FfldlFFT O fuel ⟨[], [], []⟩ G0FFT
  pure (B0FFT, T)

/-- falcon.go:102-103, the writes to `tree[0][0]` and `tree[0][1]`. -/
def normalizeLeaf (O : FloatOps) (t0 : List O.C) (sigma : O.F) : Go (List O.C) := do
  let t00 ← idx t0 0
  let _ ← idx t0 1
  pure ((t0.set 0 (O.cplx (O.div sigma (O.sqrt (O.re t00))) (O.lit 0))).set 1 (O.cplx (O.lit 0) (O.lit 0)))

/-- falcon.go:95-105 `normalizeTree`; the result is the tree after the in-place writes. The recursive calls of lines 99-100 are on the
two-element slices `{tree[1], nil}` and `{tree[2], nil}`, so they take the `else` branch and write to `tree[1]` and `tree[2]`. The three
vectors are assumed not to share memory; C88 has the general case. -/
def normalizeTree (O : FloatOps) (tree : List (List O.C)) (sigma : O.F) : Go (List (List O.C)) :=
  if tree.length = 3 then do
    let t1 ← idx tree 1
    let t1 ← normalizeLeaf O t1 sigma
    let t2 ← idx tree 2
    let t2 ← normalizeLeaf O t2 sigma
    pure ((tree.set 1 t1).set 2 t2)
  else do
    let t0 ← idx tree 0
    let t0 ← normalizeLeaf O t0 sigma
    pure (tree.set 0 t0)

/-- falcon.go:178-196 `NewKeyPair`: the named result `pubKey` is never assigned and stays nil; the error of `DivZq` is dropped. -/
def NewKeyPair (O : FloatOps) (rand : Rand) (fuel : Nat) (n : UInt16) (pos : Nat) :
    Go (Except KeyErr (Option PrivateKey × Option PublicKey)) := do
  match ← GeneratePrivateKey O rand fuel n pos with
  | .error e => pure (.error e)
  | .ok (k, _) => do
    let (_, T) ← basisAndMatrix O fuel k.f k.g k.F k.G
    let _ ← normalizeTree O (T.AllChild O) (O.lit (GetParamSet n).sigma)
    let _ ← DivZq wrap64 k.g k.f
    pure (.ok (some k, none))

/-- falcon.go:198-221 `NewKeyPairFromPrivateKey`: the named results `privKey` and `pubKey` are never assigned and stay nil. -/
def NewKeyPairFromPrivateKey (O : FloatOps) (fuel : Nat) (n : UInt16) (f g F G : List Int16) :
    Go (Except KeyErr (Option PrivateKey × Option PublicKey)) := do
  if !isValidDegree n then pure (.error .invalidDegree)
  else do
    if !(← isValidPolysLength n f g F G) then pure (.error .invalidPolysLength)
    else do
      let (_, T) ← basisAndMatrix O fuel f g F G
      let _ ← normalizeTree O (T.AllChild O) (O.lit (GetParamSet n).sigma)
      let _ ← DivZq wrap64 g f
      pure (.ok (none, none))

end Falcon
