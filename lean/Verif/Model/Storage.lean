import Verif.Model.Falcon
/-!
# Slices of floating-point numbers as references to arrays

`Model/Fft.lean`, `Model/Ffsampling.lean` and `Model/Falcon.lean` treat `[]float64` and `[]complex128` as lists. Here a slice refers to a part of an
array and stores are made element by element, so that it is visible which slices share storage (C87). The outer slices of `[][]complex128` and
`[][][]complex128` values are only read after they were made and remain lists. No slice expression other than `s[:]` and no `append` occurs in this
code, so capacities are left out.
-/

namespace Falcon.St

variable (O : FloatOps)

/-- The arrays of `complex128` and of `float64`; the numbers from `next` on are free. -/
structure Mem where
  next : Nat
  cs : Nat → List O.C
  fs : Nat → List O.F

/-- `f` with the value `l` at `a`. -/
def upd {α : Type} (f : Nat → α) (a : Nat) (l : α) : Nat → α := fun b => if b = a then l else f b

/-- The two types of elements (fft.go uses `[]float64` and `[]complex128`), with Go's zero value. -/
class Elem (O : FloatOps) (E : Type) where
  zero : E
  get : Mem O → Nat → List E
  set : Mem O → Nat → List E → Mem O

instance complexElem : Elem O O.C := ⟨O.cplx (O.lit 0) (O.lit 0), fun m => m.cs, fun m a l => { m with cs := upd m.cs a l }⟩

instance floatElem : Elem O O.F := ⟨O.lit 0, fun m => m.fs, fun m a l => { m with fs := upd m.fs a l }⟩

/-- A slice: the array, the position of its first element in it, and its length (Go spec "Slice types"). -/
structure Slice (E : Type) where
  id : Nat
  off : Nat
  len : Nat
  deriving DecidableEq

/-- The nil slice. -/
def nil {E : Type} : Slice E := ⟨0, 0, 0⟩

/-- Code that reads and writes arrays. -/
abbrev H (α : Type) := StateT (Mem O) Go α

variable {O}

/-- The elements of a slice. -/
def read {E : Type} [Elem O E] (m : Mem O) (s : Slice E) : List E := ((Elem.get m s.id).drop s.off).take s.len

/-- The memory with a further array. -/
def Mem.push {E : Type} [Elem O E] (m : Mem O) (l : List E) : Mem O := { Elem.set m m.next l with next := m.next + 1 }

/-- A computation that does not use arrays. -/
def run {α : Type} (x : Go α) : H O α := fun m => x >>= fun a => .ok (a, m)

/-- `make([]E, n)`. -/
def make {E : Type} [Elem O E] (n : Nat) : H O (Slice E) := fun m => .ok (⟨m.next, 0, n⟩, m.push (List.replicate n (Elem.zero O : E)))

/-- A slice literal: a new array with the given elements. -/
def lits {E : Type} [Elem O E] (l : List E) : H O (Slice E) := fun m => .ok (⟨m.next, 0, l.length⟩, m.push l)

/-- `s[i]` on the right of an assignment. -/
def load {E : Type} [Elem O E] (s : Slice E) (i : Nat) : H O E := fun m => idx (read m s) i >>= fun v => .ok (v, m)

/-- `s[i] = v`. -/
def store {E : Type} [Elem O E] (s : Slice E) (i : Nat) (v : E) : H O Unit := fun m =>
  if i < s.len then .ok ((), Elem.set m s.id ((Elem.get m s.id).set (s.off + i) v)) else .panic

/-- `for i := i; i < i+j; i++ { body(i) }`. -/
def forLoop (body : Nat → H O Unit) : Nat → Nat → H O Unit
  | 0, _ => pure ()
  | j + 1, i => do
    body i
    forLoop body j (i + 1)

/-! ### `src/util/util.go` -/

/-- util.go:349-365 `SplitPolysFloat64`, one iteration. -/
def splitPolysBody (f f0 f1 : Slice O.F) (i : Nat) : H O Unit := do
  let x ← load f (2 * i)
  store f0 i x
  let y ← load f (2 * i + 1)
  store f1 i y

/-- util.go:349-365 `SplitPolysFloat64`. -/
def SplitPolysFloat64 (f : Slice O.F) : H O (Slice O.F × Slice O.F) := do
  let f0 ← make (f.len / 2)
  let f1 ← make (f.len / 2)
  forLoop (splitPolysBody f f0 f1) (f.len / 2) 0
  pure (f0, f1)

/-- util.go:384-397 `MergePolysfloat64`, one iteration. -/
def mergePolysBody (f0 f1 f : Slice O.F) (i : Nat) : H O Unit := do
  let x ← load f0 i
  store f (2 * i) x
  let y ← load f1 i
  store f (2 * i + 1) y

/-- util.go:384-397 `MergePolysfloat64`. -/
def MergePolysfloat64 (f0 f1 : Slice O.F) : H O (Slice O.F) := do
  let f ← make (2 * f0.len)
  forLoop (mergePolysBody f0 f1 f) f0.len 0
  pure f

/-- util.go `Int16ToFloat64`, a new slice (see `Int16ToFloat64` in Model/Util.lean for the lines; the argument is a list of numbers). -/
def Int16ToFloat64 (f : List Int16) : H O (Slice O.F) := lits (Falcon.Int16ToFloat64 O f)

/-! ### `src/internal/transforms/fft/fft.go` -/

/-- fft.go:41-53, one iteration of `SplitFFT`. -/
def splitFFTBody (f f0 f1 : Slice O.C) (i : Nat) : H O Unit := do
  let x ← load f (2 * i)
  let y ← load f (2 * i + 1)
  store f0 i (O.cmul (O.cadd x y) O.half)
  let x ← load f (2 * i)
  let y ← load f (2 * i + 1)
  let w ← run (O.rootAt f.len (2 * i))
  store f1 i (O.cmul (O.cmul (O.csub x y) O.half) (O.conj w))

/-- fft.go:31-55 `SplitFFT`. -/
def SplitFFT (f : Slice O.C) : H O (Slice O.C × Slice O.C) := do
  let f0 ← make (f.len / 2)
  let f1 ← make (f.len / 2)
  forLoop (splitFFTBody f f0 f1) (f.len / 2) 0
  pure (f0, f1)

/-- fft.go:70-84, one iteration of `MergeFFT`. -/
def mergeFFTBody (f0 f1 f : Slice O.C) (i : Nat) : H O Unit := do
  let x ← load f0 i
  let y ← load f1 i
  let w ← run (O.rootAt (2 * f0.len) (2 * i))
  store f (2 * i) (O.cadd (O.cmul w y) x)
  let w ← run (O.rootAt (2 * f0.len) (2 * i))
  store f (2 * i + 1) (O.csub x (O.cmul w y))

/-- fft.go:61-87 `MergeFFT`. -/
def MergeFFT (fl : Slice O.C × Slice O.C) : H O (Slice O.C) := do
  let f ← make (2 * fl.1.len)
  forLoop (mergeFFTBody fl.1 fl.2 f) fl.1.len 0
  pure f

/-- fft.go:92-115 `FFT`; the first number bounds the depth of the recursion, which is at most the length. -/
def fftAux : Nat → Slice O.F → H O (Slice O.C)
  | 0, _ => run .diverge
  | fuel + 1, f =>
    if f.len > 2 then do
      let s ← SplitPolysFloat64 f
      let a ← fftAux fuel s.1
      let b ← fftAux fuel s.2
      MergeFFT (a, b)
    else if f.len = 2 then do
      let tmp ← make 2
      let x ← load f 0
      let y ← load f 1
      let cf0 := O.cplx x (O.lit 0)
      let cf1 := O.cplx y (O.lit 0)
      let a := O.cmul O.I cf1
      store tmp 0 (O.cadd cf0 a)
      store tmp 1 (O.csub cf0 a)
      pure tmp
    else pure nil

/-- fft.go:92-115 `FFT`. -/
def FFT (f : Slice O.F) : H O (Slice O.C) := fftAux (f.len + 1) f

/-- fft.go:120-138 `IFFT`; the first number bounds the depth of the recursion. -/
def ifftAux : Nat → Slice O.C → H O (Slice O.F)
  | 0, _ => run .diverge
  | fuel + 1, f =>
    if f.len > 2 then do
      let s ← SplitFFT f
      let a ← ifftAux fuel s.1
      let b ← ifftAux fuel s.2
      MergePolysfloat64 a b
    else if f.len = 2 then do
      let tmp ← make f.len
      let x ← load f 0
      store tmp 0 (O.re x)
      let x ← load f 0
      store tmp 1 (O.im x)
      pure tmp
    else pure nil

/-- fft.go:120-138 `IFFT`. -/
def IFFT (f : Slice O.C) : H O (Slice O.F) := ifftAux (f.len + 1) f

/-- One iteration of the loops that combine `f[i]` and `g[i]`: fft.go:147-150, 161-164, 197-200, 236-239. -/
def zipBody {E : Type} [Elem O E] (op : E → E → E) (f g res : Slice E) (i : Nat) : H O Unit := do
  let x ← load f i
  let y ← load g i
  store res i (op x y)

/-- One iteration of the loops that change each `f[i]`: fft.go:177-179, 208-211, 218-221. -/
def mapBody {E : Type} [Elem O E] (op : E → E) (f res : Slice E) (i : Nat) : H O Unit := do
  let x ← load f i
  store res i (op x)

/-- fft.go:141-152, 155-166, 191-202: the code shared by `Add`, `AddFFT` and `DivFFT`. -/
def zipSame {E : Type} [Elem O E] (op : E → E → E) (f g : Slice E) : H O (Slice E) := do
  let res ← make f.len
  if f.len ≠ g.len then run .panic
  else do
    forLoop (zipBody op f g res) f.len 0
    pure res

/-- fft.go:174-181, 205-213, 215-223: the code shared by `AdjFFT`, `Neg` and `NegFFT`. -/
def mapAll {E : Type} [Elem O E] (op : E → E) (f : Slice E) : H O (Slice E) := do
  let res ← make f.len
  forLoop (mapBody op f res) f.len 0
  pure res

/-- fft.go:141-152 `Add`. -/
def Add (f g : Slice O.F) : H O (Slice O.F) := zipSame O.add f g

/-- fft.go:155-166 `AddFFT`. -/
def AddFFT (f g : Slice O.C) : H O (Slice O.C) := zipSame O.cadd f g

/-- fft.go:174-181 `AdjFFT`. -/
def AdjFFT (f : Slice O.C) : H O (Slice O.C) := mapAll O.conj f

/-- fft.go:169-171 `Adj`. -/
def Adj (f : Slice O.F) : H O (Slice O.F) := do
  let a ← FFT f
  let a ← AdjFFT a
  IFFT a

/-- fft.go:191-202 `DivFFT`. -/
def DivFFT (f g : Slice O.C) : H O (Slice O.C) := zipSame O.cdiv f g

/-- fft.go:184-188 `Div`. -/
def Div (f g : Slice O.F) : H O (Slice O.F) := do
  let ft ← FFT f
  let gt ← FFT g
  let d ← DivFFT ft gt
  IFFT d

/-- fft.go:205-213 `Neg`. -/
def Neg (f : Slice O.F) : H O (Slice O.F) := mapAll O.neg f

/-- fft.go:215-223 `NegFFT`. -/
def NegFFT (f : Slice O.C) : H O (Slice O.C) := mapAll O.cneg f

/-- fft.go:233-241 `MulFFT`. -/
def MulFFT (f g : Slice O.C) : H O (Slice O.C) := do
  let res ← make f.len
  forLoop (zipBody O.cmul f g res) f.len 0
  pure res

/-- fft.go:226-230 `Mul`. -/
def Mul (f g : Slice O.F) : H O (Slice O.F) := do
  let ft ← FFT f
  let gt ← FFT g
  let p ← MulFFT ft gt
  IFFT p

/-- fft.go:244-247 `Sub`. -/
def Sub (f g : Slice O.F) : H O (Slice O.F) := do
  let g ← Neg g
  Add f g

/-- fft.go:250-253 `SubFFT`. -/
def SubFFT (f g : Slice O.C) : H O (Slice O.C) := do
  let g ← NegFFT g
  AddFFT f g

/-! ### `src/internal/ffsampling.go` -/

/-- ffsampling.go:50-52: the inner loop of `Gram` over `k`. -/
def gramCell (B : List (List (Slice O.F))) (i j : Nat) : Nat → Nat → Slice O.F → H O (Slice O.F)
  | 0, _, acc => pure acc
  | m + 1, k, acc => do
    let bik ← run (idx2 B i k)
    let bjk ← run (idx2 B j k)
    let adj ← Adj bjk
    let p ← Mul bik adj
    let acc ← Add acc p
    gramCell B i j m (k + 1) acc

/-- ffsampling.go:44-46 and 49-53: the loop over `j`. The array `G[i][j]` of line 45 is made just before it is used first. -/
def gramRow (B : List (List (Slice O.F))) (ncols deg i : Nat) : Nat → Nat → H O (List (Slice O.F))
  | 0, _ => pure []
  | m + 1, j => do
    let g ← make deg
    let c ← gramCell B i j ncols 0 g
    let r ← gramRow B ncols deg i m (j + 1)
    pure (c :: r)

/-- ffsampling.go:48-54: the loop over `i`. -/
def gramRows (B : List (List (Slice O.F))) (ncols deg : Nat) : Nat → Nat → H O (List (List (Slice O.F)))
  | 0, _ => pure []
  | m + 1, i => do
    let c ← gramRow B ncols deg i B.length 0
    let r ← gramRows B ncols deg m (i + 1)
    pure (c :: r)

/-- ffsampling.go:32-58 `Gram`. -/
def Gram (B : List (List (Slice O.F))) : H O (List (List (Slice O.F))) := do
  let b0 ← run (idx B 0)
  let b00 ← run (idx b0 0)
  gramRows B b0.length b00.len B.length 0

/-- ffsampling.go:97-99, one iteration. -/
def oneBody (one : Slice O.C) (i : Nat) : H O Unit := store one i (O.cplx (O.lit 1) (O.lit 0))

/-- ffsampling.go:96-99, the polynomial `one`. -/
def ones (deg : Nat) : H O (Slice O.C) := do
  let one ← make deg
  forLoop (oneBody one) deg 0
  pure one

/-- ffsampling.go:85-108 `LdlFFT`; `G[0][0][:]` of line 102 is the same slice as `G[0][0]`. -/
def LdlFFT (G : List (List (Slice O.C))) : H O (List (List (Slice O.C)) × List (List (Slice O.C))) := do
  let g00 ← run (idx2 G 0 0)
  let deg := g00.len
  let g0 ← run (idx G 0)
  if G.length ≠ 2 ∨ G.length ≠ g0.length then run .panic
  else do
    let zero ← make deg
    let one ← ones deg
    let g10 ← run (idx2 G 1 0)
    let L10 ← DivFFT g10 g00
    let g11 ← run (idx2 G 1 1)
    let a ← AdjFFT L10
    let p ← MulFFT L10 a
    let p ← MulFFT p g00
    let D11 ← SubFFT g11 p
    pure ([[one, zero], [L10, one]], [[g00, zero], [zero, D11]])

/-- ffsampling.go:19-23 `FFTtree`. -/
structure FFTtree (O : FloatOps) where
  Value : Slice O.C
  Leftchild : Slice O.C
  Rightchild : Slice O.C

/-- ffsampling.go:25-27 `AllChild`. -/
def FFTtree.AllChild (t : FFTtree O) : List (Slice O.C) := [t.Leftchild, t.Rightchild]

/-- The numbers of a tree. -/
def FFTtree.value (m : Mem O) (t : FFTtree O) : Falcon.FFTtree O := ⟨read m t.Value, read m t.Leftchild, read m t.Rightchild⟩

/-- ffsampling.go:138-161 `FfldlFFT`; the receiver is the state of the recursion, as in Model/Ffsampling.lean. -/
def FfldlFFT : Nat → FFTtree O → List (List (Slice O.C)) → H O (FFTtree O)
  | 0, _, _ => run .diverge
  | fuel + 1, T, G => do
    let g00 ← run (idx2 G 0 0)
    let n := g00.len
    let (L, D) ← LdlFFT G
    let l10 ← run (idx2 L 1 0)
    let d0 ← run (idx2 D 0 0)
    let d1 ← run (idx2 D 1 1)
    let T := { T with Value := l10 }
    if n = 2 then pure { T with Leftchild := d0, Rightchild := d1 }
    else do
      let s0 ← SplitFFT d0
      let s1 ← SplitFFT d1
      let a0 ← AdjFFT s0.2
      let a1 ← AdjFFT s1.2
      let T ← FfldlFFT fuel T [[s0.1, s0.2], [a0, s0.1]]
      FfldlFFT fuel T [[s1.1, s1.2], [a1, s1.1]]

/-- ffsampling.go:250-273 `FfSamplingFFT`. -/
def FfSamplingFFT (rand : Rand) (T : FFTtree O) (sigmin : O.F) : Nat → Slice O.C × Slice O.C → Nat → H O ((Slice O.C × Slice O.C) × Nat)
  | 0, _, _ => run .diverge
  | fuel + 1, t, pos => do
    let z0 ← lits [O.cplx (O.lit 0) (O.lit 0)]
    let z1 ← lits [O.cplx (O.lit 0) (O.lit 0)]
    let n := t.1.len
    if n > 1 then do
      let s ← SplitFFT t.2
      let (u, pos) ← FfSamplingFFT rand T sigmin fuel s pos
      let z1 ← MergeFFT u
      let d ← SubFFT t.2 z1
      let m ← MulFFT d T.Value
      let t0b ← AddFFT t.1 m
      let s ← SplitFFT t0b
      let (u, pos) ← FfSamplingFFT rand T sigmin fuel s pos
      let z0 ← MergeFFT u
      pure ((z0, z1), pos)
    else if n = 1 then do
      let t0 ← load t.1 0
      let v ← load T.Value 0
      let (a, pos) ← run (Samplerz O rand (O.re t0) (O.re v) sigmin (fuel + 1) pos)
      let z0 ← lits [O.cplx (O.ofInt a.toInt) (O.lit 0)]
      let t1 ← load t.2 0
      let v ← load T.Value 0
      let (b, pos) ← run (Samplerz O rand (O.re t1) (O.re v) sigmin (fuel + 1) pos)
      let z1 ← lits [O.cplx (O.ofInt b.toInt) (O.lit 0)]
      pure ((z0, z1), pos)
    else pure ((z0, z1), pos)

/-! ### `src/falcon.go` -/

/-- falcon.go:43-46: the loop over a row of the matrix in `fft3D`. -/
def fftRow : List (Slice O.F) → H O (List (Slice O.C))
  | [] => pure []
  | f :: row => do
    let a ← FFT f
    let r ← fftRow row
    pure (a :: r)

/-- falcon.go:40-49 `fft3D`. -/
def fft3D : List (List (Slice O.F)) → H O (List (List (Slice O.C)))
  | [] => pure []
  | row :: p => do
    let a ← fftRow row
    let r ← fft3D p
    pure (a :: r)

/-- falcon.go:54-65 `basisAndMatrix`. -/
def basisAndMatrix (fuel : Nat) (f g F G : List Int16) : H O (List (List (Slice O.C)) × FFTtree O) := do
  let g ← Int16ToFloat64 g
  let f ← Int16ToFloat64 f
  let f ← Neg f
  let G ← Int16ToFloat64 G
  let F ← Int16ToFloat64 F
  let F ← Neg F
  let B0 := [[g, f], [G, F]]
  let G0 ← Gram B0
  let B0FFT ← fft3D B0
  let G0FFT ← fft3D G0
  let T ← FfldlFFT fuel ⟨nil, nil, nil⟩ G0FFT
  pure (B0FFT, T)

/-- falcon.go:102-103, the writes to `tree[0][0]` and `tree[0][1]`. -/
def normalizeLeaf (t0 : Slice O.C) (sigma : O.F) : H O Unit := do
  let t00 ← load t0 0
  store t0 0 (O.cplx (O.div sigma (O.sqrt (O.re t00))) (O.lit 0))
  store t0 1 (O.cplx (O.lit 0) (O.lit 0))

/-- falcon.go:95-105 `normalizeTree`, in place. -/
def normalizeTree (tree : List (Slice O.C)) (sigma : O.F) : H O Unit :=
  if tree.length = 3 then do
    let t1 ← run (idx tree 1)
    normalizeLeaf t1 sigma
    let t2 ← run (idx tree 2)
    normalizeLeaf t2 sigma
  else do
    let t0 ← run (idx tree 0)
    normalizeLeaf t0 sigma

end Falcon.St
