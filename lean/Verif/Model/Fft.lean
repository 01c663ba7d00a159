import Verif.Model.Float
import Verif.Model.Util
import Mathlib.Data.List.Induction
/-!
# Model of `src/internal/transforms/fft/fft.go`
-/

namespace Falcon

variable (O : FloatOps)

/-- The constant `0.5` as a complex number (fft.go:46, 50). -/
def FloatOps.half : O.C := O.cplx (O.lit (1 / 2)) (O.lit 0)

/-- The constant `1i` (fft.go:104). -/
def FloatOps.I : O.C := O.cplx (O.lit 0) (O.lit 1)

/-- fft.go:41-53, the loop of `SplitFFT`; `n` is the length of the whole input, `i` the index of the pair. -/
def splitFFTLoop (n : Nat) : Nat → List O.C → Go (List O.C × List O.C)
  | i, x :: y :: rest => do
    let w ← O.rootAt n (2 * i)
    let r ← splitFFTLoop n (i + 1) rest
    pure (O.cmul (O.cadd x y) O.half :: r.1, O.cmul (O.cmul (O.csub x y) O.half) (O.conj w) :: r.2)
  | _, _ => .ok ([], [])

/-- fft.go:31-55 `SplitFFT`; the result `[][]complex128{f0, f1}` is a pair. -/
def SplitFFT (f : List O.C) : Go (List O.C × List O.C) := splitFFTLoop O f.length 0 f

/-- fft.go:70-84, the loop of `MergeFFT`; `f1_fft[i]` panics when `f1` is shorter than `f0`. -/
def mergeFFTLoop (n : Nat) : Nat → List O.C → List O.C → Go (List O.C)
  | _, [], _ => .ok []
  | _, _ :: _, [] => .panic
  | i, a :: f0, b :: f1 => do
    let w ← O.rootAt n (2 * i)
    let r ← mergeFFTLoop n (i + 1) f0 f1
    pure (O.cadd (O.cmul w b) a :: O.csub a (O.cmul w b) :: r)

/-- fft.go:61-87 `MergeFFT`. -/
def MergeFFT (f : List O.C × List O.C) : Go (List O.C) := mergeFFTLoop O (2 * f.1.length) 0 f.1 f.2

theorem splitPolys_length1 {α : Type*} (f : List α) : (splitPolys f).1.length = f.length / 2 := by
  induction f using List.twoStepInduction with
  | nil => simp [splitPolys]
  | singleton x => simp [splitPolys]
  | cons_cons x y f ih _ => simp [splitPolys, ih]; omega

theorem splitPolys_length2 {α : Type*} (f : List α) : (splitPolys f).2.length = f.length / 2 := by
  induction f using List.twoStepInduction with
  | nil => simp [splitPolys]
  | singleton x => simp [splitPolys]
  | cons_cons x y f ih _ => simp [splitPolys, ih]; omega

/-- fft.go:92-115 `FFT`: below length 2 the result is the nil slice. -/
def FFT (f : List O.F) : Go (List O.C) :=
  if h : f.length > 2 then do
    let a ← FFT (splitPolys f).1
    let b ← FFT (splitPolys f).2
    MergeFFT O (a, b)
  else
    match f with
    | [x, y] =>
      let cf0 := O.cplx x (O.lit 0)
      let cf1 := O.cplx y (O.lit 0)
      let a := O.cmul O.I cf1
      .ok [O.cadd cf0 a, O.csub cf0 a]
    | _ => .ok []
termination_by f.length
decreasing_by
  · rw [splitPolys_length1]; omega
  · rw [splitPolys_length2]; omega

/-- fft.go:120-138 `IFFT`, with a recursion bound: `fuel` only bounds the depth, which is at most the length. -/
def ifftAux : Nat → List O.C → Go (List O.F)
  | 0, _ => .diverge
  | fuel + 1, f =>
    if f.length > 2 then do
      let s ← SplitFFT O f
      let a ← ifftAux fuel s.1
      let b ← ifftAux fuel s.2
      mergePolys a b
    else
      match f with
      | [x, _] => .ok [O.re x, O.im x]
      | _ => .ok []

/-- fft.go:120-138 `IFFT`. Each recursion at least halves the length, so a depth of `len(f)+1` is never exhausted
(theorem `IFFT_not_diverge`). -/
def IFFT (f : List O.C) : Go (List O.F) := ifftAux O (f.length + 1) f

/-- fft.go:141-152 `Add`. -/
def Add (f g : List O.F) : Go (List O.F) :=
  if f.length ≠ g.length then .panic else .ok (List.zipWith O.add f g)

/-- fft.go:155-166 `AddFFT`. -/
def AddFFT (f g : List O.C) : Go (List O.C) :=
  if f.length ≠ g.length then .panic else .ok (List.zipWith O.cadd f g)

/-- fft.go:174-181 `AdjFFT`. -/
def AdjFFT (f : List O.C) : List O.C := f.map O.conj

/-- fft.go:169-171 `Adj`. -/
def Adj (f : List O.F) : Go (List O.F) := do
  let a ← FFT O f
  IFFT O (AdjFFT O a)

/-- fft.go:191-202 `DivFFT`. A complex division by zero does not panic in Go. -/
def DivFFT (f g : List O.C) : Go (List O.C) :=
  if f.length ≠ g.length then .panic else .ok (List.zipWith O.cdiv f g)

/-- fft.go:184-188 `Div`. -/
def Div (f g : List O.F) : Go (List O.F) := do
  let ft ← FFT O f
  let gt ← FFT O g
  let d ← DivFFT O ft gt
  IFFT O d

/-- fft.go:205-213 `Neg`. -/
def Neg (f : List O.F) : List O.F := f.map O.neg

/-- fft.go:215-223 `NegFFT`. -/
def NegFFT (f : List O.C) : List O.C := f.map O.cneg

/-- fft.go:233-241 `MulFFT`: no length check; `g_fft[i]` panics when `g` is shorter, surplus elements of `g` are ignored. -/
def MulFFT (f g : List O.C) : Go (List O.C) :=
  if g.length < f.length then .panic else .ok (List.zipWith O.cmul f g)

/-- fft.go:226-230 `Mul`. -/
def Mul (f g : List O.F) : Go (List O.F) := do
  let ft ← FFT O f
  let gt ← FFT O g
  let p ← MulFFT O ft gt
  IFFT O p

/-- fft.go:244-247 `Sub`. -/
def Sub (f g : List O.F) : Go (List O.F) := Add O f (Neg O g)

/-- fft.go:250-253 `SubFFT`. -/
def SubFFT (f g : List O.C) : Go (List O.C) := AddFFT O f (NegFFT O g)

/-- fft.go:255-262 `RoundFFTtoInt16`. -/
def RoundFFTtoInt16 (f : List O.C) : List Int16 := f.map fun x => O.toInt16 (O.re x)

end Falcon
