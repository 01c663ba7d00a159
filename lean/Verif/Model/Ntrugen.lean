import Verif.Model.Fft
import Verif.Model.Ntt
/-!
# Model of `src/internal/ntrugen.go`, except random generation

`*big.Int` is `Int`: the pointers of the slices involved are never shared between a written and a read number (each
written slice is freshly filled by `FillBigIntSlice`, `lift` shares pointers with its argument but its result is only
read, and `reduce` writes only the slices returned by `karamul`). `Model/Heap.lean` models the pointers and C78 proves this.
-/

namespace Falcon

/-- `l[i].Add(l[i], v)`: in-place addition to an element. -/
def addAt (l : List Int) (i : Nat) (v : Int) : Go (List Int) :=
  if i < l.length then .ok (l.modify i (· + v)) else .panic

/-- ntrugen.go:40-43: `ax[i].Add(a0[i], a1[i])` for `i < n2` (the remaining number of iterations is the third argument). -/
def addHalves (a0 a1 : List Int) : Nat → Nat → Go (List Int)
  | 0, _ => .ok []
  | m + 1, i => do
    let x ← idx a0 i
    let y ← idx a1 i
    let r ← addHalves a0 a1 m (i + 1)
    pure ((x + y) :: r)

/-- ntrugen.go:50-52: `axbx[i] -= a0b0[i] + a1b1[i]` for `i < n`. -/
def karaCorrect (a0b0 a1b1 : List Int) : Nat → Nat → List Int → Go (List Int)
  | 0, _, axbx => .ok axbx
  | m + 1, i, axbx => do
    let x ← idx a0b0 i
    let y ← idx a1b1 i
    let axbx ← addAt axbx i (-(x + y))
    karaCorrect a0b0 a1b1 m (i + 1) axbx

/-- ntrugen.go:55-59: the recombination loop, for `i < n`. -/
def karaCombine (a0b0 a1b1 axbx : List Int) (n n2 : Nat) : Nat → Nat → List Int → Go (List Int)
  | 0, _, ab => .ok ab
  | m + 1, i, ab => do
    let x ← idx a0b0 i
    let ab ← addAt ab i x
    let y ← idx a1b1 i
    let ab ← addAt ab (i + n) y
    let z ← idx axbx i
    let ab ← addAt ab (i + n2) z
    karaCombine a0b0 a1b1 axbx n n2 m (i + 1) ab

/-- ntrugen.go:23-62 `Karatsuba`, for `n >= 0` (the only caller passes a length). With `n = 0` the function calls itself with
`n = 0` for ever (in Go: stack overflow). -/
def Karatsuba (a b : List Int) (n : Nat) : Go (List Int) :=
  if n = 1 then do
    let x ← idx a 0
    let y ← idx b 0
    pure [x * y, 0]
  else if h : n = 0 then .diverge
  else do
    let n2 := n / 2
    let a0 ← slice a 0 n2
    let a1 ← slice a n2 a.length
    let b0 ← slice b 0 n2
    let b1 ← slice b n2 b.length
    let ax ← addHalves a0 a1 n2 0
    let bx ← addHalves b0 b1 n2 0
    let a0b0 ← Karatsuba a0 b0 n2
    let a1b1 ← Karatsuba a1 b1 n2
    let axbx ← Karatsuba ax bx n2
    let axbx ← karaCorrect a0b0 a1b1 n 0 axbx
    karaCombine a0b0 a1b1 axbx n n2 n 0 (List.replicate (2 * n) 0)
termination_by n
decreasing_by all_goals omega

/-- ntrugen.go:71-73: `abr[i].Sub(ab[i], ab[i+n])` for `i < n`. -/
def foldLoop (ab : List Int) (n : Nat) : Nat → Nat → Go (List Int)
  | 0, _ => .ok []
  | m + 1, i => do
    let x ← idx ab i
    let y ← idx ab (i + n)
    let r ← foldLoop ab n m (i + 1)
    pure ((x - y) :: r)

/-- ntrugen.go:65-75 `karamul`. -/
def karamul (a b : List Int) : Go (List Int) := do
  let n := a.length
  let ab ← Karatsuba a b n
  foldLoop ab n n 0

/-- ntrugen.go:79-88 `galoisConjugate`: element `i` is multiplied by `(-1)^i`. -/
def galoisConjugate (a : List Int) : List Int := a.mapIdx fun i v => (-1) ^ i * v

/-- ntrugen.go:107-109: `res[i+1].Sub(res[i+1], aoSquared[i])`, for the remaining number of iterations. -/
def normLoop (ao2 : List Int) : Nat → Nat → List Int → Go (List Int)
  | 0, _, res => .ok res
  | m + 1, i, res => do
    let x ← idx ao2 i
    let res ← addAt res (i + 1) (-x)
    normLoop ao2 m (i + 1) res

/-- ntrugen.go:92-112 `fieldNorm`. Lines 99-102 are the even/odd split of `splitPolys`. `n2 - 1` is not negative after the
two products succeed. -/
def fieldNorm (a : List Int) : Go (List Int) := do
  let n2 := a.length / 2
  let ae := (splitPolys a).1
  let ao := (splitPolys a).2
  let res ← karamul ae ae
  let ao2 ← karamul ao ao
  let res ← normLoop ao2 (n2 - 1) 0 res
  let x ← idx ao2 (n2 - 1)
  addAt res 0 x

/-- ntrugen.go:116-124 `lift`: `al[2*i] = a[i]`, zeros elsewhere. -/
def lift (a : List Int) : List Int := a.flatMap fun x => [x, 0]

/-- ntrugen.go:132-135, the loop of `bitsize` on the absolute value. -/
def bitsizeLoop (val : Nat) : Nat :=
  if h : val > 0 then 8 + bitsizeLoop (val >>> 8) else 0
termination_by val
decreasing_by
  rw [Nat.shiftRight_eq_div_pow]
  exact Nat.div_lt_self h (by decide)

/-- ntrugen.go:129-137 `bitsize`. -/
def bitsize (a : Int) : Nat := bitsizeLoop a.natAbs

/-- ntrugen.go:146-152 and 170-176: `util.Max(53, bitsize(min a), bitsize(max a), bitsize(min b), bitsize(max b))`. -/
def sizeOf2 (a b : List Int) : Go Nat := do
  let m1 ← minFromBigInt a
  let m2 ← maxFromBigInt a
  let m3 ← minFromBigInt b
  let m4 ← maxFromBigInt b
  let r ← goMax [53, bitsize m1, bitsize m2, bitsize m3, bitsize m4]
  pure r.toNat

/-- ntrugen.go:154-158: `float64(new(big.Int).Rsh(elt, size-53).Int64())`; `Rsh` is an arithmetic shift. -/
def adjust (O : FloatOps) (size : Nat) (a : List Int) : List O.F :=
  a.map fun elt : Int => O.ofInt (bigInt64 (elt >>> (size - 53)))

/-- util.go:321-327 `RoundAll`. -/
def RoundAll (O : FloatOps) (l : List O.F) : List Int := l.map fun x => O.toInt (O.round x)

/-- ntrugen.go:192-205: the Babai coefficients `k` of one iteration of `reduce`. -/
def babai (O : FloatOps) (fa ga : List O.C) (FAdj GAdj : List O.F) : Go (List Int) := do
  let Fa ← FFT O FAdj
  let Ga ← FFT O GAdj
  let d1 ← MulFFT O fa (AdjFFT O fa)
  let d2 ← MulFFT O ga (AdjFFT O ga)
  let den ← AddFFT O d1 d2
  let n1 ← MulFFT O Fa (AdjFFT O fa)
  let n2 ← MulFFT O Ga (AdjFFT O ga)
  let num ← AddFFT O n1 n2
  let k ← DivFFT O num den
  let r ← IFFT O k
  pure (RoundAll O r)

/-- ntrugen.go:214-221, for one of `F`, `G`: `F[i].Sub(F[i], Lsh(fk[i], sh))` for `i < n`. The two updates of an iteration are on
different slices and are modelled one after the other. -/
def subShifted (fk : List Int) (sh : Nat) : Nat → Nat → List Int → Go (List Int)
  | 0, _, F => .ok F
  | m + 1, i, F => do
    let x ← idx fk i
    let F ← addAt F i (-(x <<< sh))
    subShifted fk sh m (i + 1) F

/-- ntrugen.go:169-222, the loop of `reduce`; `fuel` bounds the number of iterations. -/
def reduceLoop (O : FloatOps) (f g : List Int) (size : Nat) (fa ga : List O.C) :
    Nat → List Int → List Int → Go (List Int × List Int)
  | 0, _, _ => .diverge
  | fuel + 1, F, G => do
    let SIZE ← sizeOf2 F G
    if SIZE < size then pure (F, G)
    else do
      let k ← babai O fa ga (adjust O SIZE F) (adjust O SIZE G)
      if allZeroes k then pure (F, G)
      else do
        let fk ← karamul f k
        let gk ← karamul g k
        let F ← subShifted fk (SIZE - size) f.length 0 F
        let G ← subShifted gk (SIZE - size) f.length 0 G
        reduceLoop O f g size fa ga fuel F G

/-- ntrugen.go:143-224 `reduce`. -/
def reduce (O : FloatOps) (fuel : Nat) (f g F G : List Int) : Go (List Int × List Int) := do
  let size ← sizeOf2 f g
  let fa ← FFT O (adjust O size f)
  let ga ← FFT O (adjust O size g)
  reduceLoop O f g size fa ga fuel F G

/-- ntrugen.go:234-240, the loop of `xgcd`. `big.Int` `Div` and `Mod` are Euclidean (`Int.ediv`, `Int.emod`). -/
def xgcdLoop (b n x0 x1 y0 y1 : Int) : Int × Int × Int :=
  if h : n = 0 then (b, x0, y0)
  else
    let q := b / n
    xgcdLoop n (b % n) x1 (x0 - q * x1) y1 (y0 - q * y1)
termination_by n.natAbs
decreasing_by
  have h1 := Int.emod_nonneg b h
  have h2 := Int.emod_lt b h
  omega

/-- ntrugen.go:228-242 `xgcd`. -/
def xgcd (b n : Int) : Int × Int × Int := xgcdLoop b n 1 0 0 1

/-- ntrugen.go:246-274 `NtruSolve`; `none` is `ErrEquation`. `fuel` bounds both the recursion depth and the iterations of each
`reduce`. -/
def NtruSolve (O : FloatOps) : Nat → List Int → List Int → Go (Option (List Int × List Int))
  | 0, _, _ => .diverge
  | fuel + 1, f, g =>
    if f.length = 1 then do
      let f0 ← idx f 0
      let g0 ← idx g 0
      let (d, u, v) := xgcd f0 g0
      if bigInt64 d ≠ 1 then pure none
      else pure (some ([-Q * v], [Q * u]))
    else do
      let fp ← fieldNorm f
      let gp ← fieldNorm g
      match ← NtruSolve O fuel fp gp with
      | none => pure none
      | some (Fp, Gp) => do
        let F ← karamul (lift Fp) (galoisConjugate g)
        let G ← karamul (lift Gp) (galoisConjugate f)
        let r ← reduce O (fuel + 1) f g F G
        pure (some r)

/-- util.go:400-408 `Sqnorm`. -/
def Sqnorm (O : FloatOps) (v : List (List O.F)) : O.F :=
  v.foldl (fun res elt => elt.foldl (fun res coef => O.add res (O.pow2 coef)) res) (O.ofInt 0)

/-- util.go:105-113 `BiggestFloat64`. -/
def BiggestFloat64 (O : FloatOps) (f : List O.F) : Go O.F := do
  let b ← idx f 0
  pure (f.foldl (fun biggest v => if O.lt biggest v then v else biggest) b)

/-- util.go:148-155 `Int16ToFloat64`. -/
def Int16ToFloat64 (O : FloatOps) (f : List Int16) : List O.F := f.map fun x => O.ofInt x.toInt

/-- ntrugen.go:276-283 `GsNorm`. -/
def GsNorm (O : FloatOps) (f g : List O.F) (q : O.F) : Go O.F := do
  let sqnormFg := Sqnorm O [f, g]
  let af ← Adj O f
  let ff ← Mul O f af
  let ag ← Adj O g
  let gg ← Mul O g ag
  let ffgg ← Add O ff gg
  let Ft ← Div O af ffgg
  let Gt ← Div O ag ffgg
  let sqnormFG := O.mul (O.pow2 q) (Sqnorm O [Ft, Gt])
  BiggestFloat64 O [sqnormFg, sqnormFG]

end Falcon
