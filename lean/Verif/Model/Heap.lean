import Verif.Model.Ntrugen
/-!
# Model of the NTRU solver of `src/internal/ntrugen.go` with pointers

`Model/Ntrugen.lean` treats a `*big.Int` as a number. Here a `*big.Int` is an address in a heap, so that numbers shared between slices and
overwritten in place are visible. The functions return addresses.

Conventions and simplifications:
* A slice `[]*big.Int` is the list of its addresses. A `new(big.Int)` that is only used as an operand (`new(big.Int).Add(x, y)` inside another
  call, `q` of `xgcd`, the copies made by `bitsize` and `Rsh`) is a value: no other pointer to it exists.
* `x[i].Sub(x[i], e)` evaluates its operands before the receiver; in Go the order is the other way round, which only decides which index
  expression panics first.
* An address never allocated has the value 0. There are no nil elements: every slice made by the code is filled before use.
-/

namespace Falcon.Ptr

/-- The heap of `big.Int` objects: the addresses below `next` are allocated. -/
structure Heap where
  next : Nat
  mem : Nat → Int

/-- Code that works on the heap. -/
abbrev HM := StateT Heap Go

/-- The heap after a new number was allocated at address `h.next`. -/
def Heap.push (h : Heap) (v : Int) : Heap := ⟨h.next + 1, fun p => if p = h.next then v else h.mem p⟩

/-- The heap after the number at `p` was overwritten. -/
def Heap.upd (h : Heap) (p : Nat) (v : Int) : Heap := ⟨h.next, fun r => if r = p then v else h.mem r⟩

/-- `big.NewInt(v)` or `new(big.Int).Op(...)` with result `v`. -/
def new (v : Int) : HM Nat := fun h => .ok (h.next, h.push v)

/-- The number at an address. -/
def get (p : Nat) : HM Int := fun h => .ok (h.mem p, h)

/-- `p.Op(...)` with result `v`: the receiver is overwritten. -/
def set (p : Nat) (v : Int) : HM Unit := fun h => .ok ((), h.upd p v)

/-- Code without effect on the heap. -/
def run {α : Type} (x : Go α) : HM α := fun h => x >>= fun a => .ok (a, h)

/-- The numbers of a slice. -/
def vals (h : Heap) (s : List Nat) : List Int := s.map h.mem

/-- `*s[i]`. -/
def load (s : List Nat) (i : Nat) : HM Int := do
  let p ← run (idx s i)
  get p

/-- `s[i].Op(...)` with result `v`. -/
def store (s : List Nat) (i : Nat) (v : Int) : HM Unit := do
  let p ← run (idx s i)
  set p v

/-- `s[i].Add(s[i], v)`. -/
def addTo (s : List Nat) (i : Nat) (v : Int) : HM Unit := do
  let x ← load s i
  store s i (x + v)

/-- util.go:230-234 `FillBigIntSlice` on a slice of length `n`. -/
def fill : Nat → HM (List Nat)
  | 0 => pure []
  | n + 1 => do
    let p ← new 0
    let r ← fill n
    pure (p :: r)

/-- util.go:203-210 `IntToBigInt`. -/
def ofInts : List Int → HM (List Nat)
  | [] => pure []
  | k :: ks => do
    let p ← new k
    let r ← ofInts ks
    pure (p :: r)

/-- ntrugen.go:40-43, `m` iterations left. -/
def halves (ax bx a0 a1 b0 b1 : List Nat) : Nat → Nat → HM Unit
  | 0, _ => pure ()
  | m + 1, i => do
    let x ← load a0 i
    let y ← load a1 i
    store ax i (x + y)
    let x ← load b0 i
    let y ← load b1 i
    store bx i (x + y)
    halves ax bx a0 a1 b0 b1 m (i + 1)

/-- ntrugen.go:50-52, `m` iterations left. -/
def correct (axbx a0b0 a1b1 : List Nat) : Nat → Nat → HM Unit
  | 0, _ => pure ()
  | m + 1, i => do
    let x ← load a0b0 i
    let y ← load a1b1 i
    addTo axbx i (-(x + y))
    correct axbx a0b0 a1b1 m (i + 1)

/-- ntrugen.go:55-59, `m` iterations left. -/
def combine (ab a0b0 a1b1 axbx : List Nat) (n n2 : Nat) : Nat → Nat → HM Unit
  | 0, _ => pure ()
  | m + 1, i => do
    let x ← load a0b0 i
    addTo ab i x
    let y ← load a1b1 i
    addTo ab (i + n) y
    let z ← load axbx i
    addTo ab (i + n2) z
    combine ab a0b0 a1b1 axbx n n2 m (i + 1)

/-- ntrugen.go:23-62 `Karatsuba`. -/
def Karatsuba (a b : List Nat) (n : Nat) : HM (List Nat) :=
  if n = 1 then do
    let x ← load a 0
    let y ← load b 0
    let p ← new (x * y)
    let z ← new 0
    pure [p, z]
  else if h : n = 0 then run .diverge
  else do
    let a0 ← run (slice a 0 (n / 2))
    let a1 ← run (slice a (n / 2) a.length)
    let b0 ← run (slice b 0 (n / 2))
    let b1 ← run (slice b (n / 2) b.length)
    let ax ← fill (n / 2)
    let bx ← fill (n / 2)
    halves ax bx a0 a1 b0 b1 (n / 2) 0
    let a0b0 ← Karatsuba a0 b0 (n / 2)
    let a1b1 ← Karatsuba a1 b1 (n / 2)
    let axbx ← Karatsuba ax bx (n / 2)
    correct axbx a0b0 a1b1 n 0
    let ab ← fill (2 * n)
    combine ab a0b0 a1b1 axbx n (n / 2) n 0
    pure ab
termination_by n
decreasing_by all_goals omega

/-- ntrugen.go:71-73, `m` iterations left. -/
def fold (abr ab : List Nat) (n : Nat) : Nat → Nat → HM Unit
  | 0, _ => pure ()
  | m + 1, i => do
    let x ← load ab i
    let y ← load ab (i + n)
    store abr i (x - y)
    fold abr ab n m (i + 1)

/-- ntrugen.go:65-75 `karamul`. -/
def karamul (a b : List Nat) : HM (List Nat) := do
  let ab ← Karatsuba a b a.length
  let abr ← fill a.length
  fold abr ab a.length a.length 0
  pure abr

/-- ntrugen.go:83-86, `m` iterations left; the exponential is `(-1)^i`. -/
def conjugate (res a : List Nat) : Nat → Nat → HM Unit
  | 0, _ => pure ()
  | m + 1, i => do
    let x ← load a i
    store res i ((-1) ^ i * x)
    conjugate res a m (i + 1)

/-- ntrugen.go:79-88 `galoisConjugate`. -/
def galoisConjugate (a : List Nat) : HM (List Nat) := do
  let res ← fill a.length
  conjugate res a a.length 0
  pure res

/-- ntrugen.go:99-102, `m` iterations left. -/
def evenOdd (ae ao a : List Nat) : Nat → Nat → HM Unit
  | 0, _ => pure ()
  | m + 1, i => do
    let x ← load a (2 * i)
    store ae i x
    let y ← load a (2 * i + 1)
    store ao i y
    evenOdd ae ao a m (i + 1)

/-- ntrugen.go:107-109, `m` iterations left. -/
def norm (res ao2 : List Nat) : Nat → Nat → HM Unit
  | 0, _ => pure ()
  | m + 1, i => do
    let x ← load ao2 i
    addTo res (i + 1) (-x)
    norm res ao2 m (i + 1)

/-- ntrugen.go:92-112 `fieldNorm`; `res` and `aeSquared` are the same slice. -/
def fieldNorm (a : List Nat) : HM (List Nat) := do
  let n2 := a.length / 2
  let ae ← fill n2
  let ao ← fill n2
  evenOdd ae ao a n2 0
  let res ← karamul ae ae
  let ao2 ← karamul ao ao
  norm res ao2 (n2 - 1) 0
  let x ← load ao2 (n2 - 1)
  addTo res 0 x
  pure res

/-- ntrugen.go:120-122: `al[2*i] = a[i]`, `m` iterations left. The addresses are copied, not the numbers. -/
def liftLoop (a : List Nat) : Nat → Nat → List Nat → Go (List Nat)
  | 0, _, al => .ok al
  | m + 1, i, al => do
    let p ← idx a i
    if 2 * i < al.length then liftLoop a m (i + 1) (al.set (2 * i) p) else .panic

/-- ntrugen.go:116-124 `lift`. -/
def lift (a : List Nat) : HM (List Nat) := do
  let al ← fill (2 * a.length)
  run (liftLoop a a.length 0 al)

/-- util.go:280-284, the loop of `MinFromBigInt`: the address of the smallest number. -/
def minLoop : List Nat → Nat → HM Nat
  | [], m => pure m
  | p :: s, m => do
    let x ← get p
    let y ← get m
    minLoop s (if x < y then p else m)

/-- util.go:269-273, the loop of `MaxFromBigInt`. -/
def maxLoop : List Nat → Nat → HM Nat
  | [], m => pure m
  | p :: s, m => do
    let x ← get p
    let y ← get m
    maxLoop s (if x > y then p else m)

/-- util.go:278-286 `MinFromBigInt`. -/
def minFromBigInt (s : List Nat) : HM Nat := do
  let m ← run (idx s 0)
  minLoop s m

/-- util.go:267-275 `MaxFromBigInt`. -/
def maxFromBigInt (s : List Nat) : HM Nat := do
  let m ← run (idx s 0)
  maxLoop s m

/-- ntrugen.go:146-152 and 170-176. -/
def sizeOf2 (a b : List Nat) : HM Nat := do
  let m1 ← get (← minFromBigInt a)
  let m2 ← get (← maxFromBigInt a)
  let m3 ← get (← minFromBigInt b)
  let m4 ← get (← maxFromBigInt b)
  let r ← run (goMax [53, bitsize m1, bitsize m2, bitsize m3, bitsize m4])
  pure r.toNat

/-- Reads a slice (the `range` loops of ntrugen.go:155-164 and 182-190). -/
def read (s : List Nat) : HM (List Int) := fun h => .ok (vals h s, h)

/-- ntrugen.go:214-221, `m` iterations left. -/
def subBoth (F G fk gk : List Nat) (sh : Nat) : Nat → Nat → HM Unit
  | 0, _ => pure ()
  | m + 1, i => do
    let x ← load fk i
    addTo F i (-(x <<< sh))
    let y ← load gk i
    addTo G i (-(y <<< sh))
    subBoth F G fk gk sh m (i + 1)

/-- ntrugen.go:169-222, the loop of `reduce`, which overwrites the numbers of `F` and `G`. -/
def reduceLoop (O : FloatOps) (f g : List Nat) (size : Nat) (fa ga : List O.C) (F G : List Nat) : Nat → HM Unit
  | 0 => run .diverge
  | fuel + 1 => do
    let SIZE ← sizeOf2 F G
    if SIZE < size then pure ()
    else do
      let Fv ← read F
      let Gv ← read G
      let k ← run (babai O fa ga (adjust O SIZE Fv) (adjust O SIZE Gv))
      if allZeroes k then pure ()
      else do
        let kf ← ofInts k
        let fk ← karamul f kf
        let kg ← ofInts k
        let gk ← karamul g kg
        subBoth F G fk gk (SIZE - size) f.length 0
        reduceLoop O f g size fa ga F G fuel

/-- ntrugen.go:143-224 `reduce`: returns the slices it was given. -/
def reduce (O : FloatOps) (fuel : Nat) (f g F G : List Nat) : HM (List Nat × List Nat) := do
  let size ← sizeOf2 f g
  let fv ← read f
  let gv ← read g
  let fa ← run (FFT O (adjust O size fv))
  let ga ← run (FFT O (adjust O size gv))
  reduceLoop O f g size fa ga F G fuel
  pure (F, G)

/-- ntrugen.go:234-240, the loop of `xgcd` on addresses. The three new numbers of an iteration are at `h.next`, `h.next + 1`, `h.next + 2`. -/
def xgcdLoop (b n x0 x1 y0 y1 : Nat) (h : Heap) : (Nat × Nat × Nat) × Heap :=
  if hn : h.mem n = 0 then ((b, x0, y0), h)
  else
    let q := h.mem b / h.mem n
    let h1 := h.push (h.mem b % h.mem n)
    let h2 := h1.push (h.mem x0 - q * h.mem x1)
    let h3 := h2.push (h.mem y0 - q * h.mem y1)
    xgcdLoop n h.next x1 h1.next y1 h2.next h3
termination_by (h.mem n).natAbs
decreasing_by
  have h1 := Int.emod_nonneg (h.mem b) hn
  have h2 := Int.emod_lt (h.mem b) hn
  simp only [Heap.push]
  rw [if_neg (by omega), if_neg (by omega), if_pos trivial]
  omega

/-- ntrugen.go:228-242 `xgcd`. -/
def xgcd (b n : Nat) : HM (Nat × Nat × Nat) := do
  let x0 ← new 1
  let x1 ← new 0
  let y0 ← new 0
  let y1 ← new 1
  fun h => .ok (xgcdLoop b n x0 x1 y0 y1 h)

/-- ntrugen.go:248-261, the case of length 1. -/
def solveBase (f g : List Nat) : HM (Option (List Nat × List Nat)) := do
  let x ← load f 0
  let f0 ← new x
  let y ← load g 0
  let g0 ← new y
  let (d, u, v) ← xgcd f0 g0
  let dv ← get d
  if bigInt64 dv ≠ 1 then pure none
  else do
    let vv ← get v
    let F ← new (-Q * vv)
    let uv ← get u
    let G ← new (Q * uv)
    pure (some ([F], [G]))

/-- ntrugen.go:246-274 `NtruSolve`. -/
def NtruSolve (O : FloatOps) : Nat → List Nat → List Nat → HM (Option (List Nat × List Nat))
  | 0, _, _ => run .diverge
  | fuel + 1, f, g =>
    if f.length = 1 then solveBase f g
    else do
      let fp ← fieldNorm f
      let gp ← fieldNorm g
      match ← NtruSolve O fuel fp gp with
      | none => pure none
      | some (Fp, Gp) => do
        let Fl ← lift Fp
        let gc ← galoisConjugate g
        let F ← karamul Fl gc
        let Gl ← lift Gp
        let fc ← galoisConjugate f
        let G ← karamul Gl fc
        let r ← reduce O (fuel + 1) f g F G
        pure (some r)

end Falcon.Ptr
