import Verif.Model.Falcon
import Verif.Model.Verify
/-!
# Model of the `int16` code of `src/internal/transforms/ntt/ntt.go` and `src/falcon.go` with slices that share storage

`Model/Ntt.lean` and `Model/Verify.lean` treat a `[]int16` as a list of numbers. Here it is a reference to a part of an array, as in Go, and the
loops store element by element, so that shared storage and writes in place are visible.

Conventions and simplifications:
* Arrays of other element types (`[]byte`, `[]int`) are lists: no function modelled here stores into one that it did not make itself.
* `int(math.Floor(float64(n)/2))` is `n/2`.
* The capacity that `append` gives to a new array is `max (len+1) (grow len)` for an arbitrary function `grow`.
* The recursion of `NTT` and `INTT` has a bound on its depth, given by the callers as the length, which it never reaches.
-/

namespace Falcon.Sl

/-- All arrays of `int16`. Those with a number below `base` existed before the code under consideration was called, the `made` following ones were
made by it. A store into an array below `base` is a fault of the model: the outcome is then `panic` or `diverge` as `fault` says. With `base = 0`
there are no faults. -/
structure Mem where
  base : Nat
  made : Nat
  fault : Bool
  arr : Nat → List Int16

/-- The number of the next array. -/
def Mem.next (m : Mem) : Nat := m.base + m.made

/-- A slice: array, first element, length, capacity. -/
structure Slice where
  id : Nat
  off : Nat
  len : Nat
  cap : Nat
  deriving DecidableEq

/-- The nil slice. -/
def nil : Slice := ⟨0, 0, 0, 0⟩

/-- The memory after the array `a` was overwritten by `l`. -/
def Mem.setArr (m : Mem) (a : Nat) (l : List Int16) : Mem := { m with arr := fun b => if b = a then l else m.arr b }

/-- The memory after the array `l` was made. -/
def Mem.push (m : Mem) (l : List Int16) : Mem := { m with made := m.made + 1, arr := fun b => if b = m.next then l else m.arr b }

/-- The elements of a slice. -/
def read (m : Mem) (s : Slice) : List Int16 := ((m.arr s.id).drop s.off).take s.len

/-- Code that works on the arrays, as a sequence of accesses: it is finished, or it makes an array, reads element `i` of array `a`, or writes it,
or reads `inv_mod_q[i]`, and continues. -/
inductive MM (α : Type) where
  | done (r : Go α)
  | make (l : List Int16) (k : Nat → MM α)
  | load (a i : Nat) (k : Int16 → MM α)
  | store (a i : Nat) (v : Int16) (k : MM α)
  | look (i : Int) (k : Nat → MM α)

/-- One piece of code after another. -/
def MM.bind {α β : Type} : MM α → (α → MM β) → MM β
  | .done (.ok a), f => f a
  | .done .panic, _ => .done .panic
  | .done .diverge, _ => .done .diverge
  | .make l k, f => .make l fun n => (k n).bind f
  | .load a i k, f => .load a i fun v => (k v).bind f
  | .store a i v k, f => .store a i v (k.bind f)
  | .look i k, f => .look i fun v => (k v).bind f

instance : Monad MM where
  pure a := .done (.ok a)
  bind := MM.bind

/-- `inv_mod_q[i]` (ntt_constants.go:55). -/
def invAt (i : Int) : Go Nat := if i < 0 then .panic else idx inv_mod_q i.toNat

/-- The accesses are executed one after the other. -/
def exec {α : Type} : MM α → Mem → Go (α × Mem)
  | .done r, m => r >>= fun a => .ok (a, m)
  | .make l k, m => exec (k m.next) (m.push l)
  | .load a i k, m => idx (m.arr a) i >>= fun v => exec (k v) m
  | .store a i v k, m =>
    if a < m.base then (if m.fault then .panic else .diverge) else exec k (m.setArr a ((m.arr a).set i v))
  | .look i k, m => invAt i >>= fun v => exec (k v) m

instance {α : Type} : CoeFun (MM α) fun _ => Mem → Go (α × Mem) := ⟨exec⟩

/-- Code without effect on the arrays. -/
def run {α : Type} (x : Go α) : MM α := .done x

/-- `inv_mod_q[i]` as a value. -/
def lookup (i : Int) : MM Nat := .look i pure

/-- `make([]int16, n)`. -/
def make (n : Nat) : MM Slice := .make (List.replicate n 0) fun a => pure ⟨a, 0, n, n⟩

/-- `s[i]` as a value. -/
def load (s : Slice) (i : Nat) : MM Int16 := if i < s.len then .load s.id (s.off + i) pure else run .panic

/-- `s[i] = v`. -/
def store (s : Slice) (i : Nat) (v : Int16) : MM Unit := if i < s.len then .store s.id (s.off + i) v (pure ()) else run .panic

/-- The elements of a slice from `i` on are read one after the other; `m` are left. -/
def loadAll (s : Slice) : Nat → Nat → MM (List Int16)
  | 0, _ => pure []
  | m + 1, i => do
    let x ← load s i
    let r ← loadAll s m (i + 1)
    pure (x :: r)

/-- `append(s, v)`: in place when the capacity allows it, otherwise into a new array. -/
def append (grow : Nat → Nat) (s : Slice) (v : Int16) : MM Slice :=
  if s.len < s.cap then .store s.id (s.off + s.len) v (pure { s with len := s.len + 1 })
  else do
    let l ← loadAll s s.len 0
    let c := max (s.len + 1) (grow s.len)
    .make (l ++ v :: List.replicate (c - (s.len + 1)) 0) fun a => pure ⟨a, 0, s.len + 1, c⟩

/-- `for i := ...; m iterations left`. -/
def forLoop (body : Nat → MM Unit) : Nat → Nat → MM Unit
  | 0, _ => pure ()
  | m + 1, i => do
    body i
    forLoop body m (i + 1)

/-- util.go:341-342. -/
def splitPolysBody (f f0 f1 : Slice) (i : Nat) : MM Unit := do
  let x ← load f (2 * i)
  store f0 i x
  let y ← load f (2 * i + 1)
  store f1 i y

/-- util.go:330-346 `SplitPolysInt`. -/
def SplitPolysInt (f : Slice) : MM (Slice × Slice) := do
  let f0 ← make (f.len / 2)
  let f1 ← make (f.len / 2)
  forLoop (splitPolysBody f f0 f1) (f.len / 2) 0
  pure (f0, f1)

/-- util.go:377-378. -/
def mergePolysBody (f f0 f1 : Slice) (i : Nat) : MM Unit := do
  let x ← load f0 i
  store f (2 * i) x
  let y ← load f1 i
  store f (2 * i + 1) y

/-- util.go:368-381 `MergePolysInt`. -/
def MergePolysInt (f0 f1 : Slice) : MM Slice := do
  let f ← make (2 * f0.len)
  forLoop (mergePolysBody f f0 f1) (2 * f0.len / 2) 0
  pure f

/-- ntt.go:45-59, one iteration of `SplitNTT`. -/
def splitBody (W : Int → Go Int) (w : List Nat) (fNTT f0_NTT f1_NTT : Slice) (i : Nat) : MM Unit := do
  let x ← load fNTT (2 * i)
  let y ← load fNTT (2 * i + 1)
  let f0 ← run (W (x.toInt + y.toInt))
  let f0 ← run (W (f0 * i2))
  store f0_NTT i (reduceQ f0)
  let x ← load fNTT (2 * i)
  let y ← load fNTT (2 * i + 1)
  let f1 ← run (W (x.toInt - y.toInt))
  let f1 ← run (W (f1 * i2))
  let wa ← run (idx w (2 * i))
  let inv ← lookup wa
  let f1 ← run (W (f1 * (inv : Int)))
  store f1_NTT i (reduceQ f1)

/-- ntt.go:36-62 `SplitNTT`. -/
def SplitNTT (W : Int → Go Int) (fNTT : Slice) : MM (Slice × Slice) := do
  let f0 ← make (fNTT.len / 2)
  let f1 ← make (fNTT.len / 2)
  forLoop (splitBody W (roots_dict_Zq (Int16.ofNat fNTT.len)) fNTT f0 f1) (fNTT.len / 2) 0
  pure (f0, f1)

/-- ntt.go:75-88, one iteration of `MergeNTT`. -/
def mergeBody (W : Int → Go Int) (w : List Nat) (fNTT f0NTT f1NTT : Slice) (i : Nat) : MM Unit := do
  let wa ← run (idx w (2 * i))
  let y ← load f1NTT i
  let f0 ← run (W ((wa : Int) * y.toInt))
  let x ← load f0NTT i
  let f0 ← run (W (f0 + x.toInt))
  store fNTT (2 * i) (reduceQ f0)
  let wa ← run (idx w (2 * i))
  let y ← load f1NTT i
  let f1 ← run (W ((wa : Int) * y.toInt))
  let x ← load f0NTT i
  let f1 ← run (W (x.toInt - f1))
  store fNTT (2 * i + 1) (reduceQ f1)

/-- ntt.go:67-91 `MergeNTT`. -/
def MergeNTT (W : Int → Go Int) (f0NTT f1NTT : Slice) : MM Slice := do
  let f ← make (2 * f0NTT.len)
  forLoop (mergeBody W (roots_dict_Zq (Int16.ofNat (2 * f0NTT.len))) f f0NTT f1NTT) (2 * f0NTT.len / 2) 0
  pure f

/-- util.go:115-121 `IntToInt16` on the two numbers `x`, `y` of `tmp`, already reduced. -/
def pair (x y : Int16) : MM Slice := do
  let r ← make 2
  store r 0 x
  store r 1 y
  pure r

/-- ntt.go:96-121 `NTT`. -/
def NTT (W : Int → Go Int) : Nat → Slice → MM Slice
  | 0, _ => run .diverge
  | d + 1, f =>
    if f.len > 2 then do
      let (f0, f1) ← SplitPolysInt f
      let f0_NTT ← NTT W d f0
      let f1_NTT ← NTT W d f1
      MergeNTT W f0_NTT f1_NTT
    else if f.len = 2 then do
      let y ← load f 1
      let a ← run (W (sqr1 * y.toInt))
      let x ← load f 0
      let u ← run (W (x.toInt + a))
      let x ← load f 0
      let v ← run (W (x.toInt - a))
      pair (reduceQ u) (reduceQ v)
    else pure nil

/-- ntt.go:126-153 `INTT`. -/
def INTT (W : Int → Go Int) : Nat → Slice → MM Slice
  | 0, _ => run .diverge
  | d + 1, fNTT =>
    if fNTT.len > 2 then do
      let (s0, s1) ← SplitNTT W fNTT
      let f0 ← INTT W d s0
      let f1 ← INTT W d s1
      MergePolysInt f0 f1
    else if fNTT.len = 2 then do
      let a ← load fNTT 0
      let b ← load fNTT 1
      let x ← run (W (a.toInt + b.toInt))
      let x ← run (W (x * i2))
      let a ← load fNTT 0
      let b ← load fNTT 1
      let y ← run (W (a.toInt - b.toInt))
      let inv ← lookup 1479
      let y ← run (W (y * (inv : Int)))
      let y ← run (W (y * i2))
      pair (reduceQ x) (reduceQ y)
    else pure nil

/-- ntt.go:163-165, one iteration of `addZq`. -/
def addBody (res f g : Slice) (i : Nat) : MM Unit := do
  let x ← load f i
  let y ← load g i
  store res i (reduceQ (x + y).toInt)

/-- ntt.go:156-168 `addZq`. -/
def addZq (f g : Slice) : MM Slice := do
  let res ← make f.len
  if f.len ≠ g.len then run .panic
  else do
    forLoop (addBody res f g) f.len 0
    pure res

/-- ntt.go:175-177, one iteration of `negZq`. -/
def negBody (res f : Slice) (i : Nat) : MM Unit := do
  let x ← load f i
  store res i (reduceQ (-x).toInt)

/-- ntt.go:171-180 `negZq`. -/
def negZq (f : Slice) : MM Slice := do
  let res ← make f.len
  forLoop (negBody res f) f.len 0
  pure res

/-- ntt.go:183-186 `SubZq`. -/
def SubZq (f g : Slice) : MM Slice := do
  let g ← negZq g
  addZq f g

/-- ntt.go:224-226, one iteration of `mulNTT`. -/
def mulBody (W : Int → Go Int) (res f g : Slice) (i : Nat) : MM Unit := do
  let x ← load f i
  let y ← load g i
  let z ← run (W (x.toInt * y.toInt))
  store res i (reduceQ z)

/-- ntt.go:217-229 `mulNTT`. -/
def mulNTT (W : Int → Go Int) (f g : Slice) : MM Slice := do
  let res ← make f.len
  if f.len ≠ g.len then run .panic
  else do
    forLoop (mulBody W res f g) f.len 0
    pure res

/-- ntt.go:189-193 `MulZq`. -/
def MulZq (W : Int → Go Int) (f g : Slice) : MM Slice := do
  let ft ← NTT W (f.len + 1) f
  let gt ← NTT W (g.len + 1) g
  let p ← mulNTT W ft gt
  INTT W (p.len + 1) p

/-- ntt.go:237-241, the test for a zero of `divNTT`; `m` iterations left. -/
def hasZero (g : Slice) : Nat → Nat → MM Bool
  | 0, _ => pure false
  | m + 1, i => do
    let x ← load g i
    if x = 0 then pure true else hasZero g m (i + 1)

/-- ntt.go:244-246, one iteration of `divNTT`. -/
def divBody (W : Int → Go Int) (res f g : Slice) (i : Nat) : MM Unit := do
  let x ← load f i
  let y ← load g i
  let inv ← lookup y.toInt
  let z ← run (W (x.toInt * (inv : Int)))
  store res i (reduceQ z)

/-- ntt.go:232-249 `divNTT`. -/
def divNTT (W : Int → Go Int) (f g : Slice) : MM (Except NttErr Slice) :=
  if f.len ≠ g.len then run .panic
  else do
    let res ← make f.len
    if ← hasZero g g.len 0 then pure (.error .divByZero)
    else do
      forLoop (divBody W res f g) f.len 0
      pure (.ok res)

/-- ntt.go:196-204 `DivZq`. -/
def DivZq (W : Int → Go Int) (f g : Slice) : MM (Except NttErr Slice) := do
  let ft ← NTT W (f.len + 1) f
  let gt ← NTT W (g.len + 1) g
  match ← divNTT W ft gt with
  | .error e => pure (.error e)
  | .ok d => do
    let r ← INTT W (d.len + 1) d
    pure (.ok r)

/-- falcon.go:272-285, the loop of the package-level `hashToPoint`: `pos` is the position in the XOF output, `i` the index of the next coefficient,
the last argument the number of coefficients still needed. -/
def hashLoop (s : Nat → UInt8) (hashed : Slice) : Nat → Nat → Nat → Nat → MM Unit
  | _, _, _, 0 => pure ()
  | 0, _, _, _ + 1 => run .diverge
  | fuel + 1, pos, i, need + 1 =>
    match hashSample (s pos) (s (pos + 1)) with
    | some c => do
      store hashed i c
      hashLoop s hashed fuel (pos + 2) (i + 1) need
    | none => hashLoop s hashed fuel (pos + 2) i (need + 1)

/-- falcon.go:261-287 the package-level `hashToPoint`. -/
def hashToPoint (xof : Xof) (fuel : Nat) (message salt : List UInt8) : MM Slice := do
  let hashed ← make 512
  hashLoop (xof (salt ++ message)) hashed fuel 0 0 512
  pure hashed

/-- falcon.go:472-474, the loop that copies the decoded numbers into `s1`. -/
def appendAll (grow : Nat → Nat) : List Int → Slice → MM Slice
  | [], s1 => pure s1
  | v :: ss1, s1 => do
    let s1 ← append grow s1 (Int16.ofInt v)
    appendAll grow ss1 s1

/-- falcon.go:481, one iteration. -/
def centreBody (s0 : Slice) (i : Nat) : MM Unit := do
  let x ← load s0 i
  store s0 i (centre x)

/-- falcon.go:484-486 and 488-490. -/
def addSquares (acc : UInt32) (s : Slice) : MM UInt32 := do
  let l ← loadAll s s.len 0
  pure (Falcon.addSquares acc l)

/-- falcon.go:453-498, `Verify` after the slicing of the signature (and the same code at 551-590 in `VerifyBytes`). -/
def verifyBody (grow : Nat → Nat) (xof : Xof) (fuel : Nat) (pubkey : Slice) (message salt encS : List UInt8) : MM Bool := do
  let par := GetParamSet 512
  match ← run (Decompress encS (((par.sigbytelen - UInt16.ofNat HeadLen - UInt16.ofNat SaltLen).toNat : Nat) : Int) 512) with
  | .error _ => pure false
  | .ok ss1 => do
    let s1 ← appendAll grow ss1 nil
    let hashed ← hashToPoint xof fuel message salt
    let p ← MulZq wrap64 s1 pubkey
    let s0 ← SubZq hashed p
    forLoop (centreBody s0) s0.len 0
    let normSign ← addSquares 0 s0
    let normSign ← addSquares normSign s1
    pure (!decide (normSign > par.sigbound))

/-- falcon.go:444-499 `Verify`. -/
def Verify (grow : Nat → Nat) (xof : Xof) (fuel : Nat) (pubkey : Slice) (message signature : List UInt8) : MM Bool := do
  let salt ← run (slice signature HeadLen (HeadLen + SaltLen))
  let encS ← run (slice signature (HeadLen + SaltLen) signature.length)
  verifyBody grow xof fuel pubkey message salt encS

/-- falcon.go:512-525: `h` grows by one coefficient for each two words `i`, `i+1`; the first number is that of the coefficients left. -/
def readKey (grow : Nat → Nat) (b : List UInt8) : Nat → Nat → Slice → MM Slice
  | 0, _, h => pure h
  | m + 1, i, h => do
    let temp ← run (sumWord16 b (i * 32) 32 0 0)
    let temp ← run (sumWord16 b ((i + 1) * 32) 32 0 (temp <<< 8))
    let h ← append grow h temp
    readKey grow b m (i + 2) h

/-- falcon.go:503-591 `VerifyBytes`; only `h`, `s2`, `c` and `s1` are slices of `int16`, the byte slices it makes are kept as lists. The loads for the
printing of `h` (line 527) are left out. -/
def VerifyBytes (grow : Nat → Nat) (xof : Xof) (fuel : Nat) (inputBytes : List UInt8) : MM Bool := do
  let h ← readKey grow inputBytes 512 0 nil
  let message ← run (readBytes inputBytes 32 1024)
  let signature ← run (readBytes inputBytes 666 (1024 + 32))
  let r ← run (slice signature HeadLen (HeadLen + SaltLen))
  let s ← run (slice signature (HeadLen + SaltLen) signature.length)
  verifyBody grow xof fuel h message r s

/-- falcon.go:133-139 `PrivateKey`. -/
structure PrivateKey where
  n : UInt16
  f : Slice
  g : Slice
  F : Slice
  G : Slice

/-- falcon.go:107-110 `PublicKey`. -/
structure PublicKey where
  n : UInt16
  h : Slice

/-- The numbers of a private key. -/
def PrivateKey.value (m : Mem) (k : PrivateKey) : Falcon.PrivateKey := ⟨k.n, read m k.f, read m k.g, read m k.F, read m k.G⟩

/-- The numbers of a public key. -/
def PublicKey.value (m : Mem) (k : PublicKey) : Falcon.PublicKey := ⟨k.n, read m k.h⟩

/-- falcon.go:35-38 `isValidPolysLength`. -/
def isValidPolysLength (n : UInt16) (f g F G : Slice) : Go Bool :=
  let sum := UInt16.ofNat (f.len + g.len + F.len + G.len)
  if 4 * n = 0 then .panic else .ok (sum % (4 * n) == 0)

/-- falcon.go:160-175 `GetPrivateKey`: the slices are stored, not copied. -/
def GetPrivateKey (n : UInt16) (f g F G : Slice) : MM (Except KeyErr PrivateKey) :=
  if !isValidDegree n then pure (.error .invalidDegree)
  else do
    if !(← run (isValidPolysLength n f g F G)) then pure (.error .invalidPolysLength)
    else pure (.ok ⟨n, f, g, F, G⟩)

/-- falcon.go:116-123 `GetPublicKey`. -/
def GetPublicKey (k : PrivateKey) : MM PublicKey := do
  match ← DivZq wrap64 k.g k.f with
  | .ok h => pure ⟨k.n, h⟩
  | .error _ => pure ⟨k.n, nil⟩

end Falcon.Sl
