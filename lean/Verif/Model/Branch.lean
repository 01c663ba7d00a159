import Verif.Model.Ntt
/-!
# The branches of a run

The ring operations of `src/internal/transforms/ntt/ntt.go` again, each together with the list of the outcomes of its data-dependent
conditions, in the order in which they are evaluated: `x >= 0` in `util.Pmod` and `elt == 0` in `divNTT`. Left out are conditions that
depend on lengths only (loops, `len(f) != len(g)`, the cases of `NTT` and `INTT`) and `b < 0` in `util.Pmod`, which is always false here.
`Props/Branch.lean` shows that without the lists these are the functions of `Model/Ntt.lean`. The list of a run that panics is not modelled.
-/

namespace Falcon

/-- A computation with the outcomes of its conditions. -/
structure Br (α : Type) where
  run : Go (α × List Bool)

namespace Br

/-- Sequencing: the conditions of the second statement come after those of the first. -/
def bind {α β : Type} (x : Br α) (f : α → Br β) : Br β :=
  ⟨x.run >>= fun p => (f p.1).run >>= fun r => .ok (r.1, p.2 ++ r.2)⟩

instance : Monad Br where
  pure a := ⟨.ok (a, [])⟩
  bind := Br.bind

/-- A computation without data-dependent conditions. -/
def lift {α : Type} (x : Go α) : Br α := ⟨x >>= fun a => .ok (a, [])⟩

/-- The evaluation of a condition. -/
def test (b : Bool) : Br Bool := ⟨.ok (b, [b])⟩

/-- The result without the conditions. -/
def value {α : Type} (x : Br α) : Go α := x.run >>= fun p => .ok p.1

/-- util.go:65-74 `Pmod(x, Q)` followed by the conversion to `int16`: `x % b` and then the condition `x >= 0`. -/
def reduceQ (x : Int) : Br Int16 := do
  let x := x.tmod Q
  if ← test (decide (x ≥ 0)) then pure (Int16.ofInt x)
  else pure (Int16.ofInt (x + Q))

/-- ntt.go:44-60, the loop of `SplitNTT`, as `splitLoop` in `Model/Ntt.lean`. -/
def splitLoop : List Nat → List Int16 → Br (List Int16 × List Int16)
  | w, a :: b :: rest => do
    let f0 ← lift (wrap64 (a.toInt + b.toInt))
    let f0 ← lift (wrap64 (f0 * i2))
    let f0 ← reduceQ f0
    let f1 ← lift (wrap64 (a.toInt - b.toInt))
    let f1 ← lift (wrap64 (f1 * i2))
    let wa ← lift (idx w 0)
    let inv ← lift (idx inv_mod_q wa)
    let f1 ← lift (wrap64 (f1 * (inv : Int)))
    let f1 ← reduceQ f1
    let r ← splitLoop (w.drop 2) rest
    pure (f0 :: r.1, f1 :: r.2)
  | _, _ => pure ([], [])

/-- ntt.go:36-62 `SplitNTT`. -/
def SplitNTT (fNTT : List Int16) : Br (List Int16 × List Int16) :=
  splitLoop (roots_dict_Zq (Int16.ofNat fNTT.length)) fNTT

/-- ntt.go:74-89, the loop of `MergeNTT`. -/
def mergeLoop : List Nat → List Int16 → List Int16 → Br (List Int16)
  | _, [], _ => pure []
  | w, x :: f0, f1 => do
    let wa ← lift (idx w 0)
    let y ← lift (idx f1 0)
    let a ← lift (wrap64 ((wa : Int) * y.toInt))
    let a ← lift (wrap64 (a + x.toInt))
    let a ← reduceQ a
    let b ← lift (wrap64 ((wa : Int) * y.toInt))
    let b ← lift (wrap64 (x.toInt - b))
    let b ← reduceQ b
    let r ← mergeLoop (w.drop 2) f0 (f1.drop 1)
    pure (a :: b :: r)

/-- ntt.go:67-91 `MergeNTT`. -/
def MergeNTT (f0NTT f1NTT : List Int16) : Br (List Int16) :=
  mergeLoop (roots_dict_Zq (Int16.ofNat (2 * f0NTT.length))) f0NTT f1NTT

/-- ntt.go:96-121 `NTT`. -/
def NTT (f : List Int16) : Br (List Int16) :=
  if _h : f.length > 2 then do
    let f0_NTT ← NTT (splitPolys f).1
    let f1_NTT ← NTT (splitPolys f).2
    MergeNTT f0_NTT f1_NTT
  else match f with
    | [f0, f1] => do
      let a ← lift (wrap64 (sqr1 * f1.toInt))
      let x ← lift (wrap64 (f0.toInt + a))
      let x ← reduceQ x
      let y ← lift (wrap64 (f0.toInt - a))
      let y ← reduceQ y
      pure [x, y]
    | _ => pure []
termination_by f.length
decreasing_by
  all_goals have := splitPolys_length f; omega

/-- ntt.go:126-153 `INTT`. The recursion is on `fuel`, as the lengths of the halves are not known to be smaller before `SplitNTT` has run; it
is called with the length of the slice. -/
def INTTFuel : Nat → List Int16 → Br (List Int16)
  | 0, _ => pure []
  | fuel + 1, fNTT =>
    if fNTT.length > 2 then do
      let s ← SplitNTT fNTT
      let f0 ← INTTFuel fuel s.1
      let f1 ← INTTFuel fuel s.2
      lift (mergePolys f0 f1)
    else match fNTT with
      | [a, b] => do
        let x ← lift (wrap64 (a.toInt + b.toInt))
        let x ← lift (wrap64 (x * i2))
        let x ← reduceQ x
        let y ← lift (wrap64 (a.toInt - b.toInt))
        let inv ← lift (idx inv_mod_q 1479)
        let y ← lift (wrap64 (y * (inv : Int)))
        let y ← lift (wrap64 (y * i2))
        let y ← reduceQ y
        pure [x, y]
      | _ => pure []

/-- ntt.go:126-153 `INTT`. -/
def INTT (fNTT : List Int16) : Br (List Int16) := INTTFuel fNTT.length fNTT

/-- ntt.go:162-166, the loop of `addZq`. -/
def addLoop : List Int16 → List Int16 → Br (List Int16)
  | x :: f, y :: g => do
    let z ← reduceQ (x + y).toInt
    let r ← addLoop f g
    pure (z :: r)
  | _, _ => pure []

/-- ntt.go:156-168 `addZq`. -/
def addZq (f g : List Int16) : Br (List Int16) :=
  if f.length ≠ g.length then lift .panic else addLoop f g

/-- ntt.go:171-180 `negZq`. -/
def negZq : List Int16 → Br (List Int16)
  | x :: f => do
    let z ← reduceQ (-x).toInt
    let r ← negZq f
    pure (z :: r)
  | [] => pure []

/-- ntt.go:183-186 `SubZq`. -/
def SubZq (f g : List Int16) : Br (List Int16) := do
  let g ← negZq g
  addZq f g

/-- ntt.go:223-227, the loop of `mulNTT`. -/
def mulLoop : List Int16 → List Int16 → Br (List Int16)
  | x :: f, y :: g => do
    let z ← lift (wrap64 (x.toInt * y.toInt))
    let z ← reduceQ z
    let r ← mulLoop f g
    pure (z :: r)
  | _, _ => pure []

/-- ntt.go:217-229 `mulNTT`. -/
def mulNTT (f g : List Int16) : Br (List Int16) :=
  if f.length ≠ g.length then lift .panic else mulLoop f g

/-- ntt.go:189-193 `MulZq`. -/
def MulZq (f g : List Int16) : Br (List Int16) := do
  let ft ← NTT f
  let gt ← NTT g
  let p ← mulNTT ft gt
  INTT p

/-- ntt.go:237-241, the zero test of `divNTT`: it stops at the first zero. -/
def zeroTest : List Int16 → Br Bool
  | [] => pure false
  | y :: g => do
    if ← test (decide (y = 0)) then pure true
    else zeroTest g

/-- ntt.go:243-247, the loop of `divNTT`. -/
def divLoop : List Int16 → List Int16 → Br (List Int16)
  | x :: f, y :: g => do
    let inv ← lift (if y.toInt < 0 then .panic else idx inv_mod_q y.toInt.toNat)
    let z ← lift (wrap64 (x.toInt * (inv : Int)))
    let z ← reduceQ z
    let r ← divLoop f g
    pure (z :: r)
  | _, _ => pure []

/-- ntt.go:232-249 `divNTT`. -/
def divNTT (f g : List Int16) : Br (Except NttErr (List Int16)) :=
  if f.length ≠ g.length then lift .panic
  else do
    if ← zeroTest g then pure (.error .divByZero)
    else do
      let r ← divLoop f g
      pure (.ok r)

/-- ntt.go:196-204 `DivZq`. -/
def DivZq (f g : List Int16) : Br (Except NttErr (List Int16)) := do
  let ft ← NTT f
  let gt ← NTT g
  match ← divNTT ft gt with
  | .error e => pure (.error e)
  | .ok d => do
    let r ← INTT d
    pure (.ok r)

end Br
end Falcon
