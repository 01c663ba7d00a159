import Verif.Model.Slice
/-!
# Several calls at the same time

Goroutines that call functions of `src/falcon.go` and `src/internal/transforms/ntt/ntt.go` at the same time share the arrays that existed before
(keys, polynomials). An array that a call makes has no name outside of the call: the elements of the arrays are numbers, and the functions have no
other means of communication (there are no package-level variables that they write). Therefore the arrays of one goroutine are numbered separately.

The accesses of the goroutines are interleaved one by one in an arbitrary order. The Go memory model guarantees this view for programs without data
races; that there are none is part of the theorems (C81). A panic or a missing result of one goroutine does not stop the others here.
-/

namespace Falcon.Sl

/-- A goroutine: the rest of its code, and the arrays it made. -/
structure Thread (α : Type) where
  code : MM α
  made : Nat
  own : Nat → List Int16

/-- The goroutines and the arrays with a number below `base`, which they share. -/
structure Sys (α : Type) where
  base : Nat
  shared : Nat → List Int16
  threads : List (Thread α)

/-- The array `a` as a goroutine sees it. -/
def Sys.sees {α : Type} (st : Sys α) (th : Thread α) (a : Nat) : List Int16 := if a < st.base then st.shared a else th.own a

/-- `f` with the value `l` at `a`. -/
def updArr (f : Nat → List Int16) (a : Nat) (l : List Int16) : Nat → List Int16 := fun b => if b = a then l else f b

/-- The next access of goroutine `t`; nothing happens if it is finished or does not exist. -/
def Sys.step {α : Type} (st : Sys α) (t : Nat) : Sys α :=
  match st.threads[t]? with
  | none => st
  | some th =>
    match th.code with
    | .done _ => st
    | .make l k =>
      { st with threads := st.threads.set t ⟨k (st.base + th.made), th.made + 1, updArr th.own (st.base + th.made) l⟩ }
    | .load a i k =>
      match (st.sees th a)[i]? with
      | some v => { st with threads := st.threads.set t { th with code := k v } }
      | none => { st with threads := st.threads.set t { th with code := .done .panic } }
    | .store a i v k =>
      if a < st.base then
        { st with shared := updArr st.shared a ((st.shared a).set i v), threads := st.threads.set t { th with code := k } }
      else { st with threads := st.threads.set t { th with code := k, own := updArr th.own a ((th.own a).set i v) } }
    | .look i k =>
      match invAt i with
      | .ok v => { st with threads := st.threads.set t { th with code := k v } }
      | _ => { st with threads := st.threads.set t { th with code := .done .panic } }

/-- The accesses in the order given by a list of goroutine numbers. -/
def Sys.run {α : Type} (st : Sys α) (order : List Nat) : Sys α := order.foldl Sys.step st

/-- Goroutines at their start; all arrays of `m` are shared. -/
def start {α : Type} (m : Mem) (code : List (MM α)) : Sys α := ⟨m.next, m.arr, code.map fun c => ⟨c, 0, m.arr⟩⟩

/-- The functions that may be called. -/
inductive Call where
  | mul (f g : Slice)
  | sub (f g : Slice)
  | div (f g : Slice)
  | publicKey (k : PrivateKey)
  | verify (grow : Nat → Nat) (xof : Xof) (fuel : Nat) (key : Slice) (message signature : List UInt8)
  | verifyBytes (grow : Nat → Nat) (xof : Xof) (fuel : Nat) (inputBytes : List UInt8)

/-- What they return, with the elements of a slice. -/
inductive Res where
  | ints (l : List Int16)
  | key (k : Falcon.PublicKey)
  | error (e : NttErr)
  | bool (b : Bool)
  deriving DecidableEq

/-- The call (ntt.go:183-204, falcon.go:116-123, 444-499, 503-591); the caller then reads the elements of the result. -/
def Call.code : Call → MM Res
  | .mul f g => do
    let s ← MulZq wrap64 f g
    let l ← loadAll s s.len 0
    pure (.ints l)
  | .sub f g => do
    let s ← SubZq f g
    let l ← loadAll s s.len 0
    pure (.ints l)
  | .div f g => do
    match ← DivZq wrap64 f g with
    | .error e => pure (.error e)
    | .ok s => do
      let l ← loadAll s s.len 0
      pure (.ints l)
  | .publicKey k => do
    let p ← GetPublicKey k
    let l ← loadAll p.h p.h.len 0
    pure (.key ⟨p.n, l⟩)
  | .verify grow xof fuel key message signature => do
    let b ← Verify grow xof fuel key message signature
    pure (.bool b)
  | .verifyBytes grow xof fuel inputBytes => do
    let b ← VerifyBytes grow xof fuel inputBytes
    pure (.bool b)

end Falcon.Sl
