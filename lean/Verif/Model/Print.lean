import Verif.Model.Go
/-!
# Model of `printTree` (`src/falcon.go`) and of `NewBigIntFromString` (`src/types/bignum.go`)

A Go string is the list of its bytes, written as characters.
-/

namespace Falcon

/-- A value of type `any`, as far as `printTree` sees it: a `[]any`, or a value of another dynamic type with its `fmt.Sprint` text. -/
inductive AnyVal where
  | slice (l : List AnyVal)
  | other (text : List Char)

mutual
/-- `fmt.Sprint(x)`: a slice prints as its elements between brackets, separated by spaces. -/
def AnyVal.sprint : AnyVal → List Char
  | .other s => s
  | .slice l => '[' :: (AnyVal.sprintList l ++ [']'])
/-- The elements of a slice, separated by spaces. -/
def AnyVal.sprintList : List AnyVal → List Char
  | [] => []
  | [x] => x.sprint
  | x :: y :: l => x.sprint ++ ' ' :: AnyVal.sprintList (y :: l)
end

/-- falcon.go:71 `leaf`. -/
def ptLeaf : List Char := ['|', '_', '_', '_', '_', '_', '>', ' ']
/-- falcon.go:72 `top`. -/
def ptTop : List Char := ['|', '_', '_', '_', '_', '_', '_', '_']
/-- falcon.go:73 `son1`. -/
def ptSon1 : List Char := ['|', ' ', ' ', ' ', ' ', ' ', ' ', ' ']
/-- falcon.go:74 `son2`. -/
def ptSon2 : List Char := [' ', ' ', ' ', ' ', ' ', ' ', ' ', ' ']

/-- `prefix[:len(prefix)-width]` with `width := len(top)` (falcon.go:75, 82, 88): a negative bound panics. -/
def ptCut (p : List Char) : Go (List Char) :=
  if p.length < ptTop.length then .panic else .ok (p.take (p.length - ptTop.length))

/-- falcon.go:79-83: the line of an inner node. -/
def ptHead (text p : List Char) : Go (List Char) :=
  if p = [] then .ok (p ++ text ++ ['\n']) else do
    let c ← ptCut p
    pure (c ++ ptTop ++ text ++ ['\n'])

/-- falcon.go:70-90 `printTree`. The argument is the tree as an `any`; the type assertions `tree[1].([]any)`, `tree[2].([]any)`
(falcon.go:84-85) are the first case. Go evaluates the heading before the assertions and the first child before the second assertion;
all failures are the same panic. -/
def printTree : AnyVal → List Char → Go (List Char)
  | .other _, _ => .panic
  | .slice [x, l, r], p => do
    let head ← ptHead x.sprint p
    let a ← printTree l (p ++ ptSon1)
    let b ← printTree r (p ++ ptSon2)
    pure (head ++ a ++ b)
  | .slice l, p => do
    let c ← ptCut p
    pure (c ++ ptLeaf ++ (AnyVal.slice l).sprint ++ ['\n'])

/-- The value of a character as a digit, as in `nat.scan` of `math/big` with a base of at most 36: `0`-`9`, then the letters of either case;
`none` for a character that is no digit of base `b`. -/
def digitVal (b : Nat) (ch : Char) : Option Nat :=
  let d :=
    if '0' ≤ ch ∧ ch ≤ '9' then ch.toNat - '0'.toNat
    else if 'a' ≤ ch ∧ ch ≤ 'z' then ch.toNat - 'a'.toNat + 10
    else if 'A' ≤ ch ∧ ch ≤ 'Z' then ch.toNat - 'A'.toNat + 10
    else 63
  if d < b then some d else none

/-- The variables of the loop of `nat.scan`: the kind of the previous character (`'_'`, `'0'` for a digit, `'.'` for anything else), whether
a misplaced separator was seen, the number of digits, the value. -/
structure Scan where
  prev : Char
  inval : Bool
  count : Nat
  val : Nat
  deriving DecidableEq, Repr

/-- The loop of `nat.scan` with base argument 0 and actual base `b`; the second component is the text left unread. -/
def scanLoop (b : Nat) : Scan → List Char → Scan × List Char
  | st, [] => (st, [])
  | st, ch :: r =>
    if ch = '_' then scanLoop b { st with inval := st.inval || st.prev != '0', prev := '_' } r
    else match digitVal b ch with
      | none => (st, ch :: r)
      | some d => scanLoop b { st with prev := '0', count := st.count + 1, val := st.val * b + d } r

/-- The tests after the loop of `nat.scan`; `octal` says that the prefix was a bare `0`. -/
def scanEnd (octal : Bool) (q : Scan × List Char) : Option (Nat × List Char) :=
  if q.1.inval || q.1.prev == '_' then none
  else if q.1.count == 0 then (if octal then some (0, q.2) else none)
  else some (q.1.val, q.2)

/-- `nat.scan(r, 0, false)` of `math/big`: the value and the text left unread, `none` for an error. -/
def natScan (s : List Char) : Option (Nat × List Char) :=
  match s with
  | '0' :: [] => scanEnd false (⟨'0', false, 1, 0⟩, [])
  | '0' :: ch :: r =>
    if ch = 'b' ∨ ch = 'B' then scanEnd false (scanLoop 2 ⟨'0', false, 0, 0⟩ r)
    else if ch = 'o' ∨ ch = 'O' then scanEnd false (scanLoop 8 ⟨'0', false, 0, 0⟩ r)
    else if ch = 'x' ∨ ch = 'X' then scanEnd false (scanLoop 16 ⟨'0', false, 0, 0⟩ r)
    else scanEnd true (scanLoop 8 ⟨'0', false, 0, 0⟩ (ch :: r))
  | s => scanEnd false (scanLoop 10 ⟨'.', false, 0, 0⟩ s)

/-- bignum.go:9-13 `NewBigIntFromString`: `SetString(s, 0)` of `math/big`, which reads an optional sign and a number and wants the whole
text to be consumed. `none` is a failed conversion: the code ignores the failure and returns a number whose value the Go documentation
leaves undefined. The text is a list of characters where the library reads bytes; no byte of a character outside ASCII is part of a
number. -/
def NewBigIntFromString (s : List Char) : Option Int :=
  let whole (q : Option (Nat × List Char)) : Option Nat := q.bind fun v => if v.2 = [] then some v.1 else none
  match s with
  | '-' :: r => (whole (natScan r)).map fun v => -Int.ofNat v
  | '+' :: r => (whole (natScan r)).map Int.ofNat
  | r => (whole (natScan r)).map Int.ofNat

/-- The literals of samplerz.go:27-44. -/
def rcdtStrings : List (List Char) := [
  "3024686241123004913666", "1564742784480091954050", "636254429462080897535", "199560484645026482916", "47667343854657281903",
  "8595902006365044063", "1163297957344668388", "117656387352093658", "8867391802663976", "496969357462633", "20680885154299",
  "638331848991", "14602316184", "247426747", "3104126", "28824", "198", "1"].map String.toList

end Falcon
