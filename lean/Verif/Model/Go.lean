/-!
# Go run-time conventions used by every model file

Not a model of a particular repository file: these are the Go language rules the model relies on
(Go spec: "Index expressions", "Slice expressions", "Run-time panics", integer overflow).
-/

namespace Falcon

/-- Outcome of running Go code: a value, a run-time panic, or (for loops and recursions that may not
terminate) running out of the fuel given to the model. -/
inductive Go (α : Type u) where
  | ok (a : α)
  | panic
  | diverge
  deriving Repr, DecidableEq

namespace Go

/-- Sequencing: a panic or divergence of the first statement is the outcome of the whole. -/
def bind {α β : Type u} (x : Go α) (f : α → Go β) : Go β :=
  match x with
  | ok a => f a
  | panic => panic
  | diverge => diverge

instance : Monad Go where
  pure := ok
  bind := Go.bind

@[simp] theorem pure_eq {α : Type u} (a : α) : (pure a : Go α) = ok a := rfl
@[simp] theorem ok_bind {α β : Type u} (a : α) (f : α → Go β) : (ok a >>= f) = f a := rfl
@[simp] theorem panic_bind {α β : Type u} (f : α → Go β) : ((panic : Go α) >>= f) = panic := rfl
@[simp] theorem diverge_bind {α β : Type u} (f : α → Go β) : ((diverge : Go α) >>= f) = diverge := rfl

theorem bind_eq_ok {α β : Type u} {x : Go α} {f : α → Go β} {b : β} :
    (x >>= f) = ok b ↔ ∃ a, x = ok a ∧ f a = ok b := by
  cases x <;> simp

theorem bind_eq_panic {α β : Type u} {x : Go α} {f : α → Go β} :
    (x >>= f) = panic ↔ x = panic ∨ ∃ a, x = ok a ∧ f a = panic := by
  cases x <;> simp

theorem bind_eq_diverge {α β : Type u} {x : Go α} {f : α → Go β} :
    (x >>= f) = diverge ↔ x = diverge ∨ ∃ a, x = ok a ∧ f a = diverge := by
  cases x <;> simp

instance : LawfulMonad Go := LawfulMonad.mk'
  (id_map := by intro α x; cases x <;> rfl)
  (pure_bind := by intros; rfl)
  (bind_assoc := by intro α β γ x f g; cases x <;> rfl)
  (bind_pure_comp := by intro α β f x; cases x <;> rfl)

end Go

/-- `s[i]`: panics when the index is out of range. -/
def idx {α : Type u} (s : List α) (i : Nat) : Go α :=
  match s[i]? with
  | some a => .ok a
  | none => .panic

/-- `s[lo:hi]` on a slice or string with `cap = len`: panics unless `lo ≤ hi ≤ len`. -/
def slice {α : Type u} (s : List α) (lo hi : Nat) : Go (List α) :=
  if lo ≤ hi ∧ hi ≤ s.length then .ok ((s.take hi).drop lo) else .panic

/-- Result of a 64-bit `int` operation whose mathematical value is `x` (two's complement wrap). -/
def i64 (x : Int) : Int := Int.bmod x (2 ^ 64)

end Falcon
