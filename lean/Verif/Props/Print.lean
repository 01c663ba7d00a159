import Verif.Model.Print
import Verif.Model.Samplerz
import Mathlib.Data.Nat.Digits.Lemmas
import Mathlib.Tactic.Ring
/-!
# Properties of `printTree` (C76)
-/

namespace Falcon
open Falcon.AnyVal

/-! ### C76: printTree -/

/-- A tree that `printTree` can walk: every slice of three elements has slices as second and third element. -/
inductive Proper : AnyVal → Prop
  | leaf (l : List AnyVal) (h : l.length ≠ 3) : Proper (.slice l)
  | node (x l r : AnyVal) (hl : Proper l) (hr : Proper r) : Proper (.slice [x, l, r])

/-- A node of the tree: its position (the turns from the root, `true` for the second child) and what is printed for it. -/
structure Entry where
  path : List Bool
  isLeaf : Bool
  text : List Char

/-- The nodes of a tree in pre-order. -/
def entries : List Bool → AnyVal → List Entry
  | p, .slice [x, l, r] => ⟨p, false, x.sprint⟩ :: (entries (p ++ [false]) l ++ entries (p ++ [true]) r)
  | p, t => [⟨p, true, t.sprint⟩]

/-- The columns to the left of a node: one of eight characters for every ancestor below the root, a bar if there is a second child to come. -/
def columns (path : List Bool) : List Char := path.flatMap fun b => if b then ptSon2 else ptSon1

/-- What joins a node to its parent. -/
def mark (isLeaf : Bool) : List Char :=
  if isLeaf then ['|', '_', '_', '_', '_', '_', '>', ' '] else ['|', '_', '_', '_', '_', '_', '_', '_']

/-- The line of one node. -/
def Entry.line (e : Entry) : List Char :=
  (if e.path = [] then e.text else columns e.path.dropLast ++ mark e.isLeaf ++ e.text) ++ ['\n']

theorem columns_append (p q : List Bool) : columns (p ++ q) = columns p ++ columns q := by simp [columns]

theorem son_length (b : Bool) : (if b then ptSon2 else ptSon1).length = 8 := by cases b <;> decide

theorem columns_length (p : List Bool) : (columns p).length = 8 * p.length := by
  induction p with
  | nil => rfl
  | cons b p ih =>
    have := son_length b
    simp only [columns, List.flatMap_cons, List.length_append, List.length_cons] at ih ⊢
    omega

theorem ptCut_columns (p : List Bool) (h : p ≠ []) : ptCut (columns p) = .ok (columns p.dropLast) := by
  have e : p = p.dropLast ++ [p.getLast h] := (List.dropLast_append_getLast h).symm
  have hl := columns_length p
  have h8 : ptTop.length = 8 := by decide
  have hp : 1 ≤ p.length := List.length_pos_iff.2 h
  unfold ptCut
  rw [if_neg (by omega), h8, Go.ok.injEq]
  have hl' : (columns p).length - 8 = (columns p.dropLast).length := by rw [hl, columns_length, List.length_dropLast]; omega
  rw [hl']
  conv_lhs => rw [show columns p = columns p.dropLast ++ columns [p.getLast h] by rw [← columns_append, ← e]]
  rw [List.take_left]

theorem printTree_leaf (l : List AnyVal) (h : l.length ≠ 3) (p : List Char) : printTree (.slice l) p = (do
    let c ← ptCut p
    pure (c ++ ptLeaf ++ (AnyVal.slice l).sprint ++ ['\n'])) := by
  match l, h with
  | [], _ => rw [printTree]; simp
  | [_], _ => rw [printTree]; simp
  | [_, _], _ => rw [printTree]; simp
  | _ :: _ :: _ :: _ :: _, _ => rw [printTree]; simp

theorem entries_leaf (l : List AnyVal) (h : l.length ≠ 3) (p : List Bool) : entries p (.slice l) = [⟨p, true, (AnyVal.slice l).sprint⟩] := by
  match l, h with
  | [], _ => rw [entries]; simp
  | [_], _ => rw [entries]; simp
  | [_, _], _ => rw [entries]; simp
  | _ :: _ :: _ :: _ :: _, _ => rw [entries]; simp

theorem ptHead_columns (text : List Char) (p : List Bool) : ptHead text (columns p) = .ok (Entry.line ⟨p, false, text⟩) := by
  by_cases hp : p = []
  · subst hp; simp [ptHead, columns, Entry.line]
  · have hc : columns p ≠ [] := by
      intro hc
      have h1 := columns_length p
      have h2 : 1 ≤ p.length := List.length_pos_iff.2 hp
      rw [hc, List.length_nil] at h1
      omega
    rw [ptHead, if_neg hc, ptCut_columns p hp, Go.ok_bind, Go.pure_eq, Go.ok.injEq, Entry.line]
    simp only [hp, if_false, ptTop, mark, Bool.false_eq_true]

/-- The text printed for a tree below the node at `path`. -/
theorem printTree_entries (t : AnyVal) (ht : Proper t) (p : List Bool) (hp : p ≠ [] ∨ ∃ x l r, t = .slice [x, l, r]) :
    printTree t (columns p) = .ok ((entries p t).flatMap Entry.line) := by
  induction ht generalizing p with
  | leaf l h =>
    have hp' : p ≠ [] := by
      rcases hp with hp | ⟨x, a, b, e⟩
      · exact hp
      · simp only [slice.injEq] at e; rw [e] at h; simp at h
    rw [printTree_leaf l h, ptCut_columns p hp', entries_leaf l h, Go.ok_bind, Go.pure_eq, Go.ok.injEq, List.flatMap_cons,
      List.flatMap_nil, List.append_nil, Entry.line]
    simp only [hp', if_false, if_true, ptLeaf, mark]
  | node x l r _ _ ihl ihr =>
    have a1 := ihl (p ++ [false]) (Or.inl (by simp))
    have a2 := ihr (p ++ [true]) (Or.inl (by simp))
    rw [columns_append] at a1 a2
    have s1 : columns [false] = ptSon1 := by simp [columns]
    have s2 : columns [true] = ptSon2 := by simp [columns]
    rw [s1] at a1
    rw [s2] at a2
    rw [printTree, ptHead_columns, Go.ok_bind, a1, Go.ok_bind, a2, Go.ok_bind, Go.pure_eq, Go.ok.injEq, entries, List.flatMap_cons,
      List.flatMap_append, List.append_assoc]

/-- C76: for a tree with at least one inner node in which every inner node has two children, `printTree(tree, "")` returns one line per
node, in pre-order, each indented by its path. -/
theorem C76_lines (x l r : AnyVal) (hl : Proper l) (hr : Proper r) :
    printTree (.slice [x, l, r]) [] = .ok ((entries [] (.slice [x, l, r])).flatMap Entry.line) :=
  printTree_entries _ (.node x l r hl hr) [] (Or.inr ⟨_, _, _, rfl⟩)

/-- C76 (violated): a tree that is a single leaf makes `printTree(tree, "")` panic. -/
theorem C76_violated_leaf (l : List AnyVal) (h : l.length ≠ 3) : printTree (.slice l) [] = .panic := by
  rw [printTree_leaf l h]; rfl

theorem ptCut_not_diverge (p : List Char) : ptCut p ≠ .diverge := by unfold ptCut; split <;> simp

theorem ptHead_not_diverge (x p : List Char) : ptHead x p ≠ .diverge := by
  unfold ptHead
  split
  · simp
  · intro h
    rcases Go.bind_eq_diverge.1 h with h | ⟨_, _, h⟩
    · exact ptCut_not_diverge p h
    · simp at h

/-- C76: `printTree` terminates on every tree and prefix. -/
theorem C76_terminates (t : AnyVal) (p : List Char) : printTree t p ≠ .diverge := by
  have key : ∀ (n : Nat) (t : AnyVal), sizeOf t ≤ n → ∀ p, printTree t p ≠ .diverge := by
    intro n
    induction n with
    | zero => intro t h; cases t <;> simp at h
    | succ n ih =>
      intro t hn p
      match t with
      | .other _ => simp [printTree]
      | .slice [x, l, r] =>
        simp only [slice.sizeOf_spec, List.cons.sizeOf_spec, List.nil.sizeOf_spec] at hn
        rw [printTree]
        intro h
        rcases Go.bind_eq_diverge.1 h with h | ⟨_, _, h⟩
        · exact ptHead_not_diverge _ _ h
        · rcases Go.bind_eq_diverge.1 h with h | ⟨_, _, h⟩
          · exact ih l (by omega) _ h
          · rcases Go.bind_eq_diverge.1 h with h | ⟨_, _, h⟩
            · exact ih r (by omega) _ h
            · simp at h
      | .slice [] => exact leafcase _ _ (by simp)
      | .slice [_] => exact leafcase _ _ (by simp)
      | .slice [_, _] => exact leafcase _ _ (by simp)
      | .slice (_ :: _ :: _ :: _ :: _) => exact leafcase _ _ (by simp)
  exact key _ t le_rfl p
where
  leafcase (l : List AnyVal) (p : List Char) (h : l.length ≠ 3) : printTree (.slice l) p ≠ .diverge := by
    rw [printTree_leaf l h]
    intro h
    rcases Go.bind_eq_diverge.1 h with h | ⟨_, _, h⟩
    · exact ptCut_not_diverge p h
    · simp at h

/-- C76 (violated): every tree with a node whose child is not a `[]any` makes `printTree` panic, with any prefix. The trees of this package
have `[]complex128` vectors there. -/
theorem C76_violated_improper (t : AnyVal) (ht : ¬ Proper t) (p : List Char) : printTree t p = .panic := by
  have key : ∀ (n : Nat) (t : AnyVal), sizeOf t ≤ n → ¬ Proper t → ∀ p, printTree t p = .panic := by
    intro n
    induction n with
    | zero => intro t h; cases t <;> simp at h
    | succ n ih =>
      intro t hn ht p
      match t with
      | .other _ => rw [printTree]
      | .slice [x, l, r] =>
        simp only [slice.sizeOf_spec, List.cons.sizeOf_spec, List.nil.sizeOf_spec] at hn
        rw [printTree]
        cases e : ptHead x.sprint p with
        | diverge => exact absurd e (ptHead_not_diverge _ _)
        | panic => rfl
        | ok hh =>
          rw [Go.ok_bind]
          by_cases hl : Proper l
          · have hr : ¬ Proper r := fun hr => ht (.node x l r hl hr)
            rw [ih r (by omega) hr]
            cases e : printTree l (p ++ ptSon1) with
            | ok a => rfl
            | panic => rfl
            | diverge => exact absurd e (C76_terminates l _)
          · rw [ih l (by omega) hl]; rfl
      | .slice [] => exact absurd (.leaf _ (by simp)) ht
      | .slice [_] => exact absurd (.leaf _ (by simp)) ht
      | .slice [_, _] => exact absurd (.leaf _ (by simp)) ht
      | .slice (_ :: _ :: _ :: _ :: _) => exact absurd (.leaf _ (by simp)) ht
  exact key _ t le_rfl ht p

/-- C76: the exact outcome with the empty prefix: the call returns iff the tree has an inner node and every inner node has two `[]any` children. -/
theorem C76_exact_partial (t : AnyVal) :
    (∃ s, printTree t [] = .ok s) ↔ Proper t ∧ ∃ x l r, t = .slice [x, l, r] := by
  constructor
  · rintro ⟨s, hs⟩
    by_cases ht : Proper t
    · refine ⟨ht, ?_⟩
      cases ht with
      | leaf l h => rw [C76_violated_leaf l h] at hs; simp at hs
      | node x l r => exact ⟨x, l, r, rfl⟩
    · rw [C76_violated_improper t ht] at hs; simp at hs
  · rintro ⟨ht, h⟩
    exact ⟨_, printTree_entries t ht [] (Or.inr h)⟩

/-- C76: the text of a slice is the texts of its elements, separated by single spaces, between brackets. -/
theorem C76_text (l : List AnyVal) : (AnyVal.slice l).sprint = ['['] ++ [' '].intercalate (l.map AnyVal.sprint) ++ [']'] := by
  have key : ∀ l : List AnyVal, AnyVal.sprintList l = [' '].intercalate (l.map AnyVal.sprint) := by
    intro l
    induction l with
    | nil => simp [AnyVal.sprintList]
    | cons x l ih =>
      cases l with
      | nil => simp [AnyVal.sprintList]
      | cons y l =>
        rw [AnyVal.sprintList, ih]
        simp [List.intercalate]
  rw [AnyVal.sprint, key]
  rfl

/-- A tree of two inner nodes and three leaves. -/
example : Proper (.slice [.other ['a'], .slice [.other ['b'], .slice [.other ['1']], .slice [.other ['2'], .other ['3']]], .slice []]) ∧
    printTree (.slice [.other ['a'], .slice [.other ['b'], .slice [.other ['1']], .slice [.other ['2'], .other ['3']]], .slice []]) [] =
      .ok "a\n|_______b\n|       |_____> [1]\n|       |_____> [2 3]\n|_____> []\n".toList :=
  ⟨.node _ _ _ (.node _ _ _ (.leaf _ (by decide)) (.leaf _ (by decide))) (.leaf _ (by decide)), by rfl⟩

/-- The shape of an LDL tree of this package at degree 2: complex vectors as children. -/
example : ¬ Proper (.slice [.other "[(1+0i)]".toList, .other "[(2+0i)]".toList, .other "[(3+0i)]".toList]) := by
  intro h
  cases h with
  | leaf _ h => simp at h
  | node _ _ _ hl => cases hl

end Falcon
