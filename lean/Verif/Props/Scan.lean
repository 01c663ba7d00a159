import Verif.Model.Print
import Verif.Model.Samplerz
import Mathlib.Data.List.Induction
import Mathlib.Tactic.Ring
import Mathlib.Tactic.IntervalCases
/-!
# Properties of `NewBigIntFromString` (C77)
-/

namespace Falcon

/-! ### C77: NewBigIntFromString -/

/-- The decimal text of a number. -/
def decimal (n : Nat) : List Char := if n < 10 then [Char.ofNat (48 + n)] else decimal (n / 10) ++ [Char.ofNat (48 + n % 10)]
termination_by n

theorem scanLoop_append (b : Nat) (st : Scan) (s : List Char) (c : Char) : scanLoop b st (s ++ [c]) =
    match scanLoop b st s with
    | (st', []) => scanLoop b st' [c]
    | (st', x :: r) => (st', (x :: r) ++ [c]) := by
  induction s generalizing st with
  | nil => simp [scanLoop]
  | cons x s ih =>
    simp only [List.cons_append, scanLoop]
    split
    · exact ih _
    · split
      · rfl
      · exact ih _

/-- `c` is the digit of value `d` in base `b`. -/
def IsDigit (b : Nat) (c : Char) (d : Nat) : Prop :=
  d < b ∧ ("0123456789abcdef".toList[d]? = some c ∨ "0123456789ABCDEF".toList[d]? = some c)

/-- DigitText in base `b`, with at most one underscore between two of them, and their value. -/
inductive DigitText (b : Nat) : List Char → Nat → Prop
  | one {c d} : IsDigit b c d → DigitText b [c] d
  | next {s v c d} : DigitText b s v → IsDigit b c d → DigitText b (s ++ [c]) (v * b + d)
  | sep {s v c d} : DigitText b s v → IsDigit b c d → DigitText b (s ++ ['_', c]) (v * b + d)

/-- The integer literals of the Go language and their values. -/
inductive Literal : List Char → Nat → Prop
  | zero : Literal ['0'] 0
  | decimal {c r v} : c ≠ '0' → DigitText 10 (c :: r) v → Literal (c :: r) v
  | octal {r v} : DigitText 8 r v → Literal ('0' :: r) v
  | octalSep {r v} : DigitText 8 r v → Literal ('0' :: '_' :: r) v
  | prefixed {b p r v} : (p, b) ∈ [('b', 2), ('B', 2), ('o', 8), ('O', 8), ('x', 16), ('X', 16)] → DigitText b r v → Literal ('0' :: p :: r) v
  | prefixedSep {b p r v} : (p, b) ∈ [('b', 2), ('B', 2), ('o', 8), ('O', 8), ('x', 16), ('X', 16)] → DigitText b r v →
    Literal ('0' :: p :: '_' :: r) v

instance (b : Nat) (c : Char) (d : Nat) : Decidable (IsDigit b c d) := by unfold IsDigit; infer_instance

theorem digitVal_isDigit (b : Nat) (hb : b ≤ 16) (c : Char) (d : Nat) : digitVal b c = some d ↔ IsDigit b c d := by
  by_cases hd : d < b
  · by_cases hc : c.toNat < 128
    · have H : ∀ b < 17, ∀ d < b, ∀ n < 128, digitVal b (Char.ofNat n) = some d ↔ IsDigit b (Char.ofNat n) d := by decide +kernel
      have := H b (by omega) d hd c.toNat hc
      rwa [Char.ofNat_toNat] at this
    · constructor
      · intro h
        exfalso
        have h1 : ¬ c ≤ '9' := fun h => hc (lt_of_le_of_lt (show c.toNat ≤ 57 from Char.le_def.mp h) (by decide))
        have h2 : ¬ c ≤ 'z' := fun h => hc (lt_of_le_of_lt (show c.toNat ≤ 122 from Char.le_def.mp h) (by decide))
        have h3 : ¬ c ≤ 'Z' := fun h => hc (lt_of_le_of_lt (show c.toNat ≤ 90 from Char.le_def.mp h) (by decide))
        simp [digitVal, h1, h2, h3] at h
        omega
      · rintro ⟨_, h | h⟩
        · have H : ∀ x ∈ "0123456789abcdef".toList, x.toNat < 128 := by decide
          exact absurd (H c (List.mem_of_getElem? h)) hc
        · have H : ∀ x ∈ "0123456789ABCDEF".toList, x.toNat < 128 := by decide
          exact absurd (H c (List.mem_of_getElem? h)) hc
  · constructor
    · intro h
      unfold digitVal at h
      simp only [Option.ite_none_right_eq_some, Option.some.injEq] at h
      exact absurd (h.2 ▸ h.1) hd
    · intro h; exact absurd h.1 hd

theorem isDigit_ne {b : Nat} {c : Char} {d : Nat} (h : IsDigit b c d) : c ≠ '_' := by
  rintro rfl
  rcases h.2 with h | h
  · exact absurd (List.mem_of_getElem? h) (by decide)
  · exact absurd (List.mem_of_getElem? h) (by decide)

/-- What may follow a prefix: digits, after an underscore if the text before ended in a digit or prefix (`p = '0'`). -/
def Body (b : Nat) (p : Char) (s : List Char) (v : Nat) : Prop :=
  DigitText b s v ∨ (p = '0' ∧ ∃ r, s = '_' :: r ∧ DigitText b r v)

theorem Body.next {b p s v c d} (h : Body b p s v) (hd : IsDigit b c d) : Body b p (s ++ [c]) (v * b + d) := by
  rcases h with h | ⟨hp, r, rfl, h⟩
  · exact .inl (h.next hd)
  · exact .inr ⟨hp, r ++ [c], rfl, h.next hd⟩

theorem Body.sep {b p s v c d} (h : Body b p s v) (hd : IsDigit b c d) : Body b p (s ++ ['_'] ++ [c]) (v * b + d) := by
  rw [List.append_assoc]
  rcases h with h | ⟨hp, r, rfl, h⟩
  · exact .inl (h.sep hd)
  · exact .inr ⟨hp, r ++ ['_', c], rfl, h.sep hd⟩

theorem step_digit {b c d} (st : Scan) (hb : b ≤ 16) (h : IsDigit b c d) :
    scanLoop b st [c] = (⟨'0', st.inval, st.count + 1, st.val * b + d⟩, []) := by
  simp [scanLoop, isDigit_ne h, (digitVal_isDigit b hb c d).mpr h]

theorem step_sep (b : Nat) (st : Scan) : scanLoop b st ['_'] = (⟨'_', st.inval || st.prev != '0', st.count, st.val⟩, []) := by
  simp [scanLoop]

/-- The loop on digits reads their value. -/
theorem loop_digits {b : Nat} (hb : b ≤ 16) {s : List Char} {v : Nat} (h : DigitText b s v) (p : Char) (k : Nat) :
    ∃ n, scanLoop b ⟨p, false, k, 0⟩ s = (⟨'0', false, n + 1, v⟩, []) := by
  induction h with
  | one hd => exact ⟨k, by rw [step_digit _ hb hd]; simp⟩
  | next _ hd ih =>
    obtain ⟨n, e⟩ := ih
    exact ⟨n + 1, by rw [scanLoop_append, e]; simp only; rw [step_digit _ hb hd]⟩
  | @sep s v c d _ hd ih =>
    obtain ⟨n, e⟩ := ih
    refine ⟨n + 1, ?_⟩
    rw [show s ++ ['_', c] = s ++ ['_'] ++ [c] by simp, scanLoop_append, scanLoop_append, e]
    simp only [step_sep]
    rw [step_digit _ hb hd]
    simp

theorem loop_body {b : Nat} (hb : b ≤ 16) {p : Char} {s : List Char} {v : Nat} (h : Body b p s v) :
    ∃ n, scanLoop b ⟨p, false, 0, 0⟩ s = (⟨'0', false, n + 1, v⟩, []) := by
  rcases h with h | ⟨rfl, r, rfl, h⟩
  · exact loop_digits hb h p 0
  · obtain ⟨n, e⟩ := loop_digits hb h '_' 0
    refine ⟨n, ?_⟩
    rw [← e]
    simp [scanLoop]

/-- What the loop has read when it reaches the end of the text without a misplaced separator. -/
theorem loop_inv {b : Nat} (hb : b ≤ 16) (p : Char) (s : List Char) (st : Scan)
    (h : scanLoop b ⟨p, false, 0, 0⟩ s = (st, [])) (hi : st.inval = false) :
    (s = [] ∧ st = ⟨p, false, 0, 0⟩) ∨ (st.prev = '0' ∧ 0 < st.count ∧ Body b p s st.val) ∨
    (st.prev = '_' ∧ ((p = '0' ∧ s = ['_'] ∧ st.count = 0 ∧ st.val = 0) ∨ ∃ t, s = t ++ ['_'] ∧ Body b p t st.val)) := by
  induction s using List.reverseRecOn generalizing st with
  | nil => simp [scanLoop] at h; exact .inl ⟨rfl, h.symm⟩
  | append_singleton s c ih =>
    rw [scanLoop_append] at h
    split at h
    · rename_i st' e
      by_cases hc : c = '_'
      · subst hc
        rw [step_sep] at h
        injection h with h _
        subst h
        simp only [Bool.or_eq_false_iff, bne_eq_false_iff_eq] at hi
        right; right
        refine ⟨rfl, ?_⟩
        rcases ih st' e hi.1 with ⟨rfl, rfl⟩ | ⟨_, _, hB⟩ | ⟨hp, _⟩
        · exact .inl ⟨hi.2, rfl, rfl, rfl⟩
        · exact .inr ⟨s, rfl, hB⟩
        · rw [hp] at hi; exact absurd hi.2 (by decide)
      · cases hd : digitVal b c with
        | none => simp [scanLoop, hc, hd] at h
        | some d =>
          have hD := (digitVal_isDigit b hb c d).mp hd
          rw [step_digit _ hb hD] at h
          injection h with h _
          subst h
          simp only at hi
          right; left
          refine ⟨rfl, by simp, ?_⟩
          simp only
          rcases ih st' e hi with ⟨rfl, rfl⟩ | ⟨_, _, hB⟩ | ⟨_, ⟨hp, rfl, _, hv⟩ | ⟨t, rfl, hB⟩⟩
          · exact .inl (by simpa using DigitText.one hD)
          · exact hB.next hD
          · exact .inr ⟨hp, [c], rfl, by rw [hv]; simpa using DigitText.one hD⟩
          · exact hB.sep hD
    · rename_i e
      simp at h

/-- A text is read to its end by the loop and accepted by the tests after it exactly when it is a body. -/
theorem scanEnd_body {b : Nat} (hb : b ≤ 16) (p : Char) (o : Bool) (s : List Char) (hs : s = [] → o = false) (v : Nat) :
    scanEnd o (scanLoop b ⟨p, false, 0, 0⟩ s) = some (v, []) ↔ Body b p s v := by
  constructor
  · intro h
    obtain ⟨⟨st, r⟩, e⟩ : ∃ q, scanLoop b ⟨p, false, 0, 0⟩ s = q := ⟨_, rfl⟩
    rw [e] at h
    unfold scanEnd at h
    split at h
    · cases h
    rename_i hi
    simp only [Bool.or_eq_true, beq_iff_eq, not_or, Bool.not_eq_true] at hi
    have hr : r = [] := by
      split at h
      · split at h
        · simp at h; exact h.2
        · cases h
      · simp at h; exact h.2
    subst hr
    rcases loop_inv hb p s st e hi.1 with ⟨h0, rfl⟩ | ⟨_, hc, hB⟩ | ⟨h0, _⟩
    · simp [hs h0] at h
    · rw [if_neg (by simp; omega)] at h
      simp at h
      rwa [← h]
    · exact absurd h0 hi.2
  · intro h
    obtain ⟨n, e⟩ := loop_body hb h
    rw [e]
    simp [scanEnd]

theorem digits_ne {b s v} (h : DigitText b s v) : s ≠ [] := by cases h <;> simp

theorem digits_head {b s v} (h : DigitText b s v) : ∃ c r d, s = c :: r ∧ IsDigit b c d := by
  induction h with
  | one h => exact ⟨_, _, _, rfl, h⟩
  | next _ _ ih => obtain ⟨c, r, d, rfl, h⟩ := ih; exact ⟨c, _, d, rfl, h⟩
  | sep _ _ ih => obtain ⟨c, r, d, rfl, h⟩ := ih; exact ⟨c, _, d, rfl, h⟩

theorem lit_prefix {q : Char} {b : Nat} (hq : (q, b) ∈ [('b', 2), ('B', 2), ('o', 8), ('O', 8), ('x', 16), ('X', 16)])
    (r : List Char) (v : Nat) : Literal ('0' :: q :: r) v ↔ Body b '0' r v := by
  have hno : ∀ d, ¬ IsDigit 8 q d := by
    intro d h
    have H : ∀ x ∈ [('b', 2), ('B', 2), ('o', 8), ('O', 8), ('x', 16), ('X', 16)], ∀ d < 8, ¬ IsDigit 8 x.1 d := by decide
    exact H _ hq d h.1 h
  have huni : ∀ b', (q, b') ∈ [('b', 2), ('B', 2), ('o', 8), ('O', 8), ('x', 16), ('X', 16)] → b' = b := by
    intro b' h
    have H : ∀ x ∈ [('b', 2), ('B', 2), ('o', 8), ('O', 8), ('x', 16), ('X', 16)],
        ∀ y ∈ [('b', 2), ('B', 2), ('o', 8), ('O', 8), ('x', 16), ('X', 16)], x.1 = y.1 → x.2 = y.2 := by decide
    exact H _ h _ hq rfl
  constructor
  · intro h
    cases h with
    | decimal h => exact absurd rfl h
    | octal h =>
      obtain ⟨c, r', d, e, hd⟩ := digits_head h
      injection e with e _
      subst e
      exact absurd hd (hno d)
    | octalSep h => exact absurd hq (by simp)
    | prefixed hm h => rw [huni _ hm] at h; exact .inl h
    | prefixedSep hm h => rw [huni _ hm] at h; exact .inr ⟨rfl, _, rfl, h⟩
  · rintro (h | ⟨_, r, rfl, h⟩)
    · exact .prefixed hq h
    · exact .prefixedSep hq h

/-- `nat.scan` reads a whole text exactly when it is a literal. -/
theorem natScan_literal (s : List Char) (v : Nat) : natScan s = some (v, []) ↔ Literal s v := by
  unfold natScan
  split
  · constructor
    · intro h
      simp [scanEnd] at h
      rw [← h]; exact .zero
    · intro h
      cases h with
      | zero => rfl
      | decimal h => exact absurd rfl h
      | octal h => exact absurd rfl (digits_ne h)
  · rename_i ch r
    split
    · rename_i h
      rw [scanEnd_body (by omega) _ _ _ (fun _ => rfl), lit_prefix (b := 2) (by rcases h with rfl | rfl <;> simp)]
    split
    · rename_i h
      rw [scanEnd_body (by omega) _ _ _ (fun _ => rfl), lit_prefix (b := 8) (by rcases h with rfl | rfl <;> simp)]
    split
    · rename_i h
      rw [scanEnd_body (by omega) _ _ _ (fun _ => rfl), lit_prefix (b := 16) (by rcases h with rfl | rfl <;> simp)]
    · rename_i h1 h2 h3
      rw [scanEnd_body (by omega) _ _ _ (by simp)]
      have hq : ∀ b, (ch, b) ∉ [('b', 2), ('B', 2), ('o', 8), ('O', 8), ('x', 16), ('X', 16)] := by
        intro b h
        simp only [List.mem_cons, Prod.mk.injEq, List.not_mem_nil, or_false] at h
        tauto
      constructor
      · rintro (h | ⟨_, r', e, h⟩)
        · exact .octal h
        · rw [e]; exact .octalSep h
      · intro h
        cases h with
        | decimal h => exact absurd rfl h
        | octal h => exact .inl h
        | octalSep h => exact .inr ⟨rfl, _, rfl, h⟩
        | prefixed hm _ => exact absurd hm (hq _)
        | prefixedSep hm _ => exact absurd hm (hq _)
  · rename_i h1 h2
    rw [scanEnd_body (by omega) _ _ _ (fun _ => rfl)]
    constructor
    · rintro (h | ⟨h, _⟩)
      · obtain ⟨c, r, d, rfl, hd⟩ := digits_head h
        refine .decimal ?_ h
        rintro rfl
        cases r with
        | nil => exact h1 rfl
        | cons x r => exact h2 x r rfl
      · exact absurd h (by decide)
    · intro h
      cases h with
      | zero => exact absurd rfl h1
      | decimal _ h => exact .inl h
      | octal h =>
        obtain ⟨c, r, d, rfl, hd⟩ := digits_head h
        exact absurd rfl (h2 c r)
      | octalSep h => exact absurd rfl (h2 _ _)
      | prefixed _ h => exact absurd rfl (h2 _ _)
      | prefixedSep _ h => exact absurd rfl (h2 _ _)

/-- The texts of integers: a literal of the Go language, possibly after a sign. -/
def IntText (s : List Char) (z : Int) : Prop :=
  ∃ r v, Literal r v ∧ ((s = r ∧ z = v) ∨ (s = '+' :: r ∧ z = v) ∨ (s = '-' :: r ∧ z = -v))

theorem literal_head {s v} (h : Literal s v) : ∃ c r, s = c :: r ∧ c ≠ '-' ∧ c ≠ '+' := by
  cases h with
  | decimal hc h =>
    obtain ⟨c, r, d, e, hd⟩ := digits_head h
    refine ⟨_, _, rfl, ?_⟩
    injection e with e _
    rw [e]
    have H : ∀ d < 10, ¬ IsDigit 10 '-' d ∧ ¬ IsDigit 10 '+' d := by decide
    constructor <;> rintro rfl
    · exact (H d hd.1).1 hd
    · exact (H d hd.1).2 hd
  | _ => exact ⟨_, _, rfl, by decide, by decide⟩

theorem whole_literal (r : List Char) (v : Nat) :
    ((natScan r).bind fun q => if q.2 = [] then some q.1 else none) = some v ↔ Literal r v := by
  rw [← natScan_literal]
  cases h : natScan r with
  | none => simp
  | some q =>
    obtain ⟨a, t⟩ := q
    simp only [Option.bind_some, Option.some.injEq, Prod.mk.injEq]
    by_cases ht : t = [] <;> simp [ht]

/-- C77: a text is accepted exactly when it is an integer literal of the Go language, possibly after a sign, and is then read as its value. -/
theorem C77_grammar (s : List Char) (z : Int) : NewBigIntFromString s = some z ↔ IntText s z := by
  unfold NewBigIntFromString IntText
  simp only
  split
  · rename_i r
    simp only [Option.map_eq_some_iff, whole_literal]
    constructor
    · rintro ⟨v, h, rfl⟩
      exact ⟨r, v, h, .inr (.inr ⟨rfl, rfl⟩)⟩
    · rintro ⟨r', v, h, ⟨e, _⟩ | ⟨e, _⟩ | ⟨e, rfl⟩⟩
      · obtain ⟨c, t, rfl, h1, _⟩ := literal_head h
        injection e with e _; exact absurd e.symm h1
      · injection e with e _; exact absurd e (by decide)
      · injection e with _ e; subst e; exact ⟨v, h, rfl⟩
  · rename_i r
    simp only [Option.map_eq_some_iff, whole_literal]
    constructor
    · rintro ⟨v, h, rfl⟩
      exact ⟨r, v, h, .inr (.inl ⟨rfl, rfl⟩)⟩
    · rintro ⟨r', v, h, ⟨e, _⟩ | ⟨e, rfl⟩ | ⟨e, _⟩⟩
      · obtain ⟨c, t, rfl, _, h1⟩ := literal_head h
        injection e with e _; exact absurd e.symm h1
      · injection e with _ e; subst e; exact ⟨v, h, rfl⟩
      · injection e with e _; exact absurd e (by decide)
  · rename_i h1 h2
    simp only [Option.map_eq_some_iff, whole_literal]
    constructor
    · rintro ⟨v, h, rfl⟩
      exact ⟨s, v, h, .inl ⟨rfl, rfl⟩⟩
    · rintro ⟨r', v, h, ⟨rfl, rfl⟩ | ⟨e, _⟩ | ⟨e, _⟩⟩
      · exact ⟨v, h, rfl⟩
      · exact absurd e (h2 r')
      · exact absurd e (h1 r')

/-- A text has at most one value. -/
theorem C77_unique (s : List Char) (y z : Int) (hy : IntText s y) (hz : IntText s z) : y = z := by
  rw [← C77_grammar] at hy hz
  rw [hy] at hz
  exact Option.some.inj hz

theorem decimal_head (n : Nat) : ∃ c r, decimal n = c :: r ∧ (r ≠ [] → c ≠ '0') := by
  induction n using Nat.strong_induction_on with
  | _ n ih =>
    rw [decimal]
    split
    · exact ⟨_, [], rfl, by simp⟩
    · rename_i h
      obtain ⟨c, r, e, hc⟩ := ih (n / 10) (by omega)
      refine ⟨c, r ++ [Char.ofNat (48 + n % 10)], by rw [e]; rfl, ?_⟩
      intro _
      by_cases hr : r = []
      · subst hr
        have h10 : n / 10 < 10 := by
          by_contra h'
          rw [decimal, if_neg h'] at e
          obtain ⟨c', r', e', _⟩ := ih (n / 10 / 10) (by omega)
          rw [e'] at e
          simp at e
        rw [decimal, if_pos h10] at e
        simp only [List.cons.injEq, and_true] at e
        rw [← e]
        have : n / 10 ≠ 0 := by omega
        generalize n / 10 = m at *
        interval_cases m <;> first | (exfalso; omega) | decide
      · exact hc hr

theorem digit_ofNat (d : Nat) (h : d < 10) : IsDigit 10 (Char.ofNat (48 + d)) d := by
  interval_cases d <;> decide

theorem digits_decimal (n : Nat) : DigitText 10 (decimal n) n := by
  induction n using Nat.strong_induction_on with
  | _ n ih =>
    rw [decimal]
    split
    · rename_i h
      exact .one (digit_ofNat n h)
    · rename_i h
      have := (ih (n / 10) (by omega)).next (digit_ofNat (n % 10) (by omega))
      rwa [show n / 10 * 10 + n % 10 = n by omega] at this

theorem literal_decimal (n : Nat) : Literal (decimal n) n := by
  obtain ⟨c, r, e, hc⟩ := decimal_head n
  have h := digits_decimal n
  by_cases h0 : c = '0'
  · subst h0
    have hr : r = [] := by
      by_contra hr
      exact absurd rfl (hc hr)
    subst hr
    have : n = 0 := by
      by_contra hn
      by_cases h10 : n < 10
      · rw [decimal, if_pos h10] at e
        interval_cases n <;> first | exact hn rfl | (revert e; decide)
      · rw [decimal, if_neg h10] at e
        obtain ⟨c', r', e', _⟩ := decimal_head (n / 10)
        rw [e'] at e
        simp at e
    rw [e, this]
    exact .zero
  · rw [e] at h ⊢
    exact .decimal h0 h

/-- C77: the decimal text of every number is read back as the number, also after a sign. -/
theorem C77_decimal (n : Nat) : NewBigIntFromString (decimal n) = some (n : Int) ∧
    NewBigIntFromString ('-' :: decimal n) = some (-(n : Int)) ∧ NewBigIntFromString ('+' :: decimal n) = some (n : Int) := by
  simp only [C77_grammar]
  exact ⟨⟨_, _, literal_decimal n, .inl ⟨rfl, rfl⟩⟩, ⟨_, _, literal_decimal n, .inr (.inr ⟨rfl, rfl⟩)⟩,
    ⟨_, _, literal_decimal n, .inr (.inl ⟨rfl, rfl⟩)⟩⟩

theorem digits_snoc {b : Nat} {t : List Char} {w : Nat} (h : DigitText b t w) {s : List Char} {c : Char} (e : t = s ++ [c]) (hs : s ≠ [])
    (hu : '_' ∉ s) : ∃ v d, DigitText b s v ∧ IsDigit b c d ∧ w = v * b + d := by
  cases h with
  | one hd => exact absurd ((List.append_inj' (s₁ := []) e rfl).1.symm) hs
  | @next s0 v c0 d h hd =>
    obtain ⟨rfl, e2⟩ := List.append_inj' e rfl
    injection e2 with e2 _
    subst e2
    exact ⟨v, d, h, hd, rfl⟩
  | @sep s0 v c0 d h hd =>
    rw [show s0 ++ ['_', c0] = s0 ++ ['_'] ++ [c0] by simp] at e
    obtain ⟨rfl, _⟩ := List.append_inj' e rfl
    simp at hu

theorem decimal_digits (n : Nat) : ∀ c ∈ decimal n, ∃ d < 10, c = Char.ofNat (48 + d) := by
  induction n using Nat.strong_induction_on with
  | _ n ih =>
    rw [decimal]
    split
    · rename_i h
      intro c hc
      exact ⟨n, h, by simpa using hc⟩
    · intro c hc
      rcases List.mem_append.mp hc with hc | hc
      · exact ih (n / 10) (by omega) c hc
      · exact ⟨n % 10, by omega, by simpa using hc⟩

theorem octal_digit (m d : Nat) (hm : m < 10) (h : IsDigit 8 (Char.ofNat (48 + m)) d) : d = m := by
  have H : ∀ m < 10, ∀ d < 8, IsDigit 8 (Char.ofNat (48 + m)) d → d = m := by decide
  exact H m hm d h.1 h

theorem octal_lt (n : Nat) : ∀ w, DigitText 8 (decimal n) w → w ≤ n ∧ (8 ≤ n → w < n) := by
  induction n using Nat.strong_induction_on with
  | _ n ih =>
    intro w hw
    rw [decimal] at hw
    split at hw
    · rename_i h
      obtain ⟨c, r, d, e, hd⟩ := digits_head hw
      injection e with e _
      rw [← e] at hd
      have h1 := octal_digit n d h hd
      have h8 := hd.1
      generalize ht : [Char.ofNat (48 + n)] = t at hw
      cases hw with
      | one hd' =>
        injection ht with ht _
        rw [← ht] at hd'
        have := octal_digit n w h hd'
        omega
      | next h' _ =>
        exact absurd (List.append_inj' (s₁ := []) ht rfl).1.symm (digits_ne h')
      | sep h' _ =>
        have := congrArg List.length ht
        simp at this
    · rename_i h
      have hu : '_' ∉ decimal (n / 10) := by
        intro hm
        obtain ⟨d, hd, e⟩ := decimal_digits _ _ hm
        interval_cases d <;> exact absurd e (by decide)
      obtain ⟨v, d, hv, hd, rfl⟩ := digits_snoc hw rfl (digits_ne (digits_decimal _)) hu
      have := octal_digit (n % 10) d (by omega) hd
      have := (ih (n / 10) (by omega) v hv).1
      omega

/-- C77: a zero in front changes what a decimal text means: from 8 on the number is not read back. -/
theorem C77_leading_zero (n : Nat) (h : 8 ≤ n) (z : Int) (hz : NewBigIntFromString ('0' :: decimal n) = some z) : 0 ≤ z ∧ z < n := by
  rw [C77_grammar] at hz
  obtain ⟨r, v, hl, ⟨rfl, rfl⟩ | ⟨e, _⟩ | ⟨e, _⟩⟩ := hz
  · refine ⟨by omega, ?_⟩
    obtain ⟨c, t, e, _⟩ := decimal_head n
    obtain ⟨d, hd, hc⟩ := decimal_digits n c (by rw [e]; simp)
    have key : DigitText 8 (decimal n) v := by
      generalize hq : decimal n = q at hl e
      cases hl with
      | zero => cases e
      | decimal h => exact absurd rfl h
      | octal h => exact h
      | octalSep h => injection e with e _; subst e; interval_cases d <;> exact absurd hc (by decide)
      | prefixed hm h =>
        injection e with e _; subst e
        simp only [List.mem_cons, Prod.mk.injEq, List.not_mem_nil, or_false] at hm
        rcases hm with ⟨rfl, _⟩ | ⟨rfl, _⟩ | ⟨rfl, _⟩ | ⟨rfl, _⟩ | ⟨rfl, _⟩ | ⟨rfl, _⟩ <;> interval_cases d <;> exact absurd hc (by decide)
      | prefixedSep hm h =>
        injection e with e _; subst e
        simp only [List.mem_cons, Prod.mk.injEq, List.not_mem_nil, or_false] at hm
        rcases hm with ⟨rfl, _⟩ | ⟨rfl, _⟩ | ⟨rfl, _⟩ | ⟨rfl, _⟩ | ⟨rfl, _⟩ | ⟨rfl, _⟩ <;> interval_cases d <;> exact absurd hc (by decide)
    have := (octal_lt n v key).2 h
    omega
  · cases e
  · cases e

/-- C77: the table of the sampler is the list of numbers written in samplerz.go. -/
theorem C77_table : rcdtStrings.map NewBigIntFromString = RCDT.map (fun n => some (Int.ofNat n)) ∧ rcdtStrings = RCDT.map decimal := by
  have h : rcdtStrings = RCDT.map decimal := by
    simp only [rcdtStrings, RCDT, List.map_cons, List.map_nil]
    simp [decimal]
  refine ⟨?_, h⟩
  rw [h, List.map_map]
  exact List.map_congr_left fun n _ => (C77_decimal n).1

/-- A text with a leading zero is read in base 8 or not at all. -/
example : NewBigIntFromString "010".toList = some 8 ∧ NewBigIntFromString "08".toList = none ∧ NewBigIntFromString "0".toList = some 0 ∧
    NewBigIntFromString "198".toList = some 198 := by decide

/-- Prefixes, signs and underscores; texts that are no numbers. -/
example : NewBigIntFromString "-0x_fF".toList = some (-255) ∧ NewBigIntFromString "+0b101".toList = some 5 ∧
    NewBigIntFromString "1_000".toList = some 1000 ∧ NewBigIntFromString "0o17".toList = some 15 ∧ NewBigIntFromString "0_7".toList = some 7 ∧
    NewBigIntFromString "".toList = none ∧ NewBigIntFromString "-".toList = none ∧ NewBigIntFromString "1__0".toList = none ∧
    NewBigIntFromString "1_".toList = none ∧ NewBigIntFromString "_1".toList = none ∧ NewBigIntFromString "0x".toList = none ∧
    NewBigIntFromString "0b2".toList = none ∧ NewBigIntFromString "12a".toList = none ∧ NewBigIntFromString "1.5".toList = none := by decide

/-- The hypotheses of `C77_leading_zero` can be met: `"017"` is 15. -/
example : NewBigIntFromString ('0' :: decimal 17) = some 15 := by simp [decimal]; decide

/-- The grammar has texts with every ingredient. -/
example : IntText "-0x_f".toList (-15) :=
  ⟨_, 15, .prefixedSep (b := 16) (p := 'x') (r := ['f']) (by simp) (.one (by decide)), .inr (.inr ⟨rfl, rfl⟩)⟩

end Falcon
