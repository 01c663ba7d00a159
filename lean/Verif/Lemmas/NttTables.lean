import Verif.Model.Ntt
/-! Complete checks of the NTT tables (every entry), by kernel evaluation, and their consequences. -/

namespace Falcon

/-- Entries `2i`, `2i+1` of a root table are opposite and their square is entry `i` of the table below. -/
def pairOK : List Nat → List Nat → Bool
  | a :: b :: ws, c :: cs =>
    decide (0 < a) && decide (a < 12289) && decide (b < 12289) && (a * a % 12289 == c) && ((a + b) % 12289 == 0) && pairOK ws cs
  | [], [] => true
  | _, _ => false

/-- `l` lists inverses of `i`, `i+1`, ... -/
def invOK : Nat → List Nat → Bool
  | _, [] => true
  | i, v :: l => (i * v % 12289 == 1) && decide (v < 12289) && invOK (i + 1) l

/-- The root table of level `k` (degree `2^k`). -/
def level (k : Nat) : List Nat := roots_dict_Zq (Int16.ofNat (2 ^ k))

theorem level_pairs : ∀ k, k < 10 → 1 ≤ k → pairOK (level (k + 1)) (level k) = true := by decide +kernel

theorem level_length : ∀ k, k < 11 → 1 ≤ k → (level k).length = 2 ^ k := by decide +kernel

theorem level_one : level 1 = [1479, 10810] := by decide +kernel

theorem inv_table : invOK 1 (inv_mod_q.drop 1) = true := by decide +kernel

theorem inv_head : inv_mod_q[0]? = some 0 := by decide +kernel

theorem inv_length : inv_mod_q.length = 12289 := by decide +kernel

theorem invOK_spec {i : Nat} {l : List Nat} (h : invOK i l = true) (j : Nat) (hj : j < l.length) :
    (i + j) * l[j] % 12289 = 1 ∧ l[j] < 12289 := by
  induction l generalizing i j with
  | nil => simp at hj
  | cons v l ih =>
    simp [invOK] at h
    cases j with
    | zero => simpa using h.1
    | succ j =>
      have := ih h.2 j (by simpa using hj)
      simpa [Nat.add_assoc, Nat.add_comm 1] using this

/-- The entry of `inv_mod_q` at index `0 < a < q` is the inverse of `a`. -/
theorem inv_spec {a : Nat} (h0 : 0 < a) (h1 : a < 12289) :
    ∃ v, idx inv_mod_q a = .ok v ∧ a * v % 12289 = 1 ∧ v < 12289 := by
  have hl : a - 1 < (inv_mod_q.drop 1).length := by rw [List.length_drop, inv_length]; omega
  have := invOK_spec inv_table (a - 1) hl
  have ha : a < inv_mod_q.length := by rw [inv_length]; exact h1
  refine ⟨inv_mod_q[a], by simp [idx, ha], ?_⟩
  obtain ⟨b, rfl⟩ : ∃ b, a = b + 1 := ⟨a - 1, by omega⟩
  simpa [Nat.add_comm 1] using this

theorem idx_inv_zero : idx inv_mod_q 0 = .ok 0 := by simp [idx, inv_head]

theorem idx_inv_ge {a : Nat} (h : 12289 ≤ a) : idx inv_mod_q a = .panic := by
  have : inv_mod_q[a]? = none := by rw [List.getElem?_eq_none]; rw [inv_length]; exact h
  simp [idx, this]

theorem sqr1_eq : sqr1 = 1479 := by decide +kernel

attribute [irreducible] level

end Falcon
