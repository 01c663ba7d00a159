import Verif.Lemmas.Poly
/-!
# Properties of the helpers of `src/util/util.go` (C53-C55)
-/

namespace Falcon

/-! ### C53: split and merge -/

/-- C53: merging the two halves gives back a vector of even length, and the vector without its last element for odd length. -/
theorem C53_merge_split {α : Type} (f : List α) :
    mergePolys (splitPolys f).1 (splitPolys f).2 = .ok (f.take (2 * (f.length / 2))) := by
  induction f using List.twoStepInduction with
  | nil => simp [splitPolys, mergePolys]
  | singleton a => simp [splitPolys, mergePolys]
  | cons_cons a b rest ih _ =>
    have e : 2 * ((a :: b :: rest).length / 2) = 2 * (rest.length / 2) + 2 := by simp only [List.length_cons]; omega
    rw [e]
    simp [splitPolys, mergePolys, ih]

theorem C53_even {α : Type} (f : List α) (h : f.length % 2 = 0) : mergePolys (splitPolys f).1 (splitPolys f).2 = .ok f := by
  rw [C53_merge_split, List.take_of_length_le (by omega)]

theorem C53_odd {α : Type} (f : List α) (h : f.length % 2 = 1) :
    mergePolys (splitPolys f).1 (splitPolys f).2 = .ok f.dropLast := by
  rw [C53_merge_split, List.dropLast_eq_take]
  congr 2
  omega

/-- C53: splitting a merge of equal lengths gives back the two vectors. -/
theorem C53_split_merge {α : Type} (f0 f1 : List α) (h : f0.length = f1.length) :
    ∃ f, mergePolys f0 f1 = .ok f ∧ f.length = 2 * f0.length ∧ splitPolys f = (f0, f1) := by
  obtain ⟨f, h1, h2, h3, _⟩ := mergePolys_ok h
  exact ⟨f, h1, h2, h3⟩

/-- C53: the elements: even positions go to the first half, odd positions to the second. -/
theorem C53_elements {α : Type} (f : List α) : (splitPolys f).1.length = f.length / 2 ∧ (splitPolys f).2.length = f.length / 2 ∧
    ∀ i, i < f.length / 2 → (splitPolys f).1[i]? = f[2 * i]? ∧ (splitPolys f).2[i]? = f[2 * i + 1]? := by
  induction f using List.twoStepInduction with
  | nil => simp [splitPolys]
  | singleton a => simp [splitPolys]
  | cons_cons a b rest ih _ =>
    obtain ⟨h1, h2, h3⟩ := ih
    refine ⟨by simp [splitPolys, h1]; omega, by simp [splitPolys, h2]; omega, ?_⟩
    intro i hi
    cases i with
    | zero => simp [splitPolys]
    | succ i =>
      simp only [List.length_cons] at hi
      have := h3 i (by omega)
      rw [show 2 * (i + 1) = 2 * i + 1 + 1 by omega]
      simpa [splitPolys] using this

/-- C53: merge panics exactly when the second vector is shorter. -/
theorem C53_panic {α : Type} (f0 f1 : List α) : mergePolys f0 f1 = .panic ↔ f1.length < f0.length := by
  induction f0 generalizing f1 with
  | nil => simp [mergePolys]
  | cons a f0 ih => cases f1 with
    | nil => simp [mergePolys]
    | cons b f1 =>
      rw [mergePolys, Go.bind_eq_panic, ih]
      simp

example : splitPolys [1, 2, 3, 4, 5] = ([1, 3], [2, 4]) := rfl
example : mergePolys [1, 3] [2, 4] = .ok [1, 2, 3, 4] := rfl
example : mergePolys [1, 3] [2] = .panic := rfl

/-! ### C54: Pmod -/

/-- C54: for `b ≠ 0`, `Pmod(x,b)` is the residue of `x` in `[0,|b|)`. -/
theorem C54_pmod (x b : Int) (hb : b ≠ 0) : ∃ r, Pmod x b = .ok r ∧ 0 ≤ r ∧ r < |b| ∧ b ∣ x - r := by
  refine ⟨pmodVal x b, by simp [Pmod, hb], ?_⟩
  have h0 : b ∣ x - x.tmod b := by
    have h := Int.tmod_add_mul_tdiv x b
    exact ⟨x.tdiv b, by linarith⟩
  have hlt : |x.tmod b| < |b| := by
    rw [Int.abs_eq_natAbs, Int.abs_eq_natAbs, Int.natAbs_tmod]
    have : b.natAbs ≠ 0 := by omega
    exact_mod_cast Nat.mod_lt _ (by omega)
  rw [abs_lt] at hlt
  unfold pmodVal
  simp only
  obtain ⟨c, hc⟩ := h0
  rcases lt_or_gt_of_ne hb with hneg | hpos
  · rw [abs_of_neg hneg] at *
    split
    · exact ⟨by omega, by omega, ⟨c, hc⟩⟩
    · try rw [if_pos hneg]
      exact ⟨by omega, by omega, ⟨c + 1, by rw [mul_add]; omega⟩⟩
  · rw [abs_of_pos hpos] at *
    split
    · exact ⟨by omega, by omega, ⟨c, hc⟩⟩
    · rw [if_neg (by omega)]
      exact ⟨by omega, by omega, ⟨c - 1, by rw [mul_sub]; omega⟩⟩

/-- C54: a zero modulus panics, and only that. -/
theorem C54_panic (x b : Int) : Pmod x b = .panic ↔ b = 0 := by
  unfold Pmod
  split <;> simp_all

example : Pmod (-7) 5 = .ok 3 ∧ Pmod (-7) (-5) = .ok 3 ∧ Pmod 7 (-5) = .ok 2 ∧ Pmod (-10) 5 = .ok 0 := by decide

/-! ### C55: extrema and comparisons -/

theorem foldl_max (l : List Int) (m : Int) :
    let r := l.foldl (fun max v => if v > max then v else max) m
    (r = m ∨ r ∈ l) ∧ m ≤ r ∧ ∀ v ∈ l, v ≤ r := by
  induction l generalizing m with
  | nil => simp
  | cons a l ih =>
    simp only [List.foldl_cons]
    obtain ⟨h1, h2, h3⟩ := ih (if a > m then a else m)
    have hm : (if a > m then a else m) = max a m := by split <;> omega
    rw [hm] at h1 h2 h3 ⊢
    refine ⟨?_, ?_, ?_⟩
    · rcases h1 with h1 | h1
      · rw [h1]; rcases le_total a m with h | h <;> simp [h]
      · exact Or.inr (List.mem_cons_of_mem _ h1)
    · omega
    · intro v hv
      rcases List.mem_cons.1 hv with rfl | hv
      · omega
      · exact h3 v hv

theorem foldl_min (l : List Int) (m : Int) :
    let r := l.foldl (fun min v => if v < min then v else min) m
    (r = m ∨ r ∈ l) ∧ r ≤ m ∧ ∀ v ∈ l, r ≤ v := by
  induction l generalizing m with
  | nil => simp
  | cons a l ih =>
    simp only [List.foldl_cons]
    obtain ⟨h1, h2, h3⟩ := ih (if a < m then a else m)
    have hm : (if a < m then a else m) = min a m := by split <;> omega
    rw [hm] at h1 h2 h3 ⊢
    refine ⟨?_, ?_, ?_⟩
    · rcases h1 with h1 | h1
      · rw [h1]; rcases le_total a m with h | h <;> simp [h]
      · exact Or.inr (List.mem_cons_of_mem _ h1)
    · omega
    · intro v hv
      rcases List.mem_cons.1 hv with rfl | hv
      · omega
      · exact h3 v hv

/-- C55: `Max` returns the largest element, and panics exactly on no arguments. -/
theorem C55_max (l : List Int) : (l = [] → goMax l = .panic) ∧
    (l ≠ [] → ∃ m, goMax l = .ok m ∧ m ∈ l ∧ ∀ v ∈ l, v ≤ m) := by
  cases l with
  | nil => simp [goMax, idx]
  | cons a l =>
    refine ⟨by simp, fun _ => ?_⟩
    obtain ⟨h1, _, h3⟩ := foldl_max (a :: l) a
    refine ⟨_, rfl, ?_, h3⟩
    rcases h1 with h1 | h1
    · rw [h1]; simp
    · exact h1

/-- C55: `MaxFromBigInt`. -/
theorem C55_maxFromBigInt (l : List Int) : (l = [] → maxFromBigInt l = .panic) ∧
    (l ≠ [] → ∃ m, maxFromBigInt l = .ok m ∧ m ∈ l ∧ ∀ v ∈ l, v ≤ m) := C55_max l

/-- C55: `MinFromBigInt`. -/
theorem C55_minFromBigInt (l : List Int) : (l = [] → minFromBigInt l = .panic) ∧
    (l ≠ [] → ∃ m, minFromBigInt l = .ok m ∧ m ∈ l ∧ ∀ v ∈ l, m ≤ v) := by
  cases l with
  | nil => simp [minFromBigInt, idx]
  | cons a l =>
    refine ⟨by simp, fun _ => ?_⟩
    obtain ⟨h1, _, h3⟩ := foldl_min (a :: l) a
    refine ⟨_, rfl, ?_, h3⟩
    rcases h1 with h1 | h1
    · rw [h1]; simp
    · exact h1

/-- C55: the two-argument comparisons. -/
theorem C55_cmp (x y : Int) : cmpMinFromBigInt x y = min x y ∧ cmpMaxFromBigInt x y = max x y := by
  unfold cmpMinFromBigInt cmpMaxFromBigInt
  constructor <;> split <;> omega

/-- C55: `AllZeroes`. -/
theorem C55_allZeroes (l : List Int) : allZeroes l = true ↔ ∀ v ∈ l, v = 0 := by
  induction l with
  | nil => simp [allZeroes]
  | cons a l ih =>
    unfold allZeroes
    split <;> simp_all

/-- C55: `AnyZeroes`. -/
theorem C55_anyZeroes (l : List Int16) : anyZeroes l = true ↔ ∃ v ∈ l, v = 0 := by
  induction l with
  | nil => simp [anyZeroes]
  | cons a l ih =>
    unfold anyZeroes
    split
    · simp_all
    · rename_i h
      simp only [List.mem_cons, exists_eq_right] at ih ⊢
      rw [ih]
      constructor
      · exact Or.inr
      · rintro (h0 | h0)
        · exact absurd h0.symm h
        · exact h0

/-- C55: `BigIntSliceEqual` decides equality and never panics. -/
theorem C55_sliceEqual (a b : List Int) : bigIntSliceEqual a b = .ok (decide (a = b)) := by
  have key : ∀ (a b : List Int) (i : Nat), i + a.length = b.length →
      bigIntSliceEqualLoop b i a = .ok (decide (a = b.drop i)) := by
    intro a
    induction a with
    | nil =>
      intro b i h
      rw [bigIntSliceEqualLoop, List.drop_of_length_le (by simp at h; omega)]
      rfl
    | cons v vs ih =>
      intro b i h
      simp only [List.length_cons] at h
      have hi : i < b.length := by omega
      have e : idx b i = .ok b[i] := by simp [idx, hi]
      rw [bigIntSliceEqualLoop, e, Go.ok_bind, List.drop_eq_getElem_cons hi, ih b (i + 1) (by omega)]
      by_cases hv : v = b[i]
      · rw [if_neg (not_not.2 hv), hv]
        congr 1
        rw [decide_eq_decide, List.cons_inj_right]
      · rw [if_pos hv]
        have : ¬ (v :: vs = b[i] :: b.drop (i + 1)) := fun h => hv (List.cons.inj h).1
        simp only [this, decide_false, Go.pure_eq]
  unfold bigIntSliceEqual
  split
  · rename_i h
    congr 1
    symm
    rw [decide_eq_false_iff_not]
    rintro rfl
    exact h rfl
  · rename_i h
    rw [key a b 0 (by omega), List.drop_zero]

example : goMax [3, -7, 12, 12] = .ok 12 ∧ minFromBigInt [3, -7, 12] = .ok (-7) := by decide
example : allZeroes [0, 0] = true ∧ allZeroes [0, 5] = false ∧ anyZeroes [1, 0] = true ∧ anyZeroes [1, 2] = false := by decide
example : bigIntSliceEqual [1, 2] [1, 2] = .ok true ∧ bigIntSliceEqual [1, 2] [1, 3] = .ok false := by decide

end Falcon
