import Verif.Props.Ldl
import Mathlib.LinearAlgebra.Matrix.ConjTranspose
/-!
# `Gram` on matrices of every shape (C51)
-/

namespace Falcon
open Spec Polynomial ComplexConjugate Matrix

/-- A matrix of `r` rows and `c` columns of vectors of length `n`. -/
def Rect {α : Type} (r c n : Nat) (B : List (List (List α))) : Prop :=
  B.length = r ∧ ∀ row ∈ B, row.length = c ∧ ∀ v ∈ row, v.length = n

/-- The values of an `r` by `c` matrix of real vectors at `w`. -/
noncomputable def rectAt (r c : Nat) (B : List (List (List ℝ))) (w : ℂ) : Matrix (Fin r) (Fin c) ℂ :=
  fun a b => (poly (((B.getD a []).getD b []).map fun x : ℝ => (x : ℂ))).eval w

/-- Entry `(i,j)` of a matrix of vectors. -/
def cell {α : Type} (B : List (List (List α))) (i j : Nat) : List α := (B.getD i []).getD j []

theorem Rect.idx2 {α : Type} {r c n : Nat} {B : List (List (List α))} (h : Rect r c n B) {i j : Nat} (hi : i < r) (hj : j < c) :
    idx2 B i j = .ok (cell B i j) ∧ (cell B i j).length = n := by
  have hi' : i < B.length := by rw [h.1]; exact hi
  have hrow := h.2 B[i] (List.getElem_mem hi')
  have hj' : j < B[i].length := by rw [hrow.1]; exact hj
  constructor
  · unfold Falcon.idx2 idx cell
    rw [List.getElem?_eq_getElem hi']
    simp only [Go.ok_bind]
    rw [List.getElem?_eq_getElem hj']
    simp [hi', hj']
  · unfold cell
    simp only [List.getD_eq_getElem?_getD, List.getElem?_eq_getElem hi', Option.getD_some, List.getElem?_eq_getElem hj']
    exact hrow.2 _ (List.getElem_mem hj')

theorem evalR_zeros (m : Nat) (w : ℂ) : evalR (List.replicate m (exactOps.lit 0)) w = 0 := by
  have e0 : (exactOps.lit 0 : ℝ) = 0 := by show ((0 : ℚ) : ℝ) = 0; simp
  rw [e0]
  unfold evalR
  induction m with
  | zero => simp
  | succ m ih => simp [List.replicate_succ] at ih ⊢; right; exact ih

theorem gramCell_eval (k : Nat) (h1 : 1 ≤ k) (h2 : k ≤ 10) {r c : Nat} (B : List (List (List ℝ))) (hB : Rect r c (2 ^ k) B)
    (i j : Nat) (hi : i < r) (hj : j < r) (m t : Nat) (hm : t + m ≤ c) (acc : List ℝ) (la : acc.length = 2 ^ k) :
    ∃ s : List ℝ, gramCell exactOps B i j m t acc = .ok s ∧ s.length = 2 ^ k ∧
      ∀ w ∈ rootsC k, evalR s w =
        evalR acc w + ∑ u ∈ Finset.range m, evalR (cell B i (t + u)) w * conj (evalR (cell B j (t + u)) w) := by
  induction m generalizing t acc with
  | zero => exact ⟨acc, rfl, la, fun w _ => by simp⟩
  | succ m ih =>
    obtain ⟨e1, l1⟩ := hB.idx2 hi (show t < c by omega)
    obtain ⟨e2, l2⟩ := hB.idx2 hj (show t < c by omega)
    obtain ⟨x, ex, lx, vx⟩ := gram_term k h1 h2 (cell B i t) (cell B j t) acc l1 l2 la
    obtain ⟨s, es, ls, vs⟩ := ih (t + 1) (by omega) x lx
    refine ⟨s, ?_, ls, ?_⟩
    · rw [gramCell, e1, Go.ok_bind, e2, Go.ok_bind]
      obtain ⟨u1, eu1, ex⟩ := Go.bind_eq_ok.1 ex
      obtain ⟨u2, eu2, ex⟩ := Go.bind_eq_ok.1 ex
      rw [eu1, Go.ok_bind, eu2, Go.ok_bind, ex, Go.ok_bind, es]
    · intro w hw
      rw [vs w hw, vx w hw, Finset.sum_range_succ' _ m]
      simp only [Nat.add_zero]
      have : ∀ u, t + 1 + u = t + (u + 1) := fun u => by omega
      simp only [this]
      ring

theorem gramRow_eval (k : Nat) (h1 : 1 ≤ k) (h2 : k ≤ 10) {r c : Nat} (B : List (List (List ℝ))) (hB : Rect r c (2 ^ k) B)
    (i : Nat) (hi : i < r) (m j : Nat) (hm : j + m ≤ r) :
    ∃ R : List (List ℝ), gramRow exactOps B c (2 ^ k) i m j = .ok R ∧ R.length = m ∧ (∀ v ∈ R, v.length = 2 ^ k) ∧
      ∀ w ∈ rootsC k, ∀ t < m, evalR (R.getD t []) w =
        ∑ u ∈ Finset.range c, evalR (cell B i u) w * conj (evalR (cell B (j + t) u) w) := by
  induction m generalizing j with
  | zero => exact ⟨[], rfl, rfl, by simp, by simp⟩
  | succ m ih =>
    obtain ⟨s, es, ls, vs⟩ := gramCell_eval k h1 h2 B hB i j hi (by omega) c 0 (by omega) (List.replicate (2 ^ k) (exactOps.lit 0)) (by simp)
    obtain ⟨R, eR, lR, wR, vR⟩ := ih (j + 1) (by omega)
    refine ⟨s :: R, ?_, by simp [lR], ?_, ?_⟩
    · rw [gramRow, es, Go.ok_bind, eR, Go.ok_bind, Go.pure_eq]
    · intro v hv
      rcases List.mem_cons.1 hv with rfl | hv
      · exact ls
      · exact wR v hv
    · intro w hw t ht
      cases t with
      | zero =>
        rw [List.getD_cons_zero, vs w hw, evalR_zeros, zero_add]
        simp
      | succ t =>
        rw [List.getD_cons_succ, vR w hw t (by omega)]
        simp only [show j + 1 + t = j + (t + 1) by omega]

theorem gramRows_eval (k : Nat) (h1 : 1 ≤ k) (h2 : k ≤ 10) {r c : Nat} (B : List (List (List ℝ))) (hB : Rect r c (2 ^ k) B)
    (m i : Nat) (hm : i + m ≤ r) :
    ∃ G : List (List (List ℝ)), gramRows exactOps B c (2 ^ k) m i = .ok G ∧ Rect m r (2 ^ k) G ∧
      ∀ w ∈ rootsC k, ∀ s < m, ∀ t < r, evalR (cell G s t) w =
        ∑ u ∈ Finset.range c, evalR (cell B (i + s) u) w * conj (evalR (cell B t u) w) := by
  induction m generalizing i with
  | zero => exact ⟨[], rfl, ⟨rfl, by simp⟩, by simp⟩
  | succ m ih =>
    obtain ⟨R, eR, lR, wR, vR⟩ := gramRow_eval k h1 h2 B hB i (by omega) r 0 (by omega)
    obtain ⟨G, eG, hG, vG⟩ := ih (i + 1) (by omega)
    refine ⟨R :: G, ?_, ⟨by simp [hG.1], ?_⟩, ?_⟩
    · rw [gramRows, hB.1, eR, Go.ok_bind, eG, Go.ok_bind, Go.pure_eq]
    · intro row hrow
      rcases List.mem_cons.1 hrow with rfl | hrow
      · exact ⟨lR, wR⟩
      · exact hG.2 row hrow
    · intro w hw s hs t ht
      cases s with
      | zero =>
        have := vR w hw t ht
        simpa [cell] using this
      | succ s =>
        have := vG w hw s (by omega) t ht
        rw [show i + 1 + s = i + (s + 1) by omega] at this
        rw [← this]
        simp [cell]

/-- C51: for every matrix `B` of `r` rows and `c` columns of polynomials of degree `n = 2^k`, `Gram(B)` is the `r` by `r` matrix that
equals `B B^*` at every root of `x^n+1`. -/
theorem C51_gram_shape (k : Nat) (h1 : 1 ≤ k) (h2 : k ≤ 10) (r c : Nat) (hr : 1 ≤ r) (hc : 1 ≤ c) (B : List (List (List ℝ)))
    (hB : Rect r c (2 ^ k) B) :
    ∃ G, Gram exactOps B = .ok G ∧ Rect r r (2 ^ k) G ∧
      ∀ w : ℂ, w ^ 2 ^ k + 1 = 0 → rectAt r r G w = rectAt r c B w * (rectAt r c B w)ᴴ := by
  obtain ⟨G, eG, hG, vG⟩ := gramRows_eval k h1 h2 B hB r 0 (by omega)
  refine ⟨G, ?_, hG, ?_⟩
  · have e0 := hB.idx2 (i := 0) (j := 0) (by omega) (by omega)
    match B, hB with
    | [], hB => have := hB.1; simp at this; omega
    | b :: B, hB =>
      have hb := hB.2 b (by simp)
      unfold Gram
      obtain ⟨e0, l0⟩ := e0
      unfold idx2 at e0
      obtain ⟨row, e1, e2⟩ := Go.bind_eq_ok.1 e0
      have : row = b := by simp [idx] at e1; exact e1.symm
      subst this
      rw [e1, Go.ok_bind, e2, Go.ok_bind, l0, hb.1, hB.1]
      exact eG
  · intro w hw
    have hm : w ∈ rootsC k := (mem_rootsC k w).2 (by linear_combination hw)
    ext a b
    rw [Matrix.mul_apply]
    have := vG w hm a a.2 b b.2
    simp only [Nat.zero_add] at this
    have e : ∀ (x y : Nat) (M : List (List (List ℝ))), evalR (cell M x y) w =
        (poly (((M.getD x []).getD y []).map fun x : ℝ => (x : ℂ))).eval w := fun _ _ _ => rfl
    rw [Finset.sum_range] at this
    exact this

/-- Two rows and three columns at degree 2: the Gram matrix of `(1, x, 2)`, `(0, 1, 1+x)` is 2 by 2. -/
example : Rect 2 3 (2 ^ 1) [[[1, 0], [0, 1], [2, 0]], [[0, 0], [1, 0], [1, (1 : ℝ)]]] ∧
    ∃ G, Gram exactOps [[[1, 0], [0, 1], [2, 0]], [[0, 0], [1, 0], [1, (1 : ℝ)]]] = .ok G ∧ G.length = 2 ∧
      rectAt 2 2 G Complex.I 0 0 = 6 := by
  have hR : Rect 2 3 (2 ^ 1) [[[1, 0], [0, 1], [2, 0]], [[0, 0], [1, 0], [1, (1 : ℝ)]]] := by
    refine ⟨rfl, ?_⟩
    intro row hrow
    simp only [List.mem_cons, List.not_mem_nil, or_false] at hrow
    rcases hrow with rfl | rfl <;> simp
  refine ⟨hR, ?_⟩
  obtain ⟨G, e, hG, v⟩ := C51_gram_shape 1 (by omega) (by omega) 2 3 (by omega) (by omega) _ hR
  refine ⟨G, e, hG.1, ?_⟩
  rw [v Complex.I (by norm_num), Matrix.mul_apply, Fin.sum_univ_three]
  simp [rectAt, poly]
  norm_num

end Falcon
