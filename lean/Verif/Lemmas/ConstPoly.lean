import Verif.Lemmas.ConstFloat
import Verif.Props.HaltExact
/-!
# Constant polynomials

On constant polynomials `NtruSolve` in IEEE arithmetic computes with the constant coefficients alone.
-/

namespace Falcon
open Spec Polynomial F64

/-- The constant polynomial with `n` coefficients. -/
def cst {α : Type} [Zero α] (n : Nat) (c : α) : List α := c :: List.replicate (n - 1) 0

theorem cst_length {α : Type} [Zero α] (n : Nat) (hn : 1 ≤ n) (c : α) : (cst n c).length = n := by
  simp only [cst, List.length_cons, List.length_replicate]
  omega

theorem cst_zero {α : Type} [Zero α] (n : Nat) (hn : 1 ≤ n) : cst n (0 : α) = List.replicate n 0 := by
  obtain ⟨m, rfl⟩ : ∃ m, n = m + 1 := ⟨n - 1, by omega⟩
  rfl

theorem cst_map {α β : Type} [Zero α] [Zero β] (n : Nat) (h : α → β) (h0 : h 0 = 0) (c : α) : (cst n c).map h = cst n (h c) := by
  simp [cst, h0]

theorem split_replicate {α : Type} (m : Nat) (a : α) : splitPolys (List.replicate (2 * m) a) = (List.replicate m a, List.replicate m a) := by
  induction m with
  | zero => rfl
  | succ m ih =>
    rw [show 2 * (m + 1) = 2 * m + 1 + 1 by ring, List.replicate_succ, List.replicate_succ, splitPolys, ih]
    rfl

theorem cst_split {α : Type} [Zero α] (m : Nat) (hm : 1 ≤ m) (c : α) : splitPolys (cst (2 * m) c) = (cst m c, cst m 0) := by
  obtain ⟨j, rfl⟩ : ∃ j, m = j + 1 := ⟨m - 1, by omega⟩
  have e : cst (2 * (j + 1)) c = c :: 0 :: List.replicate (2 * j) 0 := by
    unfold cst
    rw [show 2 * (j + 1) - 1 = 2 * j + 1 by omega, List.replicate_succ]
  rw [e, splitPolys, split_replicate]
  rfl

theorem merge_split {α : Type} (f : List α) (h : f.length % 2 = 0) : mergePolys (splitPolys f).1 (splitPolys f).2 = .ok f := by
  induction f using List.twoStepInduction with
  | nil => rfl
  | singleton a => simp at h
  | cons_cons a b rest ih _ =>
    have := ih (by simp at h; omega)
    simp [splitPolys, mergePolys, this]

theorem forall₂_split {α β : Type} {r : α → β → Prop} {f : List α} {g : List β} (h : List.Forall₂ r f g) :
    List.Forall₂ r (splitPolys f).1 (splitPolys g).1 ∧ List.Forall₂ r (splitPolys f).2 (splitPolys g).2 := by
  induction f using List.twoStepInduction generalizing g with
  | nil => cases h; exact ⟨.nil, .nil⟩
  | singleton a => cases h with | cons h1 h2 => cases h2; exact ⟨.nil, .nil⟩
  | cons_cons a b rest ih _ =>
    cases h with | cons h1 h => cases h with | cons h2 h =>
    obtain ⟨p, q⟩ := ih h
    exact ⟨.cons h1 p, .cons h2 q⟩

theorem forall₂_merge {α β : Type} {r : α → β → Prop} {a b : List α} {A B : List β} (ha : List.Forall₂ r a A) (hb : List.Forall₂ r b B)
    (r' : List β) (hr : mergePolys A B = .ok r') : ∃ s, mergePolys a b = .ok s ∧ List.Forall₂ r s r' := by
  induction ha generalizing b B r' with
  | nil =>
    simp [mergePolys] at hr ⊢
    subst hr
    rfl
  | cons h hs ih =>
    cases hb with
    | nil => simp [mergePolys] at hr
    | cons h' hs' =>
      simp only [mergePolys] at hr ⊢
      obtain ⟨t, ht, hr⟩ := Go.bind_eq_ok.1 hr
      obtain ⟨s, e1, f⟩ := ih hs' t ht
      rw [e1, Go.ok_bind]
      have := Go.ok.inj hr
      subst this
      exact ⟨_, rfl, .cons h (.cons h' f)⟩

/-! ### The transforms -/

theorem rootAt_ieee (k i : Nat) (h1 : 1 ≤ k) (h2 : k ≤ 10) (hi : i < 2 ^ k) : ieeeOps.rootAt (2 ^ k) i = .ok (ieeeOps.root (2 ^ k) i) := by
  have : isRootKey (2 ^ k) = true := by interval_cases k <;> decide
  unfold FloatOps.rootAt
  rw [this, Bool.true_and, if_pos (by simpa using hi)]

theorem two_le_lim : 2 ≤ lim := by
  unfold lim
  rw [show (2 : ℚ) = 2 ^ (1 : Int) by norm_num, ← zpow_mul]
  exact zpow_le_zpow_right₀ (by norm_num) (by norm_num)

theorem merge_cst (k : Nat) (h2 : k + 1 ≤ 10) (v : ℚ) (hv : Rp v) (bv : |v| ≤ lim) (i : Nat) (a b : List (F64 × F64)) (hl : a.length = b.length)
    (ha : ∀ z ∈ a, Cst v z) (hb : ∀ z ∈ b, Cst 0 z) (hi : i + a.length ≤ 2 ^ k) :
    ∃ c, mergeFFTLoop ieeeOps (2 ^ (k + 1)) i a b = .ok c ∧ c.length = 2 * a.length ∧ ∀ z ∈ c, Cst v z := by
  induction a generalizing b i with
  | nil => exact ⟨[], rfl, rfl, by simp⟩
  | cons x a ih =>
    rcases b with _ | ⟨y, b⟩
    · simp at hl
    simp only [List.length_cons] at hl hi
    obtain ⟨c, e, l, h⟩ := ih (i + 1) b (by omega) (fun z hz => ha z (by simp [hz])) (fun z hz => hb z (by simp [hz])) (by omega)
    have hi2 : 2 * i < 2 ^ (k + 1) := by rw [pow_succ]; omega
    rw [mergeFFTLoop, rootAt_ieee (k + 1) (2 * i) (by omega) h2 hi2, Go.ok_bind, e, Go.ok_bind]
    refine ⟨_, rfl, by simp [l]; omega, ?_⟩
    have hw := (root_fit (k + 1) (2 * i) (by omega) h2 hi2).mul_cst (hb y (by simp))
    have hx := ha x (by simp)
    have p1 := hw.add hx (by rwa [zero_add])
    have p2 := hx.sub hw (by rwa [sub_zero])
    rw [zero_add, hv.rd bv] at p1
    rw [sub_zero, hv.rd bv] at p2
    intro z hz
    simp only [List.mem_cons] at hz
    rcases hz with rfl | rfl | hz
    · exact p1
    · exact p2
    · exact h z hz

theorem is_lit0 : Is (ieeeOps.lit 0) 0 := .inl ⟨rfl, false, by decide +kernel⟩

theorem FFT_cst (k : Nat) (h1 : 1 ≤ k) (h2 : k ≤ 10) (v : ℚ) (hv : Rp v) (bv : |v| ≤ lim) (f : List F64) (hf : List.Forall₂ Is f (cst (2 ^ k) v)) :
    ∃ c, FFT ieeeOps f = .ok c ∧ c.length = 2 ^ k ∧ ∀ z ∈ c, Cst v z := by
  induction k, h1 using Nat.le_induction generalizing f v with
  | base =>
    have e : cst (2 ^ 1) v = [v, 0] := rfl
    rw [e] at hf
    cases hf with | @cons x _ _ _ hx hf => cases hf with | @cons y _ _ _ hy hf => cases hf with | nil =>
    have hI : Fit ieeeOps.I := by
      refine ⟨⟨0, is_lit0⟩, 1, ?_⟩
      exact .inr ⟨by norm_num, by decide +kernel⟩
    have hm := hI.mul_cst (show Cst 0 (y, ieeeOps.lit 0) from ⟨hy, is_lit0⟩)
    have hX : Cst v (x, ieeeOps.lit 0) := ⟨hx, is_lit0⟩
    have p1 := hX.add hm (by rwa [add_zero])
    have p2 := hX.sub hm (by rwa [sub_zero])
    rw [add_zero, hv.rd bv] at p1
    rw [sub_zero, hv.rd bv] at p2
    refine ⟨_, by rw [FFT, dif_neg (by simp)], rfl, ?_⟩
    intro z hz
    simp only [List.mem_cons, List.not_mem_nil, or_false] at hz
    rcases hz with rfl | rfl
    · exact p1
    · exact p2
  | succ k h1 ih =>
    have hp : 2 ^ 1 ≤ 2 ^ k := Nat.pow_le_pow_right (by omega) h1
    have hl : f.length = 2 * 2 ^ k := by rw [hf.length_eq, cst_length _ Nat.one_le_two_pow, pow_succ, Nat.mul_comm]
    obtain ⟨s1, s2⟩ := forall₂_split hf
    rw [pow_succ, Nat.mul_comm, cst_split _ (by omega)] at s1 s2
    obtain ⟨a, ea, la, ha⟩ := ih (by omega) v hv bv _ s1
    obtain ⟨b, eb, lb, hb⟩ := ih (by omega) 0 rp_zero (by simpa using lim_pos.le) _ s2
    obtain ⟨c, ec, lc, hc⟩ := merge_cst k h2 v hv bv 0 a b (by rw [la, lb]) ha hb (by omega)
    refine ⟨c, ?_, by rw [lc, la, pow_succ, Nat.mul_comm], hc⟩
    rw [FFT, dif_pos (by omega), ea, Go.ok_bind, eb, Go.ok_bind]
    unfold MergeFFT
    rw [show 2 * (a, b).1.length = 2 ^ (k + 1) by simp only [la, pow_succ]; ring]
    exact ec

theorem split_cst (k : Nat) (h2 : k + 1 ≤ 10) (v : ℚ) (hv : Rp v) (bv : |v| ≤ lim / 16) (i m : Nat) (c : List (F64 × F64)) (hl : c.length = 2 * m)
    (hc : ∀ z ∈ c, Cst v z) (hi : i + m ≤ 2 ^ k) :
    ∃ r, splitFFTLoop ieeeOps (2 ^ (k + 1)) i c = .ok r ∧ r.1.length = m ∧ r.2.length = m ∧ (∀ z ∈ r.1, Cst v z) ∧ ∀ z ∈ r.2, Cst 0 z := by
  induction m generalizing c i with
  | zero =>
    have := List.length_eq_zero_iff.1 hl
    subst this
    exact ⟨([], []), rfl, rfl, rfl, by simp, by simp⟩
  | succ m ih =>
    rcases c with _ | ⟨x, _ | ⟨y, c⟩⟩
    · simp at hl
    · simp at hl; omega
    simp only [List.length_cons] at hl
    obtain ⟨r, e, l1, l2, r1, r2⟩ := ih (i + 1) c (by omega) (fun z hz => hc z (by simp [hz])) (by omega)
    have hi2 : 2 * i < 2 ^ (k + 1) := by rw [pow_succ]; omega
    rw [splitFFTLoop, rootAt_ieee (k + 1) (2 * i) (by omega) h2 hi2, Go.ok_bind, e, Go.ok_bind]
    have hx := hc x (by simp)
    have hy := hc y (by simp)
    have L := lim_pos
    have b2 : |v + v| ≤ lim := (abs_add_le v v).trans (by linarith)
    have hhalf : Cst (1 / 2) ieeeOps.half := by
      refine ⟨.inr ⟨by norm_num, ?_⟩, is_lit0⟩
      decide +kernel
    have ex : rd (v + v) = 2 * v := by
      rw [← two_mul] at b2 ⊢
      exact hv.double.rd b2
    have p1 := hx.add hy b2
    rw [ex] at p1
    have p2 := p1.mul hhalf (by
      rw [show 2 * v * (1 / 2) = v by ring]
      linarith) two_le_lim
    rw [show 2 * v * (1 / 2) = v by ring, hv.rd (by linarith)] at p2
    have q1 := hx.sub hy (by simpa using L.le)
    rw [sub_self, rd_zero] at q1
    have q2 := q1.mul hhalf (by rw [zero_mul, abs_zero]; linarith) two_le_lim
    rw [zero_mul, rd_zero] at q2
    have q3 := (root_fit (k + 1) (2 * i) (by omega) h2 hi2).conj.cst_mul q2
    refine ⟨_, rfl, by simp [l1], by simp [l2], ?_, ?_⟩
    · intro z hz
      rcases List.mem_cons.1 hz with rfl | hz
      · exact p2
      · exact r1 z hz
    · intro z hz
      rcases List.mem_cons.1 hz with rfl | hz
      · exact q3
      · exact r2 z hz

theorem ifftAux_cst (k : Nat) (h1 : 1 ≤ k) (h2 : k ≤ 10) (v : ℚ) (hv : Rp v) (bv : |v| ≤ lim / 16) (c : List (F64 × F64)) (hl : c.length = 2 ^ k)
    (hc : ∀ z ∈ c, Cst v z) (fuel : Nat) (hfu : k ≤ fuel) : ∃ r, ifftAux ieeeOps fuel c = .ok r ∧ List.Forall₂ Is r (cst (2 ^ k) v) := by
  induction k, h1 using Nat.le_induction generalizing c v fuel with
  | base =>
    obtain ⟨m, rfl⟩ : ∃ m, fuel = m + 1 := ⟨fuel - 1, by omega⟩
    match c, hl with
    | [x, y], _ =>
      rw [ifftAux_succ, if_neg (by simp)]
      have := hc x (by simp)
      exact ⟨_, rfl, .cons this.1 (.cons this.2 .nil)⟩
  | succ k h1 ih =>
    obtain ⟨m, rfl⟩ : ∃ m, fuel = m + 1 := ⟨fuel - 1, by omega⟩
    have hp : 2 ^ 1 ≤ 2 ^ k := Nat.pow_le_pow_right (by omega) h1
    obtain ⟨r, e, l1, l2, r1, r2⟩ := split_cst k h2 v hv bv 0 (2 ^ k) c (by rw [hl, pow_succ]; ring) hc (by omega)
    obtain ⟨a, ea, fa⟩ := ih (by omega) v hv bv r.1 l1 r1 m (by omega)
    obtain ⟨b, eb, fb⟩ := ih (by omega) 0 rp_zero (by have := lim_pos; simp; linarith) r.2 l2 r2 m (by omega)
    rw [ifftAux_succ, if_pos (by rw [hl, pow_succ]; omega)]
    have hS : SplitFFT ieeeOps c = .ok r := by
      unfold SplitFFT
      rw [hl]
      exact e
    rw [hS, Go.ok_bind, ea, Go.ok_bind, eb, Go.ok_bind]
    have hm := merge_split (cst (2 ^ (k + 1)) v) (by rw [cst_length _ Nat.one_le_two_pow, pow_succ]; omega)
    have es := cst_split (2 ^ k) (by omega) v
    rw [show 2 * 2 ^ k = 2 ^ (k + 1) by ring] at es
    rw [es] at hm
    exact forall₂_merge fa fb _ hm

theorem IFFT_cst (k : Nat) (h1 : 1 ≤ k) (h2 : k ≤ 10) (v : ℚ) (hv : Rp v) (bv : |v| ≤ lim / 16) (c : List (F64 × F64)) (hl : c.length = 2 ^ k)
    (hc : ∀ z ∈ c, Cst v z) : ∃ r, IFFT ieeeOps c = .ok r ∧ List.Forall₂ Is r (cst (2 ^ k) v) :=
  ifftAux_cst k h1 h2 v hv bv c hl hc _ (by rw [hl]; exact (Nat.lt_two_pow_self).le.trans (Nat.le_succ _))

end Falcon
