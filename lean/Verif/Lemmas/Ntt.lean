import Verif.Lemmas.NttTables
import Verif.Lemmas.Poly
import Mathlib.Tactic.NormNum.Prime
import Mathlib.Tactic.Positivity
import Mathlib.Algebra.Field.ZMod
/-! NTT = evaluation at the table roots; INTT is its inverse. -/

namespace Falcon
open Spec Polynomial

instance : Fact (Nat.Prime 12289) := ⟨by norm_num⟩

/-- `W` is exact on 64-bit values: holds for Go's arithmetic and for checked arithmetic. -/
def Good (W : Int → Go Int) : Prop := ∀ x, -2 ^ 63 ≤ x → x < 2 ^ 63 → W x = .ok x

theorem wrap64_good : Good wrap64 := by
  intro x h1 h2
  unfold wrap64 i64
  rw [Int.bmod_def]
  split <;> simp <;> omega

theorem check64_good : Good check64 := by
  intro x h1 h2
  unfold check64
  rw [if_pos ⟨h1, h2⟩]

theorem pmodVal_Q (x : Int) : pmodVal x Q = x % 12289 := by
  unfold pmodVal Q
  simp only
  rw [if_neg (by decide : ¬ (12289 : Int) < 0)]
  rcases le_or_gt 0 x with hx | hx
  · rw [Int.tmod_eq_emod_of_nonneg hx]
    have := Int.emod_nonneg x (show (12289 : Int) ≠ 0 by decide)
    rw [if_pos this]
  · obtain ⟨y, rfl⟩ : ∃ y, x = -y := ⟨-x, by omega⟩
    rw [Int.neg_tmod, Int.tmod_eq_emod_of_nonneg (by omega)]
    split <;> omega

theorem reduceQ_toInt (x : Int) : (reduceQ x).toInt = x % 12289 := by
  unfold reduceQ
  rw [pmodVal_Q, Int16.toInt_ofInt, show Int16.size = 65536 from rfl, Int.bmod_def]
  have h1 := Int.emod_nonneg x (show (12289 : Int) ≠ 0 by decide)
  have h2 := Int.emod_lt_of_pos x (show (0 : Int) < 12289 by decide)
  split <;> omega

theorem reduceQ_red (x : Int) : 0 ≤ (reduceQ x).toInt ∧ (reduceQ x).toInt < 12289 := by
  rw [reduceQ_toInt]
  exact ⟨Int.emod_nonneg x (by decide), Int.emod_lt_of_pos x (by decide)⟩

theorem zq_reduceQ (x : Int) : zq (reduceQ x) = (x : Zq) := by
  unfold zq
  rw [reduceQ_toInt]
  exact ZMod.intCast_mod x 12289 |>.trans rfl

theorem zq_inj {x y : Int16} (hx : 0 ≤ x.toInt ∧ x.toInt < 12289) (hy : 0 ≤ y.toInt ∧ y.toInt < 12289)
    (h : zq x = zq y) : x = y := by
  unfold zq at h
  rw [ZMod.intCast_eq_intCast_iff'] at h
  apply Int16.toInt_inj.1
  have h' : x.toInt % 12289 = y.toInt % 12289 := h
  omega

theorem zq_eq_zero_iff {x : Int16} (hx : 0 ≤ x.toInt ∧ x.toInt < 12289) : zq x = 0 ↔ x = 0 := by
  constructor
  · intro h
    exact zq_inj hx (by decide) (h.trans (by rfl))
  · rintro rfl; rfl

theorem map_zq_inj {f g : List Int16} (hf : Reduced f) (hg : Reduced g) (h : f.map zq = g.map zq) : f = g := by
  induction f generalizing g with
  | nil => cases g with
    | nil => rfl
    | cons b g => simp at h
  | cons a f ih => cases g with
    | nil => simp at h
    | cons b g =>
      simp only [List.map_cons, List.cons.injEq] at h
      rw [zq_inj (hf a (by simp)) (hg b (by simp)) h.1,
        ih (fun x hx => hf x (by simp [hx])) (fun x hx => hg x (by simp [hx])) h.2]

theorem i16_bounds (x : Int16) : -32768 ≤ x.toInt ∧ x.toInt ≤ 32767 := by
  have h1 := x.le_toInt
  have h2 := x.toInt_lt
  omega

/-- Elements of the field of a table. -/
def wz (l : List Nat) : List Zq := l.map fun (a : Nat) => (a : Zq)

theorem natCast_eq_of_mod {a b : Nat} (h : a % 12289 = b % 12289) : (a : Zq) = (b : Zq) :=
  (ZMod.natCast_eq_natCast_iff' a b 12289).2 h

/-- Relation between consecutive tables, in the field. -/
inductive Pairs : List Nat → List Nat → Prop
  | nil : Pairs [] []
  | cons {a b c : Nat} {ws cs : List Nat} (ha : 0 < a) (ha' : a < 12289) (hs : (c : Zq) = (a : Zq) ^ 2)
      (hn : (b : Zq) = -(a : Zq)) (h : Pairs ws cs) : Pairs (a :: b :: ws) (c :: cs)

theorem pairs_of_ok (w cs : List Nat) (h : pairOK w cs = true) : Pairs w cs := by
  induction w using List.twoStepInduction generalizing cs with
  | nil =>
    cases cs with
    | nil => exact .nil
    | cons c cs => simp [pairOK] at h
  | singleton a => cases cs <;> simp [pairOK] at h
  | cons_cons a b ws ih _ =>
    cases cs with
    | nil => simp [pairOK] at h
    | cons c cs =>
      simp [pairOK] at h
      obtain ⟨⟨⟨⟨⟨h1, h2⟩, h3⟩, h4⟩, h5⟩, h6⟩ := h
      refine .cons h1 h2 ?_ ?_ (ih cs h6)
      · rw [← h4]
        have := ZMod.natCast_mod (a * a) 12289
        rw [this]; push_cast; ring
      · have : ((a + b : Nat) : Zq) = ((0 : Nat) : Zq) := natCast_eq_of_mod (by omega)
        push_cast at this
        linear_combination this

theorem natCast_ne_zero {a : Nat} (h0 : 0 < a) (h1 : a < 12289) : (a : Zq) ≠ 0 := by
  intro h
  have : ((a : Nat) : Zq) = ((0 : Nat) : Zq) := by simpa using h
  rw [ZMod.natCast_eq_natCast_iff'] at this
  omega

theorem inv_cast {a v : Nat} (h : a * v % 12289 = 1) : (a : Zq) * (v : Zq) = 1 := by
  have : ((a * v : Nat) : Zq) = ((1 : Nat) : Zq) := natCast_eq_of_mod (by omega)
  push_cast at this
  exact this

theorem two_i2 : (2 : Zq) * 6145 = 1 := by decide

/-! ### Merge -/

theorem mergeLoop_spec {W : Int → Go Int} (hW : Good W) {w cs : List Nat} (hp : Pairs w cs) :
    ∀ (f0 f1 : List Int16), f0.length = cs.length → f1.length = cs.length →
    ∃ r, mergeLoop W w f0 f1 = .ok r ∧ r.length = w.length ∧ Reduced r ∧
      ∀ F0 F1 : Zq → Zq, f0.map zq = (wz cs).map F0 → f1.map zq = (wz cs).map F1 →
        r.map zq = (wz w).map fun x => F0 (x ^ 2) + x * F1 (x ^ 2) := by
  induction hp with
  | nil =>
    intro f0 f1 h0 h1
    simp at h0; subst h0
    exact ⟨[], by simp [mergeLoop], rfl, by simp [Reduced], by simp [wz]⟩
  | @cons a b c ws cs ha ha' hs hn hp ih =>
    intro f0 f1 h0 h1
    match f0, f1 with
    | [], _ => simp at h0
    | _ :: _, [] => simp at h1
    | x :: f0, y :: f1 =>
      obtain ⟨r, hr, hrl, hrr, hrs⟩ := ih f0 f1 (by simpa using h0) (by simpa using h1)
      have hx := i16_bounds x
      have hy := i16_bounds y
      have hm1 : -2 ^ 32 ≤ (a : Int) * y.toInt := by nlinarith
      have hm2 : (a : Int) * y.toInt ≤ 2 ^ 32 := by nlinarith
      refine ⟨reduceQ (a * y.toInt + x.toInt) :: reduceQ (x.toInt - a * y.toInt) :: r, ?_, by simp [hrl], ?_, ?_⟩
      · simp only [mergeLoop, idx, List.getElem?_cons_zero, Go.ok_bind, List.drop_succ_cons, List.drop_zero,
          hW (a * y.toInt) (by omega) (by omega), hW (a * y.toInt + x.toInt) (by omega) (by omega),
          hW (x.toInt - a * y.toInt) (by omega) (by omega), hr, Go.pure_eq]
      · intro z hz
        simp only [List.mem_cons] at hz
        rcases hz with rfl | rfl | hz
        · exact reduceQ_red _
        · exact reduceQ_red _
        · exact hrr z hz
      · intro F0 F1 e0 e1
        simp only [wz, List.map_cons, List.cons.injEq] at e0 e1 ⊢
        refine ⟨?_, ?_, hrs F0 F1 e0.2 e1.2⟩
        · rw [zq_reduceQ]
          push_cast
          rw [← hs, ← e0.1, ← e1.1]
          unfold zq; ring
        · rw [zq_reduceQ]
          push_cast
          rw [hn, neg_sq, ← hs, ← e0.1, ← e1.1]
          unfold zq; ring

/-! ### Split -/

theorem splitLoop_spec {W : Int → Go Int} (hW : Good W) {w cs : List Nat} (hp : Pairs w cs) :
    ∀ (g : List Int16), g.length = w.length →
    ∃ s0 s1, splitLoop W w g = .ok (s0, s1) ∧ s0.length = cs.length ∧ s1.length = cs.length ∧ Reduced s0 ∧ Reduced s1 ∧
      ∀ F0 F1 : Zq → Zq, s0.map zq = (wz cs).map F0 → s1.map zq = (wz cs).map F1 →
        g.map zq = (wz w).map fun x => F0 (x ^ 2) + x * F1 (x ^ 2) := by
  induction hp with
  | nil =>
    intro g hg
    simp at hg; subst hg
    exact ⟨[], [], by simp [splitLoop], rfl, rfl, by simp [Reduced], by simp [Reduced], by simp [wz]⟩
  | @cons a b c ws cs ha ha' hs hn hp ih =>
    intro g hg
    match g with
    | [] => simp at hg
    | [_] => simp at hg
    | x :: y :: g =>
      obtain ⟨s0, s1, hr, hl0, hl1, hr0, hr1, hrs⟩ := ih g (by simpa using hg)
      obtain ⟨v, hv, hav, hv'⟩ := inv_spec ha ha'
      have hx := i16_bounds x
      have hy := i16_bounds y
      have hm1 : -2 ^ 60 ≤ (x.toInt - y.toInt) * i2 * (v : Int) := by unfold i2; nlinarith
      have hm2 : (x.toInt - y.toInt) * i2 * (v : Int) ≤ 2 ^ 60 := by unfold i2; nlinarith
      have hb1 : -2 ^ 60 ≤ (x.toInt - y.toInt) * i2 ∧ (x.toInt - y.toInt) * i2 ≤ 2 ^ 60 := by unfold i2; omega
      have hb2 : -2 ^ 60 ≤ (x.toInt + y.toInt) * i2 ∧ (x.toInt + y.toInt) * i2 ≤ 2 ^ 60 := by unfold i2; omega
      refine ⟨reduceQ ((x.toInt + y.toInt) * i2) :: s0, reduceQ ((x.toInt - y.toInt) * i2 * v) :: s1, ?_,
        by simp [hl0], by simp [hl1], ?_, ?_, ?_⟩
      · have h0 : idx (a :: b :: ws) 0 = .ok a := rfl
        simp only [splitLoop, hW (x.toInt + y.toInt) (by omega) (by omega),
          hW ((x.toInt + y.toInt) * i2) (by omega) (by omega), hW (x.toInt - y.toInt) (by omega) (by omega),
          hW ((x.toInt - y.toInt) * i2) (by omega) (by omega), hW ((x.toInt - y.toInt) * i2 * v) (by omega) (by omega),
          Go.ok_bind, h0, hv, List.drop_succ_cons, List.drop_zero, hr, Go.pure_eq]
      · intro z hz
        simp only [List.mem_cons] at hz
        rcases hz with rfl | hz
        · exact reduceQ_red _
        · exact hr0 z hz
      · intro z hz
        simp only [List.mem_cons] at hz
        rcases hz with rfl | hz
        · exact reduceQ_red _
        · exact hr1 z hz
      · intro F0 F1 e0 e1
        simp only [wz, List.map_cons, List.cons.injEq] at e0 e1 ⊢
        have hinv := inv_cast hav
        have e0' := e0.1
        have e1' := e1.1
        rw [zq_reduceQ] at e0' e1'
        push_cast at e0' e1'
        have hi2 : ((i2 : Int) : Zq) = 6145 := rfl
        rw [hi2] at e0' e1'
        have h2 := two_i2
        refine ⟨?_, ?_, hrs F0 F1 e0.2 e1.2⟩
        · rw [← hs, ← e0', ← e1']
          unfold zq
          linear_combination (-(x.toInt : Zq)) * h2 - ((x.toInt : Zq) - y.toInt) * 6145 * hinv
        · rw [hn, neg_sq, ← hs, ← e0', ← e1']
          unfold zq
          linear_combination (-(y.toInt : Zq)) * h2 + ((x.toInt : Zq) - y.toInt) * 6145 * hinv

/-! ### The transforms -/

theorem level_pairs' (k : Nat) (h1 : 1 ≤ k) (h : k < 10) : Pairs (level (k + 1)) (level k) :=
  pairs_of_ok _ _ (level_pairs k h h1)

/-- The tabulated roots of degree `2^k` as field elements. -/
def rootsZ (k : Nat) : List Zq := wz (level k)

theorem rootsZ_length (k : Nat) (h1 : 1 ≤ k) (h : k ≤ 10) : (rootsZ k).length = 2 ^ k := by
  simp [rootsZ, wz, level_length k (by omega) h1]

theorem list_length_two {α : Type*} {f : List α} (h : f.length = 2) : ∃ a b, f = [a, b] := by
  match f with
  | [a, b] => exact ⟨a, b, rfl⟩

theorem NTT_spec {W : Int → Go Int} (hW : Good W) (k : Nat) (h1 : 1 ≤ k) (h : k ≤ 10) (f : List Int16)
    (hf : f.length = 2 ^ k) :
    ∃ r, NTT W f = .ok r ∧ r.length = 2 ^ k ∧ Reduced r ∧ r.map zq = (rootsZ k).map fun x => (polyQ f).eval x := by
  induction k, h1 using Nat.le_induction generalizing f with
  | base =>
    obtain ⟨a, b, rfl⟩ := list_length_two hf
    have ha := i16_bounds a
    have hb := i16_bounds b
    have hs : sqr1 = 1479 := sqr1_eq
    refine ⟨[reduceQ (a.toInt + sqr1 * b.toInt), reduceQ (a.toInt - sqr1 * b.toInt)], ?_, rfl, ?_, ?_⟩
    · have hb' : -2 ^ 40 ≤ sqr1 * b.toInt ∧ sqr1 * b.toInt ≤ 2 ^ 40 := by rw [hs]; omega
      rw [NTT]
      simp only [List.length_cons, List.length_nil, gt_iff_lt, Nat.reduceAdd, Nat.lt_irrefl, ↓reduceDIte]
      rw [hW (sqr1 * b.toInt) (by omega) (by omega), Go.ok_bind, hW _ (by omega) (by omega), Go.ok_bind,
        hW _ (by omega) (by omega), Go.ok_bind, Go.pure_eq]
    · intro z hz
      simp only [List.mem_cons, List.not_mem_nil, or_false] at hz
      rcases hz with rfl | rfl <;> exact reduceQ_red _
    · simp only [rootsZ, wz, level_one, polyQ, List.map_cons, List.map_nil, poly_cons, poly_nil, zq_reduceQ, hs]
      have : (10810 : Zq) = -1479 := by decide
      simp [zq, this]
      ring
  | succ k h1 ih =>
    have hlen := splitPolys_length f
    have h2 : f.length / 2 = 2 ^ k := by rw [hf, pow_succ]; omega
    rw [h2] at hlen
    obtain ⟨r0, e0, l0, _, m0⟩ := ih (by omega) _ hlen.1
    obtain ⟨r1, e1, l1, _, m1⟩ := ih (by omega) _ hlen.2
    have hp := level_pairs' k h1 (by omega)
    have hll := level_length k (by omega) h1
    obtain ⟨r, e, hl, hr, hm⟩ := mergeLoop_spec hW hp r0 r1 (by omega) (by omega)
    have hk : 2 < f.length := by
      rw [hf, pow_succ]
      have : 2 ^ 1 ≤ 2 ^ k := Nat.pow_le_pow_right (by decide) h1
      omega
    refine ⟨r, ?_, ?_, hr, ?_⟩
    · rw [NTT]
      simp only [gt_iff_lt, hk, ↓reduceDIte, e0, e1, Go.ok_bind]
      unfold MergeNTT
      have : 2 * r0.length = 2 ^ (k + 1) := by rw [l0, pow_succ]; omega
      rw [this]
      have hlev : roots_dict_Zq (Int16.ofNat (2 ^ (k + 1))) = level (k + 1) := by unfold level; rfl
      rw [hlev, e]
    · rw [hl, level_length _ (by omega) (by omega)]
    · rw [hm _ _ m0 m1]
      apply List.map_congr_left
      intro x _
      conv_rhs => rw [polyQ, poly_eval_split _ (by rw [List.length_map, hf, pow_succ]; omega), splitPolys_map]
      rfl

theorem INTT_spec {W : Int → Go Int} (hW : Good W) (k : Nat) (h1 : 1 ≤ k) (h : k ≤ 10) (g : List Int16)
    (hg : g.length = 2 ^ k) :
    ∃ f, INTT W g = .ok f ∧ f.length = 2 ^ k ∧ Reduced f ∧ g.map zq = (rootsZ k).map fun x => (polyQ f).eval x := by
  induction k, h1 using Nat.le_induction generalizing g with
  | base =>
    obtain ⟨a, b, rfl⟩ := list_length_two hg
    have ha := i16_bounds a
    have hb := i16_bounds b
    obtain ⟨v, hv, hav, hv'⟩ := inv_spec (a := 1479) (by decide) (by decide)
    have hm1 : -2 ^ 60 ≤ (a.toInt - b.toInt) * (v : Int) ∧ (a.toInt - b.toInt) * (v : Int) ≤ 2 ^ 60 := by
      constructor <;> nlinarith
    have hm2 : -2 ^ 60 ≤ (a.toInt - b.toInt) * (v : Int) * i2 ∧ (a.toInt - b.toInt) * (v : Int) * i2 ≤ 2 ^ 60 := by
      unfold i2; constructor <;> nlinarith
    have hm3 : -2 ^ 60 ≤ (a.toInt + b.toInt) * i2 ∧ (a.toInt + b.toInt) * i2 ≤ 2 ^ 60 := by
      unfold i2; omega
    refine ⟨[reduceQ ((a.toInt + b.toInt) * i2), reduceQ ((a.toInt - b.toInt) * v * i2)], ?_, rfl, ?_, ?_⟩
    · rw [INTT]
      simp only [List.length_cons, List.length_nil, gt_iff_lt, Nat.reduceAdd, Nat.lt_irrefl, ↓reduceDIte]
      rw [hW (a.toInt + b.toInt) (by omega) (by omega), Go.ok_bind, hW _ (by omega) (by omega), Go.ok_bind,
        hW _ (by omega) (by omega), Go.ok_bind, hv, Go.ok_bind, hW _ (by omega) (by omega), Go.ok_bind,
        hW _ (by omega) (by omega), Go.ok_bind, Go.pure_eq]
    · intro z hz
      simp only [List.mem_cons, List.not_mem_nil, or_false] at hz
      rcases hz with rfl | rfl <;> exact reduceQ_red _
    · simp only [rootsZ, wz, level_one, polyQ, List.map_cons, List.map_nil, poly_cons, poly_nil, zq_reduceQ]
      have hinv : (1479 : Zq) * (v : Zq) = 1 := by simpa using inv_cast hav
      have hi2 : ((i2 : Int) : Zq) = 6145 := rfl
      have h2 := two_i2
      have h3 : ((10810 : Nat) : Zq) = -1479 := by decide
      rw [h3]
      simp [zq, hi2]
      constructor
      · linear_combination (-(a.toInt : Zq)) * h2 - ((a.toInt : Zq) - b.toInt) * 6145 * hinv
      · linear_combination (-(b.toInt : Zq)) * h2 + ((a.toInt : Zq) - b.toInt) * 6145 * hinv
  | succ k h1 ih =>
    have hp := level_pairs' k h1 (by omega)
    have hll := level_length k (by omega) h1
    have hll' := level_length (k + 1) (by omega) (by omega)
    obtain ⟨s0, s1, e, l0, l1, _, _, hm⟩ := splitLoop_spec hW hp g (by omega)
    obtain ⟨f0, e0, lf0, r0, m0⟩ := ih (by omega) s0 (by omega)
    obtain ⟨f1, e1, lf1, r1, m1⟩ := ih (by omega) s1 (by omega)
    obtain ⟨f, ef, lf, sf, mf⟩ := mergePolys_ok (lf0.trans lf1.symm)
    have hk : 2 < g.length := by
      rw [hg, pow_succ]
      have : 2 ^ 1 ≤ 2 ^ k := Nat.pow_le_pow_right (by decide) h1
      omega
    have hs : SplitNTT W g = .ok (s0, s1) := by
      unfold SplitNTT
      have hlev : roots_dict_Zq (Int16.ofNat (2 ^ (k + 1))) = level (k + 1) := by unfold level; rfl
      rw [hg, hlev, e]
    have hlf : f.length = 2 ^ (k + 1) := by rw [lf, lf0, pow_succ]; omega
    refine ⟨f, ?_, hlf, ?_, ?_⟩
    · rw [INTT]
      simp only [gt_iff_lt, hk, ↓reduceDIte]
      split
      · next s hs' =>
        rw [hs] at hs'
        simp at hs'
        subst hs'
        simp [e0, e1, ef]
      · next hs' => rw [hs] at hs'; simp at hs'
      · next hs' => rw [hs] at hs'; simp at hs'
    · intro x hx
      rcases (mf x).1 hx with hx | hx
      · exact r0 x hx
      · exact r1 x hx
    · rw [hm _ _ m0 m1]
      apply List.map_congr_left
      intro x _
      conv_rhs => rw [polyQ, poly_eval_split _ (by rw [List.length_map, hlf, pow_succ]; omega), splitPolys_map, sf]
      rfl

end Falcon
