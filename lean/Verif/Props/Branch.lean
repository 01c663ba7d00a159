import Verif.Model.Branch
import Verif.Model.Falcon
import Verif.Props.Ntt
/-!
# Property C89: branches and secret values
-/

namespace Falcon
open Spec
namespace Br

theorem run_bind {α β : Type} (x : Br α) (f : α → Br β) :
    (x >>= f).run = (x.run >>= fun p => (f p.1).run >>= fun r => .ok (r.1, p.2 ++ r.2)) := rfl
theorem run_pure {α : Type} (a : α) : (pure a : Br α).run = .ok (a, []) := rfl
theorem run_lift {α : Type} (x : Go α) : (lift x).run = x >>= fun a => .ok (a, []) := rfl

theorem bind_ok {α β : Type} {x : Br α} {f : α → Br β} {b : β} {l : List Bool} :
    (x >>= f).run = .ok (b, l) ↔ ∃ a l1 l2, x.run = .ok (a, l1) ∧ (f a).run = .ok (b, l2) ∧ l = l1 ++ l2 := by
  rw [run_bind, Go.bind_eq_ok]
  constructor
  · rintro ⟨⟨a, l1⟩, h1, h⟩
    rw [Go.bind_eq_ok] at h
    obtain ⟨⟨c, l2⟩, h2, h3⟩ := h
    simp only [Go.ok.injEq, Prod.mk.injEq] at h3
    obtain ⟨rfl, rfl⟩ := h3
    exact ⟨a, l1, l2, h1, h2, rfl⟩
  · rintro ⟨a, l1, l2, h1, h2, rfl⟩
    exact ⟨(a, l1), h1, by rw [h2]; rfl⟩

theorem value_bind {α β : Type} (x : Br α) (f : α → Br β) : value (x >>= f) = (value x >>= fun a => value (f a)) := by
  unfold value
  rw [run_bind]
  rcases x.run with ⟨a, l1⟩ | _ | _
  · simp only [Go.ok_bind]
    rcases (f a).run with ⟨c, l2⟩ | _ | _ <;> rfl
  · rfl
  · rfl

theorem value_lift {α : Type} (x : Go α) : value (lift x) = x := by cases x <;> rfl
theorem value_pure {α : Type} (a : α) : value (pure a : Br α) = Go.ok a := rfl
theorem value_test (b : Bool) : value (test b) = Go.ok b := rfl

theorem reduceQ_run (x : Int) : (reduceQ x).run = .ok (Falcon.reduceQ x, [decide (x.tmod 12289 ≥ 0)]) := by
  unfold reduceQ Falcon.reduceQ pmodVal
  simp only [run_bind, test, Go.ok_bind, decide_eq_true_eq, show Q = 12289 from rfl, if_neg (show ¬ (12289 : Int) < 0 by decide)]
  split <;> rfl

theorem value_reduceQ (x : Int) : value (reduceQ x) = Go.ok (Falcon.reduceQ x) := by rw [value, reduceQ_run]; rfl

/-! ### without the lists these are the functions of `Model/Ntt.lean` -/

theorem value_splitLoop (w : List Nat) (f : List Int16) : value (splitLoop w f) = Falcon.splitLoop wrap64 w f := by
  induction f using List.twoStepInduction generalizing w with
  | nil => rfl
  | singleton a => rfl
  | cons_cons a b rest ih _ =>
    simp only [splitLoop, Falcon.splitLoop, value_bind, value_lift, value_reduceQ, value_pure, ih, Go.ok_bind, Go.pure_eq]

theorem value_mergeLoop (w : List Nat) (f0 f1 : List Int16) : value (mergeLoop w f0 f1) = Falcon.mergeLoop wrap64 w f0 f1 := by
  induction f0 generalizing w f1 with
  | nil => rfl
  | cons x f0 ih =>
    simp only [mergeLoop, Falcon.mergeLoop, value_bind, value_lift, value_reduceQ, value_pure, ih, Go.ok_bind, Go.pure_eq]

theorem value_NTT (f : List Int16) : value (NTT f) = Falcon.NTT wrap64 f := by
  induction hn : f.length using Nat.strong_induction_on generalizing f with
  | _ n ih =>
    have hl := splitPolys_length f
    rw [NTT, Falcon.NTT]
    by_cases h : f.length > 2
    · rw [dif_pos h, dif_pos h]
      simp only [value_bind, ih _ (by omega) (splitPolys f).1 rfl, ih _ (by omega) (splitPolys f).2 rfl, MergeNTT, value_mergeLoop,
        Falcon.MergeNTT]
    · rw [dif_neg h, dif_neg h]
      match f with
      | [] => rfl
      | [_] => rfl
      | [f0, f1] => simp only [value_bind, value_lift, value_reduceQ, value_pure, Go.ok_bind, Go.pure_eq]
      | _ :: _ :: _ :: _ => simp at h

theorem value_INTTFuel (fuel : Nat) (f : List Int16) (hf : f.length ≤ fuel) : value (INTTFuel fuel f) = Falcon.INTT wrap64 f := by
  induction fuel generalizing f with
  | zero =>
    obtain rfl : f = [] := List.length_eq_zero_iff.1 (by omega)
    rw [Falcon.INTT]
    rfl
  | succ fuel ih =>
    rw [Falcon.INTT]
    unfold INTTFuel
    by_cases h : f.length > 2
    · rw [if_pos h, dif_pos h, value_bind, SplitNTT, value_splitLoop]
      change (Falcon.SplitNTT wrap64 f >>= _) = _
      split
      · next s hs =>
        have hl := splitLoop_length hs
        rw [hs, Go.ok_bind, value_bind, ih _ (by omega)]
        congr 1
        funext f0
        rw [value_bind, ih _ (by omega)]
        congr 1
        funext f1
        rw [value_lift]
      · next hs => rw [hs]; rfl
      · next hs => rw [hs]; rfl
    · rw [if_neg h, dif_neg h]
      match f with
      | [] => rfl
      | [_] => rfl
      | [f0, f1] => simp only [value_bind, value_lift, value_reduceQ, value_pure, Go.ok_bind, Go.pure_eq]
      | _ :: _ :: _ :: _ => simp at h

theorem value_addLoop (f g : List Int16) : value (addLoop f g) = Go.ok (Falcon.addLoop f g) := by
  induction f generalizing g with
  | nil => rfl
  | cons x f ih =>
    cases g with
    | nil => rfl
    | cons y g => simp only [addLoop, Falcon.addLoop, value_bind, value_reduceQ, ih, value_pure, Go.ok_bind]

theorem value_negZq (f : List Int16) : value (negZq f) = Go.ok (Falcon.negZq f) := by
  induction f with
  | nil => rfl
  | cons x f ih => simp only [negZq, Falcon.negZq, value_bind, value_reduceQ, ih, value_pure, Go.ok_bind, List.map_cons]

theorem value_mulLoop (f g : List Int16) : value (mulLoop f g) = Falcon.mulLoop wrap64 f g := by
  induction f generalizing g with
  | nil => rfl
  | cons x f ih =>
    cases g with
    | nil => rfl
    | cons y g => simp only [mulLoop, Falcon.mulLoop, value_bind, value_lift, value_reduceQ, ih, value_pure, Go.ok_bind, Go.pure_eq]

theorem value_divLoop (f g : List Int16) : value (divLoop f g) = Falcon.divLoop wrap64 f g := by
  induction f generalizing g with
  | nil => rfl
  | cons x f ih =>
    cases g with
    | nil => rfl
    | cons y g =>
      simp only [divLoop, Falcon.divLoop, value_bind, value_lift, value_reduceQ, ih, value_pure, Go.ok_bind, Go.pure_eq]
      split <;> rfl

theorem value_zeroTest (g : List Int16) : value (zeroTest g) = Go.ok (g.any (· == 0)) := by
  induction g with
  | nil => rfl
  | cons y g ih =>
    simp only [zeroTest, value_bind, value_test, Go.ok_bind]
    by_cases h : y = 0
    · rw [if_pos (by simpa using h), List.any_cons]
      simp [h, value_pure]
    · rw [if_neg (by simpa using h), ih, List.any_cons]
      simp [h]

theorem value_mulNTT (f g : List Int16) : value (mulNTT f g) = Falcon.mulNTT wrap64 f g := by
  unfold mulNTT Falcon.mulNTT
  split
  · rfl
  · exact value_mulLoop f g

theorem value_divNTT (f g : List Int16) : value (divNTT f g) = Falcon.divNTT wrap64 f g := by
  unfold divNTT Falcon.divNTT
  split
  · rfl
  · rw [value_bind, value_zeroTest, Go.ok_bind]
    split
    · rfl
    · rw [value_bind, value_divLoop]; rfl

/-- Without the lists of conditions the functions are those of `Model/Ntt.lean`. -/
theorem value_ring (f g : List Int16) : value (SubZq f g) = Falcon.SubZq f g ∧ value (MulZq f g) = Falcon.MulZq wrap64 f g ∧
    value (DivZq f g) = Falcon.DivZq wrap64 f g := by
  refine ⟨?_, ?_, ?_⟩
  · unfold SubZq Falcon.SubZq addZq Falcon.addZq
    rw [value_bind, value_negZq, Go.ok_bind]
    split
    · rfl
    · exact value_addLoop _ _
  · unfold MulZq Falcon.MulZq
    simp only [value_bind, value_NTT, value_mulNTT, INTT, value_INTTFuel _ _ (le_refl _)]
  · unfold DivZq Falcon.DivZq
    simp only [value_bind, value_NTT, value_divNTT]
    congr 1; funext ft
    congr 1; funext gt
    congr 1; funext r
    rcases r with e | d
    · rfl
    · simp only [value_bind, INTT, value_INTTFuel _ _ (le_refl _), value_pure, Go.pure_eq]

/-! ### the conditions of single operations -/

theorem tmod_nonneg_iff (x : Int) : x.tmod 12289 ≥ 0 ↔ 0 ≤ x ∨ (12289 : Int) ∣ x := by
  rcases le_or_gt 0 x with h | h
  · exact ⟨fun _ => .inl h, fun _ => Int.tmod_nonneg _ h⟩
  · obtain ⟨y, rfl⟩ : ∃ y, x = -y := ⟨-x, by omega⟩
    rw [Int.neg_tmod, Int.tmod_eq_emod_of_nonneg (by omega), Int.dvd_neg]
    have := Int.emod_nonneg y (show (12289 : Int) ≠ 0 by decide)
    constructor
    · intro h'; right; omega
    · rintro (h' | h') <;> omega

end Br
open Br

/-- C89. The condition of `Pmod(x, q)` holds exactly when `x` is not negative or a multiple of `q`. -/
theorem C89_pmod (x : Int) : (Br.reduceQ x).run = .ok (reduceQ x, [decide (0 ≤ x ∨ (12289 : Int) ∣ x)]) := by
  rw [reduceQ_run]
  simp only [tmod_nonneg_iff]

namespace Br

theorem reduceQ_nonneg {x : Int} (h : 0 ≤ x) : (reduceQ x).run = .ok (Falcon.reduceQ x, [true]) := by
  rw [C89_pmod, decide_eq_true (.inl h)]

theorem add_log {f g : List Int16} (hf : Reduced f) (hg : Reduced g) (h : f.length = g.length) :
    (addLoop f g).run = .ok (Falcon.addLoop f g, List.replicate f.length true) := by
  induction f generalizing g with
  | nil => rfl
  | cons x f ih =>
    cases g with
    | nil => cases h
    | cons y g =>
      have hx := hf x (by simp)
      have hy := hg y (by simp)
      have h0 : 0 ≤ (x + y).toInt := by
        rw [Int16.toInt_add, Int.bmod_def]
        split <;> omega
      simp only [addLoop, Falcon.addLoop, run_bind, reduceQ_nonneg h0, Go.ok_bind,
        ih (g := g) (fun z hz => hf z (by simp [hz])) (fun z hz => hg z (by simp [hz])) (by simpa using h), run_pure, List.append_nil]
      rfl

theorem neg_log {g : List Int16} (hg : Reduced g) : (negZq g).run = .ok (Falcon.negZq g, g.map fun y => decide (y = 0)) := by
  induction g with
  | nil => rfl
  | cons y g ih =>
    have hy := hg y (by simp)
    have h0 : (0 ≤ (-y).toInt ∨ (12289 : Int) ∣ (-y).toInt) ↔ y = 0 := by
      have e : (-y).toInt = -y.toInt := by
        rw [Int16.toInt_neg, Int.bmod_def]
        split <;> omega
      rw [e, ← Int16.toInt_inj, show (0 : Int16).toInt = 0 from rfl]
      omega
    simp only [negZq, Falcon.negZq, run_bind, C89_pmod, h0, Go.ok_bind, ih (fun z hz => hg z (by simp [hz])), run_pure, List.append_nil,
      List.map_cons]
    rfl

theorem mul_log {f g : List Int16} (hf : Reduced f) (hg : Reduced g) (h : f.length = g.length) :
    ∃ r, (mulLoop f g).run = .ok (r, List.replicate f.length true) := by
  induction f generalizing g with
  | nil => exact ⟨[], rfl⟩
  | cons x f ih =>
    cases g with
    | nil => cases h
    | cons y g =>
      have hx := hf x (by simp)
      have hy := hg y (by simp)
      have h0 : 0 ≤ x.toInt * y.toInt := by nlinarith
      have h2 : x.toInt * y.toInt < 2 ^ 63 := by nlinarith
      obtain ⟨r, hr⟩ := ih (g := g) (fun z hz => hf z (by simp [hz])) (fun z hz => hg z (by simp [hz])) (by simpa using h)
      refine ⟨Falcon.reduceQ (x.toInt * y.toInt) :: r, ?_⟩
      simp only [mulLoop, run_bind, run_lift, wrap64_good _ (by omega) h2, Go.ok_bind, reduceQ_nonneg h0, hr, run_pure, List.append_nil]
      rfl

theorem merge_log {w : List Nat} {f0 f1 r : List Int16} {l : List Bool} (h : (mergeLoop w f0 f1).run = .ok (r, l)) :
    l.length = 2 * f0.length := by
  induction f0 generalizing w f1 r l with
  | nil =>
    simp only [mergeLoop, run_pure, Go.ok.injEq, Prod.mk.injEq] at h
    rw [← h.2]; rfl
  | cons x f0 ih =>
    simp only [mergeLoop, bind_ok, run_lift, reduceQ_run, run_pure, Go.bind_eq_ok, Go.ok.injEq, Prod.mk.injEq] at h
    obtain ⟨_, _, _, ⟨_, _, _, rfl⟩, ⟨_, _, _, ⟨_, _, _, rfl⟩, ⟨_, _, _, ⟨_, _, _, rfl⟩, ⟨_, _, _, ⟨_, _, _, rfl⟩,
      ⟨_, _, _, ⟨_, rfl⟩, ⟨_, _, _, ⟨_, _, _, rfl⟩, ⟨_, _, _, ⟨_, _, _, rfl⟩, ⟨_, _, _, ⟨_, rfl⟩, ⟨_, _, _, hr, ⟨_, rfl⟩, rfl⟩, rfl⟩, rfl⟩, rfl⟩, rfl⟩,
      rfl⟩, rfl⟩, rfl⟩, rfl⟩ := h
    have := ih hr
    simp
    omega


/-- The number of conditions of `NTT`. -/
theorem ntt_log (k : Nat) (h1 : 1 ≤ k) (h : k ≤ 10) (f : List Int16) (hf : f.length = 2 ^ k) :
    ∃ r l, (NTT f).run = .ok (r, l) ∧ Falcon.NTT wrap64 f = .ok r ∧ r.length = 2 ^ k ∧ Reduced r ∧ l.length = k * 2 ^ k := by
  obtain ⟨r, hr, lr, rr, -⟩ := NTT_spec wrap64_good k h1 h f hf
  have hv := value_NTT f
  rw [hr, value, Go.bind_eq_ok] at hv
  obtain ⟨⟨r', l⟩, hrun, he⟩ := hv
  obtain rfl : r' = r := Go.ok.inj he
  refine ⟨r', l, hrun, hr, lr, rr, ?_⟩
  clear hr lr rr he
  induction k, h1 using Nat.le_induction generalizing f r' l with
  | base =>
    obtain ⟨a, b, rfl⟩ := list_length_two hf
    rw [NTT, dif_neg (by simp)] at hrun
    simp only [bind_ok, run_lift, reduceQ_run, run_pure, Go.bind_eq_ok, Go.ok.injEq, Prod.mk.injEq] at hrun
    obtain ⟨_, _, _, ⟨_, _, _, rfl⟩, ⟨_, _, _, ⟨_, _, _, rfl⟩, ⟨_, _, _, ⟨_, rfl⟩, ⟨_, _, _, ⟨_, _, _, rfl⟩, ⟨_, _, _, ⟨_, rfl⟩, ⟨_, rfl⟩, rfl⟩,
      rfl⟩, rfl⟩, rfl⟩, rfl⟩ := hrun
    rfl
  | succ k h1 ih =>
    have hp : 2 ≤ 2 ^ k := by
      calc 2 = 2 ^ 1 := rfl
        _ ≤ 2 ^ k := Nat.pow_le_pow_right (by decide) h1
    have hl := splitPolys_length f
    rw [hf, pow_succ] at hl
    rw [NTT, dif_pos (by rw [hf, pow_succ]; omega)] at hrun
    simp only [bind_ok] at hrun
    obtain ⟨a, l1, _, ha, ⟨b, l2, l3, hb, hm, rfl⟩, rfl⟩ := hrun
    have e1 := ih (by omega) _ (by omega) a l1 ha
    have e2 := ih (by omega) _ (by omega) b l2 hb
    have e3 := merge_log hm
    have hv := value_NTT (splitPolys f).1
    rw [value, ha] at hv
    obtain ⟨a', ha', la, -⟩ := NTT_spec wrap64_good k h1 (by omega) (splitPolys f).1 (by omega)
    rw [ha'] at hv
    obtain rfl : a = a' := Go.ok.inj hv
    rw [List.length_append, List.length_append, e1, e2, e3, la, pow_succ]
    ring

/-- A vector of 78 at most in absolute value. -/
theorem short_zero {a b : Int} (ha : -78 ≤ a ∧ a ≤ 78) (hb : -78 ≤ b ∧ b ≤ 78) (h : (12289 : Int) ∣ a + 1479 * b) : a = 0 ∧ b = 0 := by
  have h2 : (12289 : Int) ∣ a ^ 2 + b ^ 2 := by
    obtain ⟨c, hc⟩ := h
    have : a = 12289 * c - 1479 * b := by omega
    refine ⟨12289 * c ^ 2 - 2 * 1479 * b * c + 178 * b ^ 2, ?_⟩
    rw [this]; ring
  have h3 : a ^ 2 + b ^ 2 < 12289 := by nlinarith
  have h4 : 0 ≤ a ^ 2 + b ^ 2 := by positivity
  have h5 : a ^ 2 + b ^ 2 = 0 := by omega
  constructor
  · nlinarith [sq_nonneg a, sq_nonneg b]
  · nlinarith [sq_nonneg a, sq_nonneg b]

theorem two_signs {a b : Int} (ha : -78 ≤ a ∧ a ≤ 78) (hb : -78 ≤ b ∧ b ≤ 78) :
    (0 < b ↔ (0 ≤ a + 1479 * b ∨ (12289 : Int) ∣ a + 1479 * b) ∧ ¬ (0 ≤ a - 1479 * b ∨ (12289 : Int) ∣ a - 1479 * b)) ∧
    (b < 0 ↔ ¬ (0 ≤ a + 1479 * b ∨ (12289 : Int) ∣ a + 1479 * b) ∧ (0 ≤ a - 1479 * b ∨ (12289 : Int) ∣ a - 1479 * b)) := by
  have h1 : (12289 : Int) ∣ a + 1479 * b → a = 0 ∧ b = 0 := short_zero ha hb
  have h2 : (12289 : Int) ∣ a - 1479 * b → a = 0 ∧ b = 0 := by
    intro h
    have := short_zero (a := a) (b := -b) ha (by omega) (by rw [mul_neg]; exact h)
    omega
  have g1 : (0 ≤ a + 1479 * b ∨ (12289 : Int) ∣ a + 1479 * b) ↔ 0 ≤ a + 1479 * b :=
    ⟨fun h => h.elim id fun h => by have := h1 h; omega, .inl⟩
  have g2 : (0 ≤ a - 1479 * b ∨ (12289 : Int) ∣ a - 1479 * b) ↔ 0 ≤ a - 1479 * b :=
    ⟨fun h => h.elim id fun h => by have := h2 h; omega, .inl⟩
  rw [g1, g2]
  omega

theorem splitPolys_drop {α : Type} (m : Nat) (f : List α) :
    splitPolys (f.drop (2 * m)) = ((splitPolys f).1.drop m, (splitPolys f).2.drop m) := by
  induction m generalizing f with
  | zero => simp
  | succ m ih =>
    match f with
    | [] => simp [splitPolys]
    | [_] => simp [splitPolys, show 2 * (m + 1) = 2 * m + 1 + 1 by ring]
    | a :: b :: f =>
      rw [show 2 * (m + 1) = 2 * m + 1 + 1 by ring, List.drop_succ_cons, List.drop_succ_cons, ih]
      simp [splitPolys]

theorem splitPolys_inj {α : Type} {f g : List α} (hl : f.length = g.length) (h2 : 2 ∣ f.length) (h : splitPolys f = splitPolys g) : f = g := by
  induction f using List.twoStepInduction generalizing g with
  | nil => exact (List.length_eq_zero_iff.1 (by rw [← hl]; rfl)).symm
  | singleton a => simp at h2
  | cons_cons a b f ih _ =>
    match g with
    | [] => cases hl
    | [_] => simp at hl
    | c :: d :: g =>
      simp only [splitPolys, Prod.mk.injEq, List.cons.injEq] at h
      obtain ⟨⟨rfl, h3⟩, rfl, h4⟩ := h
      rw [ih (g := g) (by simpa using hl) (by simp at h2; omega) (Prod.ext h3 h4)]

theorem splitPolys_mem {α : Type} (f : List α) : (∀ x ∈ (splitPolys f).1, x ∈ f) ∧ ∀ x ∈ (splitPolys f).2, x ∈ f := by
  induction f using List.twoStepInduction with
  | nil => simp [splitPolys]
  | singleton a => simp [splitPolys]
  | cons_cons a b f ih _ =>
    simp only [splitPolys, List.mem_cons]
    constructor
    · rintro x (rfl | hx)
      · exact .inl rfl
      · exact .inr (.inr (ih.1 x hx))
    · rintro x (rfl | hx)
      · exact .inr (.inl rfl)
      · exact .inr (.inr (ih.2 x hx))

end Br

/-- Coefficients between -78 and 78. -/
def SmallSlice (f : List Int16) : Prop := ∀ x ∈ f, -78 ≤ x.toInt ∧ x.toInt ≤ 78

/-- The signs of the upper half of the coefficients. -/
def upperSigns (k : Nat) (f : List Int16) : List Int := (f.drop (2 ^ (k - 1))).map fun x => x.toInt.sign

/-- C89 is violated: the conditions that `NTT` evaluates on a short polynomial determine the signs of the upper half of its coefficients. -/
theorem C89_violated_signs (k : Nat) (h1 : 1 ≤ k) (h : k ≤ 10) (f f' : List Int16) (hf : f.length = 2 ^ k) (hf' : f'.length = 2 ^ k)
    (hs : SmallSlice f) (hs' : SmallSlice f') (r r' : List Int16) (l : List Bool) (hr : (Br.NTT f).run = .ok (r, l)) (hr' : (Br.NTT f').run = .ok (r', l)) :
    upperSigns k f = upperSigns k f' := by
  induction k, h1 using Nat.le_induction generalizing f f' r r' l with
  | base =>
    obtain ⟨a, b, rfl⟩ := list_length_two hf
    obtain ⟨a', b', rfl⟩ := list_length_two hf'
    have key : ∀ a b : Int16, SmallSlice [a, b] → (Br.NTT [a, b]).run = .ok ([reduceQ (a.toInt + 1479 * b.toInt), reduceQ (a.toInt - 1479 * b.toInt)],
        [decide (0 ≤ a.toInt + 1479 * b.toInt ∨ (12289 : Int) ∣ a.toInt + 1479 * b.toInt),
          decide (0 ≤ a.toInt - 1479 * b.toInt ∨ (12289 : Int) ∣ a.toInt - 1479 * b.toInt)]) := by
      intro a b h
      have ha := h a (by simp)
      have hb := h b (by simp)
      rw [Br.NTT, dif_neg (by simp)]
      simp only [run_bind, run_lift, sqr1_eq, wrap64_good (1479 * b.toInt) (by omega) (by omega), Go.ok_bind,
        wrap64_good (a.toInt + 1479 * b.toInt) (by omega) (by omega), wrap64_good (a.toInt - 1479 * b.toInt) (by omega) (by omega), C89_pmod, run_pure]
      rfl
    rw [key a b hs] at hr
    rw [key a' b' hs'] at hr'
    simp only [Go.ok.injEq, Prod.mk.injEq] at hr hr'
    have e := hr.2.trans hr'.2.symm
    simp only [List.cons.injEq, decide_eq_decide, and_true] at e
    have t := two_signs (hs a (by simp)) (hs b (by simp))
    have t' := two_signs (hs' a' (by simp)) (hs' b' (by simp))
    rw [e.1, e.2, ← t'.1, ← t'.2] at t
    have : b.toInt.sign = b'.toInt.sign := by
      rcases lt_trichotomy b.toInt 0 with hb | hb | hb
      · rw [Int.sign_eq_neg_one_of_neg hb, Int.sign_eq_neg_one_of_neg (t.2.1 hb)]
      · have : b'.toInt = 0 := by omega
        rw [hb, this]
      · rw [Int.sign_eq_one_of_pos hb, Int.sign_eq_one_of_pos (t.1.1 hb)]
    simp [upperSigns, this]
  | succ k h1 ih =>
    have hp : 2 ≤ 2 ^ k := by
      calc 2 = 2 ^ 1 := rfl
        _ ≤ 2 ^ k := Nat.pow_le_pow_right (by decide) h1
    have hl := splitPolys_length f
    rw [hf, pow_succ] at hl
    have hl' := splitPolys_length f'
    rw [hf', pow_succ] at hl'
    rw [Br.NTT, dif_pos (by rw [hf, pow_succ]; omega)] at hr
    rw [Br.NTT, dif_pos (by rw [hf', pow_succ]; omega)] at hr'
    simp only [bind_ok] at hr hr'
    obtain ⟨a, l1, _, ha, ⟨b, l2, l3, hb, -, rfl⟩, rfl⟩ := hr
    obtain ⟨a', l1', _, ha', ⟨b', l2', l3', hb', -, rfl⟩, he⟩ := hr'
    obtain ⟨_, _, c1, -, -, -, d1⟩ := ntt_log k h1 (by omega) (splitPolys f).1 (by omega)
    obtain ⟨_, _, c2, -, -, -, d2⟩ := ntt_log k h1 (by omega) (splitPolys f).2 (by omega)
    obtain ⟨_, _, c1', -, -, -, d1'⟩ := ntt_log k h1 (by omega) (splitPolys f').1 (by omega)
    obtain ⟨_, _, c2', -, -, -, d2'⟩ := ntt_log k h1 (by omega) (splitPolys f').2 (by omega)
    rw [ha] at c1; rw [hb] at c2; rw [ha'] at c1'; rw [hb'] at c2'
    simp only [Go.ok.injEq, Prod.mk.injEq] at c1 c2 c1' c2'
    rw [← c1.2] at d1; rw [← c2.2] at d2; rw [← c1'.2] at d1'; rw [← c2'.2] at d2'
    obtain ⟨e1, e⟩ := List.append_inj he (by rw [d1, d1'])
    obtain ⟨e2, -⟩ := List.append_inj e (by rw [d2, d2'])
    subst e1 e2
    have g1 := ih (by omega) _ _ (by omega) (by omega) (fun x hx => hs x ((splitPolys_mem f).1 x hx))
      (fun x hx => hs' x ((splitPolys_mem f').1 x hx)) _ _ _ ha ha'
    have g2 := ih (by omega) _ _ (by omega) (by omega) (fun x hx => hs x ((splitPolys_mem f).2 x hx))
      (fun x hx => hs' x ((splitPolys_mem f').2 x hx)) _ _ _ hb hb'
    obtain ⟨k, rfl⟩ : ∃ j, k = j + 1 := ⟨k - 1, by omega⟩
    unfold upperSigns at g1 g2 ⊢
    rw [Nat.add_sub_cancel] at g1 g2 ⊢
    refine splitPolys_inj (by simp [hf, hf']) (by rw [List.length_map, List.length_drop, hf, pow_succ 2 (k + 1)]; omega) ?_
    rw [splitPolys_map, splitPolys_map, show 2 ^ (k + 1) = 2 * 2 ^ k by rw [pow_succ]; ring, splitPolys_drop, splitPolys_drop, g1, g2]

/-- C89 is violated by `GetPublicKey`, which divides `g` by `f`: if two keys with short `f` and `g` make the same branches, the upper halves
of `f` and `g` have the same signs. -/
theorem C89_violated_public_key (k : Nat) (h1 : 1 ≤ k) (h : k ≤ 10) (f g f' g' : List Int16) (hf : f.length = 2 ^ k) (hg : g.length = 2 ^ k)
    (hf' : f'.length = 2 ^ k) (hg' : g'.length = 2 ^ k) (sf : SmallSlice f) (sg : SmallSlice g) (sf' : SmallSlice f') (sg' : SmallSlice g')
    (r r' : Except NttErr (List Int16)) (l : List Bool) (hr : (Br.DivZq g f).run = .ok (r, l)) (hr' : (Br.DivZq g' f').run = .ok (r', l)) :
    upperSigns k f = upperSigns k f' ∧ upperSigns k g = upperSigns k g' := by
  unfold Br.DivZq at hr hr'
  rw [bind_ok] at hr hr'
  obtain ⟨a, l1, _, ha, hb, rfl⟩ := hr
  obtain ⟨a', l1', _, ha', hb', he⟩ := hr'
  rw [bind_ok] at hb hb'
  obtain ⟨b, l2, l3, hb, -, rfl⟩ := hb
  obtain ⟨b', l2', l3', hb', -, rfl⟩ := hb'
  obtain ⟨_, _, c1, -, -, -, d1⟩ := ntt_log k h1 h g hg
  obtain ⟨_, _, c2, -, -, -, d2⟩ := ntt_log k h1 h f hf
  obtain ⟨_, _, c1', -, -, -, d1'⟩ := ntt_log k h1 h g' hg'
  obtain ⟨_, _, c2', -, -, -, d2'⟩ := ntt_log k h1 h f' hf'
  rw [ha] at c1; rw [hb] at c2; rw [ha'] at c1'; rw [hb'] at c2'
  simp only [Go.ok.injEq, Prod.mk.injEq] at c1 c2 c1' c2'
  rw [← c1.2] at d1; rw [← c2.2] at d2; rw [← c1'.2] at d1'; rw [← c2'.2] at d2'
  obtain ⟨e1, e⟩ := List.append_inj he (by rw [d1, d1'])
  obtain ⟨e2, -⟩ := List.append_inj e (by rw [d2, d2'])
  subst e1 e2
  exact ⟨C89_violated_signs k h1 h f f' hf hf' sf sf' _ _ _ hb hb', C89_violated_signs k h1 h g g' hg hg' sg sg' _ _ _ ha ha'⟩

/-- C89, subtraction, exactly: on reduced operands `SubZq` evaluates one condition per coefficient of the second operand, which says
whether the coefficient is zero, and then one per coefficient of the sum, which always holds. -/
theorem C89_sub (f g : List Int16) (hf : Reduced f) (hg : Reduced g) (h : f.length = g.length) :
    ∃ r, SubZq f g = .ok r ∧ (Br.SubZq f g).run = .ok (r, g.map (fun y => decide (y = 0)) ++ List.replicate f.length true) := by
  have hn : Reduced (negZq g) := by
    intro x hx
    simp only [negZq, List.mem_map] at hx
    obtain ⟨y, -, rfl⟩ := hx
    exact reduceQ_red _
  have hl : f.length = (negZq g).length := by simp [negZq, h]
  refine ⟨addLoop f (negZq g), ?_, ?_⟩
  · rw [SubZq, addZq, if_neg (by simpa using hl)]
  · simp only [Br.SubZq, run_bind, neg_log hg, Go.ok_bind, Br.addZq, if_neg (show ¬ f.length ≠ (negZq g).length by simpa using hl),
      add_log hf hn hl]

/-- C89, what holds: the pointwise product evaluates the same conditions, all true, on all reduced operands. -/
theorem C89_pointwise (f g : List Int16) (hf : Reduced f) (hg : Reduced g) (h : f.length = g.length) :
    ∃ r, mulNTT wrap64 f g = .ok r ∧ (Br.mulNTT f g).run = .ok (r, List.replicate f.length true) := by
  obtain ⟨r, hr⟩ := mul_log hf hg h
  have e : (Br.mulNTT f g).run = .ok (r, List.replicate f.length true) := by
    rw [Br.mulNTT, if_neg (by simpa using h)]; exact hr
  refine ⟨r, ?_, e⟩
  rw [← value_mulNTT, value, e]
  rfl

/-- C89: without the conditions these are the functions of `Model/Ntt.lean`. -/
theorem C89_model (f g : List Int16) : value (Br.SubZq f g) = SubZq f g ∧ value (Br.MulZq f g) = MulZq wrap64 f g ∧
    value (Br.DivZq f g) = DivZq wrap64 f g ∧ value (Br.NTT f) = NTT wrap64 f ∧ value (Br.INTT f) = INTT wrap64 f :=
  ⟨(value_ring f g).1, (value_ring f g).2.1, (value_ring f g).2.2, value_NTT f, value_INTTFuel _ _ (le_refl _)⟩

/-- The number of conditions of `NTT` is fixed by the length. -/
theorem C89_count (k : Nat) (h1 : 1 ≤ k) (h : k ≤ 10) (f : List Int16) (hf : f.length = 2 ^ k) :
    ∃ r l, (Br.NTT f).run = .ok (r, l) ∧ l.length = k * 2 ^ k := by
  obtain ⟨r, l, hr, -, -, -, hl⟩ := ntt_log k h1 h f hf
  exact ⟨r, l, hr, hl⟩

/-- Three runs at degree 4. The upper halves are `3, -2`, then `-3, -2`, which gives other branches, and `3, -2` again with another lower half,
which here gives the same branches as the first. The polynomials are short. -/
example :
    (Br.NTT [5, 7, 3, -2]).run = .ok ([6168, 2716, 2809, 616], [true, false, false, true, true, false, true, false]) ∧
    (Br.NTT [5, 7, -3, -2]).run = .ok ([9583, 6131, 11683, 9490], [false, true, false, true, true, false, true, false]) ∧
    (Br.NTT [-5, 8, 3, -2]).run = .ok ([10201, 10952, 7945, 7749], [true, false, false, true, true, false, true, false]) ∧
    SmallSlice [5, 7, 3, -2] ∧ SmallSlice [5, 7, -3, -2] ∧ upperSigns 2 [5, 7, 3, -2] = [1, -1] ∧ upperSigns 2 [5, 7, -3, -2] = [-1, -1] := by
  refine ⟨by decide +kernel, by decide +kernel, by decide +kernel, ?_, ?_, by decide, by decide⟩ <;> unfold SmallSlice <;> decide

/-- A division, whose first eight conditions come from `g` and the next eight from `f`, and a subtraction, whose first four conditions say which
coefficients of the second operand are zero. -/
example :
    (Br.DivZq [1, 2, 3, 4] [5, 7, 3, -2]).run = .ok (.ok [8392, 4696, 9992, 1298],
      [true, false, true, false, true, false, true, false, true, false, false, true, true, false, true, false, false, false, false, false,
        true, true, true, true, true, false, true, false, true, true, true, true]) ∧
    (Br.SubZq [1, 2, 3, 4] [5, 0, 3, 0]).run = .ok ([12285, 2, 0, 4], [false, true, false, true, true, true, true, true]) := by
  decide +kernel

end Falcon
