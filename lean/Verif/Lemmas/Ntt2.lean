import Verif.Lemmas.Ntt
/-! Roots of `x^n+1`, multiplication, division, and behaviour for every operand length. -/

namespace Falcon
open Spec Polynomial

theorem pairs_sq_mem {w cs : List Nat} (h : Pairs w cs) : ∀ x ∈ wz w, x ^ 2 ∈ wz cs := by
  induction h with
  | nil => simp [wz]
  | cons ha ha' hs hn h ih =>
    intro x hx
    simp only [wz, List.map_cons, List.mem_cons] at hx ih ⊢
    rcases hx with rfl | rfl | hx
    · left; exact hs.symm
    · left; rw [hn, neg_sq]; exact hs.symm
    · right; exact ih x hx

theorem pairs_nodup {w cs : List Nat} (h : Pairs w cs) (hd : (wz cs).Nodup) : (wz w).Nodup := by
  induction h with
  | nil => simp [wz]
  | @cons a b c ws cs ha ha' hs hn h ih =>
    have hsq := pairs_sq_mem h
    simp only [wz, List.map_cons, List.nodup_cons, List.mem_cons, not_or] at hd ih hsq ⊢
    have hne := natCast_ne_zero ha ha'
    refine ⟨⟨?_, fun hc => ?_⟩, fun hc => ?_, ih hd.2⟩
    · intro hc
      rw [hn] at hc
      have h2 : (2 : Zq) * a = 0 := by linear_combination hc
      have h3 := two_i2
      have : (a : Zq) = 0 := by linear_combination 6145 * h2 - (a : Zq) * h3
      exact hne this
    · have := hsq _ hc
      rw [← hs] at this
      exact hd.1 this
    · have := hsq _ hc
      rw [hn, neg_sq, ← hs] at this
      exact hd.1 this

theorem rootsZ_nodup (k : Nat) (h1 : 1 ≤ k) (h : k ≤ 10) : (rootsZ k).Nodup := by
  induction k, h1 using Nat.le_induction with
  | base => rw [rootsZ, level_one]; decide
  | succ k h1 ih => exact pairs_nodup (level_pairs' k h1 (by omega)) (ih (by omega))

theorem rootsZ_root (k : Nat) (h1 : 1 ≤ k) (h : k ≤ 10) : ∀ x ∈ rootsZ k, x ^ 2 ^ k = -1 := by
  induction k, h1 using Nat.le_induction with
  | base =>
    intro x hx
    have h0 : (12289 : Zq) = 0 := by exact_mod_cast ZMod.natCast_self 12289
    simp only [rootsZ, level_one, wz, List.map_cons, List.map_nil, List.mem_cons, List.not_mem_nil, or_false] at hx
    rcases hx with rfl | rfl
    · push_cast; linear_combination 178 * h0
    · push_cast; linear_combination 9509 * h0
  | succ k h1 ih =>
    intro x hx
    rw [pow_succ, mul_comm, pow_mul]
    exact ih (by omega) _ (pairs_sq_mem (level_pairs' k h1 (by omega)) x hx)

theorem polyQ_degree (f : List Int16) : (polyQ f).degree < f.length := by
  have := poly_degree_lt (f.map zq)
  simpa [polyQ] using this

theorem polyQ_inj {f g : List Int16} (hl : f.length = g.length) (hf : Reduced f) (hg : Reduced g)
    (h : polyQ f = polyQ g) : f = g :=
  map_zq_inj hf hg (poly_injective (by simpa using hl) h)

/-- A reduced vector of length `2^k` is determined by the values of its polynomial at the roots. -/
theorem eq_of_values {k : Nat} (h1 : 1 ≤ k) (h : k ≤ 10) {f g : List Int16} (hf : f.length = 2 ^ k)
    (hg : g.length = 2 ^ k) (rf : Reduced f) (rg : Reduced g)
    (he : ∀ x ∈ rootsZ k, (polyQ f).eval x = (polyQ g).eval x) : f = g := by
  apply polyQ_inj (hf.trans hg.symm) rf rg
  have hf' := polyQ_degree f
  have hg' := polyQ_degree g
  rw [hf] at hf'
  rw [hg] at hg'
  exact eq_of_eval_eq hf' hg' (rootsZ k) (rootsZ_length k h1 h) (rootsZ_nodup k h1 h) he

/-- Coefficientwise reduction into `[0,q)`. -/
def redQ (f : List Int16) : List Int16 := f.map fun x => Int16.ofInt (x.toInt % 12289)

theorem redQ_elem (x : Int16) : Int16.ofInt (x.toInt % 12289) = reduceQ x.toInt := by
  unfold reduceQ; rw [pmodVal_Q]

theorem redQ_reduced (f : List Int16) : Reduced (redQ f) := by
  intro x hx
  simp only [redQ, List.mem_map] at hx
  obtain ⟨y, _, rfl⟩ := hx
  rw [redQ_elem]
  exact reduceQ_red _

theorem redQ_zq (f : List Int16) : (redQ f).map zq = f.map zq := by
  simp only [redQ, List.map_map]
  apply List.map_congr_left
  intro x _
  simp only [Function.comp, redQ_elem, zq_reduceQ]
  rfl

theorem redQ_polyQ (f : List Int16) : polyQ (redQ f) = polyQ f := by
  unfold polyQ; rw [redQ_zq]

theorem redQ_length (f : List Int16) : (redQ f).length = f.length := by simp [redQ]

theorem redQ_of_reduced {f : List Int16} (h : Reduced f) : redQ f = f :=
  map_zq_inj (redQ_reduced f) h (redQ_zq f)

theorem map_eq_iff_forall {α β : Type*} {l : List α} {f g : α → β} : l.map f = l.map g ↔ ∀ x ∈ l, f x = g x :=
  List.map_inj_left

/-! ### products -/

theorem mulLoop_spec {W : Int → Go Int} (hW : Good W) (f g : List Int16) (h : f.length = g.length) :
    ∃ r, mulLoop W f g = .ok r ∧ r.length = f.length ∧ Reduced r ∧
      ∀ (l : List Zq) (F G : Zq → Zq), f.map zq = l.map F → g.map zq = l.map G → r.map zq = l.map fun x => F x * G x := by
  induction f generalizing g with
  | nil =>
    refine ⟨[], by simp [mulLoop], rfl, by simp [Reduced], ?_⟩
    intro l F G h1 _
    simp at h1
    subst h1
    simp
  | cons x f ih =>
    match g with
    | [] => simp at h
    | y :: g =>
      obtain ⟨r, e, hl, hr, hm⟩ := ih g (by simpa using h)
      have hx := i16_bounds x
      have hy := i16_bounds y
      have hb1 : -2 ^ 60 ≤ x.toInt * y.toInt := by nlinarith
      have hb2 : x.toInt * y.toInt ≤ 2 ^ 60 := by nlinarith
      refine ⟨reduceQ (x.toInt * y.toInt) :: r, ?_, by simp [hl], ?_, ?_⟩
      · simp [mulLoop, hW _ (show -2 ^ 63 ≤ x.toInt * y.toInt by omega) (by omega), e]
      · intro z hz
        simp only [List.mem_cons] at hz
        rcases hz with rfl | hz
        · exact reduceQ_red _
        · exact hr z hz
      · intro l F G h1 h2
        match l with
        | [] => simp at h1
        | c :: l =>
          simp only [List.map_cons, List.cons.injEq] at h1 h2 ⊢
          refine ⟨?_, hm l F G h1.2 h2.2⟩
          rw [zq_reduceQ, ← h1.1, ← h2.1]
          push_cast
          rfl

theorem MulZq_values {W : Int → Go Int} (hW : Good W) (k : Nat) (h1 : 1 ≤ k) (h : k ≤ 10) (f g : List Int16)
    (hf : f.length = 2 ^ k) (hg : g.length = 2 ^ k) :
    ∃ r, MulZq W f g = .ok r ∧ r.length = 2 ^ k ∧ Reduced r ∧
      ∀ x ∈ rootsZ k, (polyQ r).eval x = (polyQ f).eval x * (polyQ g).eval x := by
  obtain ⟨ft, ef, lf, _, mf⟩ := NTT_spec hW k h1 h f hf
  obtain ⟨gt, eg, lg, _, mg⟩ := NTT_spec hW k h1 h g hg
  obtain ⟨p, ep, lp, _, mp⟩ := mulLoop_spec hW ft gt (by omega)
  obtain ⟨r, er, lr, rr, mr⟩ := INTT_spec hW k h1 h p (by omega)
  refine ⟨r, ?_, lr, rr, ?_⟩
  · simp [MulZq, ef, eg, mulNTT, lf, lg, ep, er]
  · have := mp _ _ _ mf mg
    rw [mr] at this
    exact map_eq_iff_forall.1 this

/-- `IsProduct` in terms of values at the roots. -/
theorem isProduct_iff {k : Nat} (h1 : 1 ≤ k) (h : k ≤ 10) (f g r : List Int16) :
    IsProduct (2 ^ k) f g r ↔ r.length = 2 ^ k ∧ Reduced r ∧
      ∀ x ∈ rootsZ k, (polyQ r).eval x = (polyQ f).eval x * (polyQ g).eval x := by
  unfold IsProduct
  rw [dvd_iff_eval (by positivity) (rootsZ k) (rootsZ_length k h1 h) (rootsZ_nodup k h1 h) (rootsZ_root k h1 h)]
  simp only [eval_sub, eval_mul, sub_eq_zero]
  constructor
  · rintro ⟨a, b, c⟩; exact ⟨a, b, fun x hx => (c x hx).symm⟩
  · rintro ⟨a, b, c⟩; exact ⟨a, b, fun x hx => (c x hx).symm⟩

theorem isProduct_unique {k : Nat} (h1 : 1 ≤ k) (h : k ≤ 10) {f g r s : List Int16}
    (hr : IsProduct (2 ^ k) f g r) (hs : IsProduct (2 ^ k) f g s) : r = s := by
  rw [isProduct_iff h1 h] at hr hs
  exact eq_of_values h1 h hr.1 hs.1 hr.2.1 hs.2.1 fun x hx => (hr.2.2 x hx).trans (hs.2.2 x hx).symm

theorem MulZq_spec {W : Int → Go Int} (hW : Good W) (k : Nat) (h1 : 1 ≤ k) (h : k ≤ 10) (f g : List Int16)
    (hf : f.length = 2 ^ k) (hg : g.length = 2 ^ k) : ∃ r, MulZq W f g = .ok r ∧ IsProduct (2 ^ k) f g r := by
  obtain ⟨r, e, hr⟩ := MulZq_values hW k h1 h f g hf hg
  exact ⟨r, e, (isProduct_iff h1 h f g r).2 hr⟩

/-! ### subtraction -/

theorem addLoop_spec (f g : List Int16) (h : f.length = g.length) :
    (addLoop f g).length = f.length ∧ Reduced (addLoop f g) := by
  induction f generalizing g with
  | nil => simp [addLoop, Reduced]
  | cons x f ih =>
    match g with
    | [] => simp at h
    | y :: g =>
      have := ih g (by simpa using h)
      refine ⟨by simp [addLoop, this.1], ?_⟩
      intro z hz
      simp only [addLoop, List.mem_cons] at hz
      rcases hz with rfl | hz
      · exact reduceQ_red _
      · exact this.2 z hz

theorem neg_toInt_of_ne {y : Int16} (hy : y ≠ -32768) : (-y).toInt = -y.toInt := by
  have hy' : y.toInt ≠ -32768 := fun hc => hy (Int16.toInt_inj.1 (hc.trans rfl))
  have := i16_bounds y
  rw [Int16.toInt_neg, Int.bmod_def]
  split <;> omega

theorem add_toInt_of_lt {x z : Int16} (h1 : -32768 ≤ x.toInt + z.toInt) (h2 : x.toInt + z.toInt ≤ 32767) :
    (x + z).toInt = x.toInt + z.toInt := by
  rw [Int16.toInt_add, Int.bmod_def]
  split <;> omega

theorem SubZq_spec (f g : List Int16) (h : f.length = g.length) (hf : ∀ x ∈ f, x.toInt ≤ 20479)
    (hg : ∀ y ∈ g, y ≠ -32768) :
    ∃ r, SubZq f g = .ok r ∧ r.length = f.length ∧ Reduced r ∧ r.map zq = List.zipWith (fun x y => zq x - zq y) f g := by
  have hl : f.length = (negZq g).length := by simp [negZq, h]
  refine ⟨addLoop f (negZq g), by simp [SubZq, addZq, hl], (addLoop_spec f _ hl).1, (addLoop_spec f _ hl).2, ?_⟩
  clear hl
  induction f generalizing g with
  | nil => simp [addLoop]
  | cons x f ih =>
    match g with
    | [] => simp at h
    | y :: g =>
      have hx := hf x (by simp)
      have hy := hg y (by simp)
      have hx' := i16_bounds x
      have hz := reduceQ_red (-y).toInt
      have := ih g (by simpa using h) (fun x hx => hf x (by simp [hx])) (fun y hy => hg y (by simp [hy]))
      simp only [negZq, List.map_cons, addLoop, List.zipWith_cons_cons, List.cons.injEq] at this ⊢
      refine ⟨?_, this⟩
      rw [zq_reduceQ, add_toInt_of_lt (by omega) (by omega)]
      push_cast
      have : zq (reduceQ (-y).toInt) = ((-y).toInt : Zq) := zq_reduceQ _
      rw [neg_toInt_of_ne hy] at this ⊢
      unfold zq at this ⊢
      rw [this]
      push_cast
      ring

theorem poly_sub (f g : List Zq) (h : f.length = g.length) : poly (List.zipWith (· - ·) f g) = poly f - poly g := by
  induction f generalizing g with
  | nil => cases g with
    | nil => simp
    | cons b g => simp at h
  | cons a f ih =>
    match g with
    | [] => simp at h
    | b :: g => simp [ih g (by simpa using h)]; ring

theorem SubZq_poly (f g : List Int16) (h : f.length = g.length) (hf : ∀ x ∈ f, x.toInt ≤ 20479)
    (hg : ∀ y ∈ g, y ≠ -32768) :
    ∃ r, SubZq f g = .ok r ∧ r.length = f.length ∧ Reduced r ∧ polyQ r = polyQ f - polyQ g := by
  obtain ⟨r, e, l, rr, m⟩ := SubZq_spec f g h hf hg
  refine ⟨r, e, l, rr, ?_⟩
  unfold polyQ
  rw [m, ← poly_sub _ _ (by simpa using h)]
  congr 1
  rw [List.zipWith_map]

theorem reduced_le {f : List Int16} (h : Reduced f) : ∀ x ∈ f, x.toInt ≤ 20479 := fun x hx => by
  have := h x hx; omega

theorem reduced_ne {f : List Int16} (h : Reduced f) : ∀ x ∈ f, x ≠ -32768 := fun x hx hc => by
  have := h x hx
  rw [hc] at this
  exact absurd this.1 (by decide)

/-! ### division -/

theorem divLoop_spec {W : Int → Go Int} (hW : Good W) (f g : List Int16) (h : f.length = g.length) (hg : Reduced g)
    (hz : ∀ y ∈ g, y ≠ 0) :
    ∃ r, divLoop W f g = .ok r ∧ r.length = f.length ∧ Reduced r ∧
      ∀ (l : List Zq) (F G R : Zq → Zq), f.map zq = l.map F → g.map zq = l.map G → r.map zq = l.map R →
        ∀ x ∈ l, R x * G x = F x := by
  induction f generalizing g with
  | nil =>
    refine ⟨[], by simp [divLoop], rfl, by simp [Reduced], ?_⟩
    intro l F G R h1 _ _
    simp at h1
    subst h1
    simp
  | cons x f ih =>
    match g with
    | [] => simp at h
    | y :: g =>
      obtain ⟨r, e, hl, hr, hm⟩ := ih g (by simpa using h) (fun z hz => hg z (by simp [hz])) (fun z h' => hz z (by simp [h']))
      have hx := i16_bounds x
      have hy := hg y (by simp)
      have hy0 : y.toInt ≠ 0 := fun hc => hz y (by simp) (Int16.toInt_inj.1 (hc.trans rfl))
      obtain ⟨v, hv, hav, hv'⟩ := inv_spec (a := y.toInt.toNat) (by omega) (by omega)
      have hb1 : -2 ^ 60 ≤ x.toInt * (v : Int) := by nlinarith
      have hb2 : x.toInt * (v : Int) ≤ 2 ^ 60 := by nlinarith
      refine ⟨reduceQ (x.toInt * v) :: r, ?_, by simp [hl], ?_, ?_⟩
      · simp only [divLoop]
        rw [if_neg (by omega), hv]
        simp [hW _ (show -2 ^ 63 ≤ x.toInt * (v : Int) by omega) (by omega), e]
      · intro z hz
        simp only [List.mem_cons] at hz
        rcases hz with rfl | hz
        · exact reduceQ_red _
        · exact hr z hz
      · intro l F G R h1 h2 h3
        match l with
        | [] => simp at h1
        | c :: l =>
          simp only [List.map_cons, List.cons.injEq] at h1 h2 h3
          intro z hz
          simp only [List.mem_cons] at hz
          rcases hz with rfl | hz
          · rw [← h1.1, ← h2.1, ← h3.1, zq_reduceQ]
            have hc := inv_cast hav
            have hyc : zq y = ((y.toInt.toNat : Nat) : Zq) := by
              unfold zq
              conv_lhs => rw [← Int.toNat_of_nonneg hy.1]
              simp
            rw [hyc]
            unfold zq
            push_cast
            linear_combination (x.toInt : Zq) * hc
          · exact hm l F G R h1.2 h2.2 h3.2 z hz

theorem DivZq_spec {W : Int → Go Int} (hW : Good W) (k : Nat) (h1 : 1 ≤ k) (h : k ≤ 10) (f g : List Int16)
    (hf : f.length = 2 ^ k) (hg : g.length = 2 ^ k) :
    ((∀ x ∈ rootsZ k, (polyQ g).eval x ≠ 0) → ∃ r, DivZq W f g = .ok (.ok r) ∧ r.length = 2 ^ k ∧ Reduced r ∧
      ∀ x ∈ rootsZ k, (polyQ r).eval x * (polyQ g).eval x = (polyQ f).eval x) ∧
    ((∃ x ∈ rootsZ k, (polyQ g).eval x = 0) → DivZq W f g = .ok (.error .divByZero)) := by
  obtain ⟨ft, ef, lf, _, mf⟩ := NTT_spec hW k h1 h f hf
  obtain ⟨gt, eg, lg, rg, mg⟩ := NTT_spec hW k h1 h g hg
  have hzero : (∃ x ∈ rootsZ k, (polyQ g).eval x = 0) ↔ gt.any (· == 0) = true := by
    rw [List.any_eq_true]
    constructor
    · rintro ⟨x, hx, h0⟩
      have : (0 : Zq) ∈ gt.map zq := by
        rw [mg, List.mem_map]; exact ⟨x, hx, h0⟩
      rw [List.mem_map] at this
      obtain ⟨y, hy, h0⟩ := this
      exact ⟨y, hy, by simpa using (zq_eq_zero_iff (rg y hy)).1 h0⟩
    · rintro ⟨y, hy, h0⟩
      have : zq y ∈ gt.map zq := List.mem_map_of_mem hy
      rw [mg, List.mem_map] at this
      obtain ⟨x, hx, h'⟩ := this
      refine ⟨x, hx, h'.trans ((zq_eq_zero_iff (rg y hy)).2 (by simpa using h0))⟩
  constructor
  · intro hnz
    have hany : ¬ gt.any (· == 0) = true := fun hc => by
      obtain ⟨x, hx, h0⟩ := hzero.2 hc
      exact hnz x hx h0
    have hgz : ∀ y ∈ gt, y ≠ 0 := by
      intro y hy hc
      apply hany
      rw [List.any_eq_true]
      exact ⟨y, hy, by simpa using hc⟩
    obtain ⟨d, ed, ld, _, md⟩ := divLoop_spec hW ft gt (by omega) rg hgz
    obtain ⟨r, er, lr, rr, mr⟩ := INTT_spec hW k h1 h d (by omega)
    refine ⟨r, ?_, lr, rr, md _ _ _ _ mf mg mr⟩
    have hd : divNTT W ft gt = .ok (.ok d) := by
      unfold divNTT
      rw [if_neg (by omega), if_neg hany, ed]
      rfl
    simp [DivZq, ef, eg, hd, er]
  · intro hz
    have hany := hzero.1 hz
    simp only [DivZq, ef, eg, Go.ok_bind, divNTT, lf, lg, ne_eq, not_true_eq_false, if_false, hany, if_true, Go.pure_eq]

/-! ### all lengths -/

theorem splitPolys_take {α : Type u} (f : List α) (m : Nat) (h : 2 * m ≤ f.length) :
    splitPolys (f.take (2 * m)) = ((splitPolys f).1.take m, (splitPolys f).2.take m) := by
  induction m generalizing f with
  | zero => simp [splitPolys]
  | succ m ih =>
    match f with
    | [] => simp at h
    | [a] => simp at h; omega
    | a :: b :: f =>
      have := ih f (by simp at h; omega)
      rw [show 2 * (m + 1) = 2 * m + 1 + 1 by omega]
      simp [splitPolys, this]

theorem NTT_take {W : Int → Go Int} (k : Nat) (h1 : 1 ≤ k) (f : List Int16) (hlo : 2 ^ k ≤ f.length)
    (hhi : f.length < 3 * 2 ^ (k - 1)) : NTT W f = NTT W (f.take (2 ^ k)) := by
  induction k, h1 using Nat.le_induction generalizing f with
  | base =>
    have : f.length = 2 := by simp at hhi; omega
    rw [List.take_of_length_le (by omega)]
  | succ k h1 ih =>
    have hlen := splitPolys_length f
    have hp : 2 ^ (k + 1) = 2 * 2 ^ k := by rw [pow_succ]; omega
    have hp' : 2 ^ k = 2 * 2 ^ (k - 1) := by
      obtain ⟨j, rfl⟩ : ∃ j, k = j + 1 := ⟨k - 1, by omega⟩
      rw [pow_succ]; simp; omega
    simp only [Nat.add_sub_cancel] at hhi
    have hpos : 1 ≤ 2 ^ (k - 1) := Nat.one_le_two_pow
    have e0 := ih (splitPolys f).1 (by omega) (by omega)
    have e1 := ih (splitPolys f).2 (by omega) (by omega)
    have ht := splitPolys_take f (2 ^ k) (by omega)
    conv_lhs => rw [NTT]
    conv_rhs => rw [NTT]
    rw [dif_pos (by omega), dif_pos (by simp; omega), hp, ht, e0, e1]

theorem NTT_empty {W : Int → Go Int} (k : Nat) (f : List Int16) (hlo : 3 * 2 ^ k ≤ f.length)
    (hhi : f.length < 4 * 2 ^ k) : NTT W f = .ok [] := by
  induction k generalizing f with
  | zero =>
    have hlen := splitPolys_length f
    have h3 : f.length = 3 := by simp at hlo hhi; omega
    rw [h3] at hlen
    obtain ⟨a, ha⟩ := List.length_eq_one_iff.1 hlen.1
    obtain ⟨b, hb⟩ := List.length_eq_one_iff.1 hlen.2
    have h1 : ∀ a, NTT W [a] = .ok [] := fun a => by rw [NTT]; simp
    rw [NTT, dif_pos (by omega), ha, hb, h1, h1]
    simp [MergeNTT, mergeLoop]
  | succ k ih =>
    have hlen := splitPolys_length f
    have hp : 2 ^ (k + 1) = 2 * 2 ^ k := by rw [pow_succ]; omega
    have hpos : 1 ≤ 2 ^ k := Nat.one_le_two_pow
    rw [NTT, dif_pos (by omega), ih _ (by omega) (by omega), ih _ (by omega) (by omega)]
    simp [MergeNTT, mergeLoop]

theorem NTT_short {W : Int → Go Int} (f : List Int16) (h : f.length ≤ 1) : NTT W f = .ok [] := by
  match f with
  | [] => rw [NTT]; simp
  | [a] => rw [NTT]; simp

theorem NTT_panic {W : Int → Go Int} (hW : Good W) (k : Nat) (h1 : 11 ≤ k) (f : List Int16) (hlo : 2 ^ k ≤ f.length)
    (hhi : f.length < 3 * 2 ^ (k - 1)) : NTT W f = .panic := by
  induction k, h1 using Nat.le_induction generalizing f with
  | base =>
    have hlen := splitPolys_length f
    obtain ⟨r0, e0, l0, _⟩ := NTT_spec hW 10 (by decide) (by decide) ((splitPolys f).1.take (2 ^ 10)) (by
      rw [List.length_take]; omega)
    obtain ⟨r1, e1, l1, _⟩ := NTT_spec hW 10 (by decide) (by decide) ((splitPolys f).2.take (2 ^ 10)) (by
      rw [List.length_take]; omega)
    rw [NTT, dif_pos (by omega), NTT_take 10 (by decide) (splitPolys f).1 (by omega) (by omega),
      NTT_take 10 (by decide) (splitPolys f).2 (by omega) (by omega), e0, e1]
    simp only [Go.ok_bind, MergeNTT, l0]
    have : roots_dict_Zq (Int16.ofNat (2 * 2 ^ 10)) = [] := by decide
    rw [this]
    match r0, l0 with
    | x :: r0, _ => simp [mergeLoop, idx]
  | succ k h1 ih =>
    have hlen := splitPolys_length f
    have hp : 2 ^ (k + 1) = 2 * 2 ^ k := by rw [pow_succ]; omega
    have hp' : 2 ^ k = 2 * 2 ^ (k - 1) := by
      obtain ⟨j, rfl⟩ : ∃ j, k = j + 1 := ⟨k - 1, by omega⟩
      rw [pow_succ]; simp; omega
    simp only [Nat.add_sub_cancel] at hhi
    have hpos : 1 ≤ 2 ^ (k - 1) := Nat.one_le_two_pow
    rw [NTT, dif_pos (by omega), ih _ (by omega) (by omega)]
    rfl

end Falcon
