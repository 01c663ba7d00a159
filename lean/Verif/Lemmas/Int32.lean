import Verif.Model.Int32
import Verif.Lemmas.Ntt2
/-!
# The ring operations with a 32-bit `int`
-/

namespace Falcon
open Spec

/-- Arithmetic that is exact where no 32-bit overflow occurs. -/
def Good32 (W : Int → Go Int) : Prop := ∀ x, -2 ^ 31 ≤ x → x < 2 ^ 31 → W x = .ok x

theorem wrap32_good : Good32 wrap32 := by
  intro x h1 h2
  unfold wrap32
  rw [Int.bmod_def]
  split <;> simp <;> omega

theorem Good.good32 {W : Int → Go Int} (h : Good W) : Good32 W := fun x h1 h2 => h x (by omega) (by omega)

/-- All entries of the root tables are below 12289. -/
theorem roots_lt (n : Int16) : ∀ a ∈ roots_dict_Zq n, a < 12289 := by
  unfold roots_dict_Zq
  split; · decide +kernel
  split; · decide +kernel
  split; · decide +kernel
  split; · decide +kernel
  split; · decide +kernel
  split; · decide +kernel
  split; · decide +kernel
  split; · decide +kernel
  split; · decide +kernel
  split; · decide +kernel
  simp

theorem idx_mem {α : Type} {l : List α} {i : Nat} {a : α} (h : idx l i = .ok a) : a ∈ l := by
  unfold idx at h
  split at h
  · rename_i b hb
    cases h
    exact List.mem_of_getElem? hb
  · exact absurd h (by simp)

theorem mergeLoop_32 {W : Int → Go Int} (hW : Good32 W) (f0 : List Int16) : ∀ (w : List Nat) (f1 : List Int16), (∀ a ∈ w, a < 12289) →
    mergeLoop W w f0 f1 = mergeLoop wrap64 w f0 f1 := by
  have h64 := wrap64_good
  induction f0 with
  | nil => intro w f1 _; rfl
  | cons x f0 ih =>
    intro w f1 hw
    rw [mergeLoop, mergeLoop]
    cases hi : idx w 0 with
    | panic => rfl
    | diverge => rfl
    | ok a =>
      simp only [Go.ok_bind]
      cases hj : idx f1 0 with
      | panic => rfl
      | diverge => rfl
      | ok y =>
        have ha := hw a (idx_mem hi)
        have hx := i16_bounds x
        have hy := i16_bounds y
        have b : -402686000 ≤ (a : Int) * y.toInt ∧ (a : Int) * y.toInt ≤ 402686000 := by
          constructor <;> nlinarith
        simp only [Go.ok_bind]
        rw [hW ((a : Int) * y.toInt) (by omega) (by omega), h64 ((a : Int) * y.toInt) (by omega) (by omega)]
        simp only [Go.ok_bind]
        rw [hW _ (by omega) (by omega), h64 _ (by omega) (by omega), hW _ (by omega) (by omega), h64 _ (by omega) (by omega),
          ih (w.drop 2) _ fun c hc => hw c (List.mem_of_mem_drop hc)]

theorem NTT_32 {W : Int → Go Int} (hW : Good32 W) (f : List Int16) : NTT W f = NTT wrap64 f := by
  induction hl : f.length using Nat.strong_induction_on generalizing f with
  | _ n ih =>
    by_cases h : f.length > 2
    · have hs := splitPolys_length f
      rw [NTT.eq_def W f, NTT.eq_def wrap64 f, dif_pos h, dif_pos h, ih _ (by omega) (splitPolys f).1 rfl, ih _ (by omega) (splitPolys f).2 rfl]
      congr 1; funext a; congr 1; funext b
      exact mergeLoop_32 hW _ _ _ (roots_lt _)
    · rw [NTT.eq_def W f, NTT.eq_def wrap64 f, dif_neg h, dif_neg h]
      match f with
      | [] => rfl
      | [_] => rfl
      | [a, b] =>
        have ha := i16_bounds a
        have hb := i16_bounds b
        have hs : sqr1 = 1479 := sqr1_eq
        simp only [hs]
        rw [hW (1479 * b.toInt) (by omega) (by omega), wrap64_good (1479 * b.toInt) (by omega) (by omega)]
        simp only [Go.ok_bind]
        rw [hW _ (by omega) (by omega), wrap64_good _ (by omega) (by omega), hW _ (by omega) (by omega), wrap64_good _ (by omega) (by omega)]
      | _ :: _ :: _ :: _ => simp at h

theorem mulLoop_32 {W : Int → Go Int} (hW : Good32 W) (f : List Int16) : ∀ g, mulLoop W f g = mulLoop wrap64 f g := by
  induction f with
  | nil => intro g; cases g <;> rfl
  | cons x f ih =>
    intro g
    cases g with
    | nil => rfl
    | cons y g =>
      have hx := i16_bounds x
      have hy := i16_bounds y
      have b : -2 ^ 30 ≤ x.toInt * y.toInt ∧ x.toInt * y.toInt ≤ 2 ^ 30 := by constructor <;> nlinarith
      rw [mulLoop, mulLoop, hW _ (by omega) (by omega), wrap64_good _ (by omega) (by omega), ih]

theorem mulNTT_32 {W : Int → Go Int} (hW : Good32 W) (f g : List Int16) : mulNTT W f g = mulNTT wrap64 f g := by
  unfold mulNTT
  rw [mulLoop_32 hW]

theorem inv_lt (a : Nat) (h : a ∈ inv_mod_q) : a < 12289 := by
  have : inv_mod_q.all (fun a => decide (a < 12289)) = true := by decide +kernel
  simpa using List.all_eq_true.1 this a h

theorem divLoop_32 {W : Int → Go Int} (hW : Good32 W) (f : List Int16) : ∀ g, divLoop W f g = divLoop wrap64 f g := by
  induction f with
  | nil => intro g; cases g <;> rfl
  | cons x f ih =>
    intro g
    cases g with
    | nil => rfl
    | cons y g =>
      rw [divLoop, divLoop]
      by_cases hn : y.toInt < 0
      · simp [hn]
      · simp only [hn, if_false]
        cases hi : idx inv_mod_q y.toInt.toNat with
        | panic => rfl
        | diverge => rfl
        | ok v =>
          have hv := inv_lt v (idx_mem hi)
          have hx := i16_bounds x
          have b : -402686000 ≤ x.toInt * (v : Int) ∧ x.toInt * (v : Int) ≤ 402686000 := by constructor <;> nlinarith
          simp only [Go.ok_bind]
          rw [hW _ (by omega) (by omega), wrap64_good _ (by omega) (by omega), ih]

theorem divNTT_32 {W : Int → Go Int} (hW : Good32 W) (f g : List Int16) : divNTT W f g = divNTT wrap64 f g := by
  unfold divNTT
  rw [divLoop_32 hW]

/-! ### Checked arithmetic -/

theorem check32_ok {W : Int → Go Int} (hW : Good32 W) {x y : Int} (h : check32 x = .ok y) : W x = .ok y := by
  unfold check32 at h
  split at h
  · rename_i hx
    cases h
    exact hW x hx.1 hx.2
  · cases h

theorem splitLoop_check {W : Int → Go Int} (hW : Good32 W) (f : List Int16) : ∀ (w : List Nat) (r : List Int16 × List Int16),
    splitLoop check32 w f = .ok r → splitLoop W w f = .ok r := by
  induction f using List.twoStepInduction with
  | nil => intro w r h; simpa [splitLoop] using h
  | singleton a => intro w r h; simpa [splitLoop] using h
  | cons_cons a b rest ih _ =>
    intro w r h
    simp only [splitLoop, Go.bind_eq_ok, Go.pure_eq, Go.ok.injEq] at h ⊢
    obtain ⟨x1, h1, x2, h2, x3, h3, x4, h4, x5, h5, x6, h6, x7, h7, s, hs, rfl⟩ := h
    exact ⟨x1, check32_ok hW h1, x2, check32_ok hW h2, x3, check32_ok hW h3, x4, check32_ok hW h4, x5, h5, x6, h6, x7, check32_ok hW h7,
      s, ih _ _ hs, rfl⟩

theorem INTT_check {W : Int → Go Int} (hW : Good32 W) (f : List Int16) : ∀ r, INTT check32 f = .ok r → INTT W f = .ok r := by
  induction hl : f.length using Nat.strong_induction_on generalizing f with
  | _ n ih =>
    intro r h
    rw [INTT.eq_def] at h ⊢
    by_cases hf : f.length > 2
    · rw [dif_pos hf] at h ⊢
      split at h
      · rename_i s hs
        have hs' : SplitNTT W f = .ok s := splitLoop_check hW f _ _ hs
        have hlen := splitLoop_length hs
        obtain ⟨f0, h0, h⟩ := Go.bind_eq_ok.1 h
        obtain ⟨f1, h1, h⟩ := Go.bind_eq_ok.1 h
        split
        · rename_i t ht
          rw [hs'] at ht
          cases ht
          rw [ih _ (by omega) s.1 rfl _ h0, ih _ (by omega) s.2 rfl _ h1, Go.ok_bind, Go.ok_bind, h]
        · rename_i ht; rw [hs'] at ht; cases ht
        · rename_i ht; rw [hs'] at ht; cases ht
      · cases h
      · cases h
    · rw [dif_neg hf] at h ⊢
      match f with
      | [] => exact h
      | [_] => exact h
      | [a, b] =>
        simp only [Go.bind_eq_ok, Go.pure_eq, Go.ok.injEq] at h ⊢
        obtain ⟨x1, h1, x2, h2, x3, h3, x5, h5, x6, h6, x7, h7, rfl⟩ := h
        exact ⟨x1, check32_ok hW h1, x2, check32_ok hW h2, x3, check32_ok hW h3, x5, h5, x6, check32_ok hW h6, x7, check32_ok hW h7, rfl⟩
      | _ :: _ :: _ :: _ => simp at hf

/-! ### Polynomials in `x^2` -/

/-- The polynomial `f(x^2)`. -/
def pad (f : List Int16) : List Int16 := f.flatMap fun x => [x, 0]

/-- Every element twice. -/
def dbl (f : List Int16) : List Int16 := f.flatMap fun x => [x, x]

theorem pad_length (f : List Int16) : (pad f).length = 2 * f.length := by
  induction f with
  | nil => rfl
  | cons a f ih => simp only [pad, List.flatMap_cons, List.length_append, List.length_cons, List.length_nil] at ih ⊢; omega

theorem dbl_length (f : List Int16) : (dbl f).length = 2 * f.length := by
  induction f with
  | nil => rfl
  | cons a f ih => simp only [dbl, List.flatMap_cons, List.length_append, List.length_cons, List.length_nil] at ih ⊢; omega

theorem pad_cons (a : Int16) (f : List Int16) : pad (a :: f) = a :: 0 :: pad f := rfl
theorem dbl_cons (a : Int16) (f : List Int16) : dbl (a :: f) = a :: a :: dbl f := rfl

theorem dbl_replicate (n : Nat) : dbl (List.replicate n 0) = List.replicate (2 * n) 0 := by
  induction n with
  | zero => rfl
  | succ n ih => rw [List.replicate_succ, dbl_cons, ih, show 2 * (n + 1) = 2 * n + 1 + 1 by ring, List.replicate_succ, List.replicate_succ]

theorem pad_replicate (n : Nat) : pad (List.replicate n 0) = List.replicate (2 * n) 0 := by
  induction n with
  | zero => rfl
  | succ n ih => rw [List.replicate_succ, pad_cons, ih, show 2 * (n + 1) = 2 * n + 1 + 1 by ring, List.replicate_succ, List.replicate_succ]

theorem split_pad (f : List Int16) : splitPolys (pad f) = (f, List.replicate f.length 0) := by
  induction f with
  | nil => rfl
  | cons a f ih => rw [pad_cons, splitPolys, ih]; rfl

theorem merge_pad (f : List Int16) : mergePolys f (List.replicate f.length 0) = .ok (pad f) := by
  induction f with
  | nil => rfl
  | cons a f ih => rw [List.length_cons, List.replicate_succ, mergePolys, ih]; rfl

theorem reduceQ_self {x : Int16} (hx : 0 ≤ x.toInt ∧ x.toInt < 12289) (y : Int) (hy : y % 12289 = x.toInt % 12289) : reduceQ y = x := by
  apply Int16.toInt_inj.1
  rw [reduceQ_toInt]
  omega

theorem mergeLoop_dbl (f : List Int16) (hr : Reduced f) : ∀ w : List Nat, w.length = 2 * f.length →
    mergeLoop wrap64 w f (List.replicate f.length 0) = .ok (dbl f) := by
  induction f with
  | nil => intro w _; rfl
  | cons x f ih =>
    intro w hw
    match w with
    | [] => simp at hw
    | [_] => simp at hw; omega
    | a :: b :: w =>
      have hx := hr x (by simp)
      have h0 : idx (a :: b :: w) 0 = .ok a := rfl
      have h1 : idx (List.replicate (x :: f).length (0 : Int16)) 0 = .ok 0 := rfl
      have hz : ((0 : Int16)).toInt = 0 := rfl
      rw [mergeLoop, h0, Go.ok_bind, h1, Go.ok_bind, hz, mul_zero, wrap64_good 0 (by norm_num) (by norm_num), Go.ok_bind,
        wrap64_good _ (by omega) (by omega), Go.ok_bind, Go.ok_bind, wrap64_good _ (by omega) (by omega), Go.ok_bind,
        show List.drop 2 (a :: b :: w) = w from rfl,
        show List.drop 1 (List.replicate (x :: f).length (0 : Int16)) = List.replicate f.length 0 from rfl,
        ih (fun y hy => hr y (by simp [hy])) w (by simp at hw; omega), Go.ok_bind, reduceQ_self hx _ (by simp), reduceQ_self hx _ (by simp)]
      rfl

theorem splitLoop_dbl {W : Int → Go Int} (hW : Good32 W) (f : List Int16) (hr : Reduced f) : ∀ w : List Nat, w.length = 2 * f.length →
    (∀ a ∈ w, a < 12289) → splitLoop W w (dbl f) = .ok (f, List.replicate f.length 0) := by
  induction f with
  | nil => intro w _ _; cases w <;> simp [dbl, splitLoop]
  | cons x f ih =>
    intro w hw ht
    match w with
    | [] => simp at hw
    | [_] => simp at hw; omega
    | a :: b :: w =>
      have hx := hr x (by simp)
      have h0 : idx (a :: b :: w) 0 = .ok a := rfl
      obtain ⟨v, hv⟩ : ∃ v, idx inv_mod_q a = .ok v := by
        have := ht a (by simp)
        have hl : a < inv_mod_q.length := by rw [inv_length]; omega
        exact ⟨inv_mod_q[a], by unfold idx; rw [List.getElem?_eq_getElem hl]⟩
      rw [dbl_cons, splitLoop, hW (x.toInt + x.toInt) (by omega) (by omega), Go.ok_bind, show i2 = 6145 from rfl,
        hW ((x.toInt + x.toInt) * 6145) (by omega) (by omega), Go.ok_bind, sub_self, hW 0 (by norm_num) (by norm_num), Go.ok_bind,
        zero_mul, hW 0 (by norm_num) (by norm_num), Go.ok_bind, h0, Go.ok_bind, hv, Go.ok_bind, zero_mul,
        hW 0 (by norm_num) (by norm_num), Go.ok_bind, show List.drop 2 (a :: b :: w) = w from rfl,
        ih (fun y hy => hr y (by simp [hy])) w (by simp at hw; omega) (fun c hc => ht c (by simp [hc])), Go.ok_bind,
        reduceQ_self hx _ (by omega), show reduceQ 0 = 0 from by decide]
      rfl

theorem NTT_pad {k : Nat} (h1 : 1 ≤ k) (h : k < 10) {f r : List Int16} (hf : f.length = 2 ^ k) (hr : NTT wrap64 f = .ok r) :
    NTT wrap64 (pad f) = .ok (dbl r) := by
  have zero : ∀ k, 1 ≤ k → k < 10 → NTT wrap64 (List.replicate (2 ^ k) 0) = .ok (List.replicate (2 ^ k) 0) := by
    intro k h1 h
    obtain ⟨s, es, ls, rs, vs⟩ := NTT_spec wrap64_good k h1 (by omega) (List.replicate (2 ^ k) 0) List.length_replicate
    rw [es]
    have h0 : zq 0 = 0 := by decide
    have hz : ∀ m, polyQ (List.replicate m 0) = 0 := by
      intro m
      induction m with
      | zero => rfl
      | succ m ih =>
        simp only [polyQ, List.replicate_succ, List.map_cons, poly_cons, h0] at ih ⊢
        rw [ih]; simp
    congr 1
    apply map_zq_inj rs
    · intro x hx
      rw [List.eq_of_mem_replicate hx]
      decide
    · rw [vs, hz, List.map_replicate, h0]
      apply List.ext_getElem
      · simp [rootsZ_length k h1 (by omega)]
      · intro i _ _
        simp
  obtain ⟨s, es, ls, rs, _⟩ := NTT_spec wrap64_good k h1 (by omega) f hf
  rw [es] at hr
  cases hr
  have hp : 2 ^ 1 ≤ 2 ^ k := Nat.pow_le_pow_right (by decide) h1
  rw [NTT, dif_pos (by rw [pad_length]; omega), split_pad, es, hf, zero k h1 h, Go.ok_bind, Go.ok_bind, MergeNTT, ← ls]
  refine mergeLoop_dbl r rs _ ?_
  have := level_length (k + 1) (by omega) (by omega)
  unfold level at this
  rw [show 2 * r.length = 2 ^ (k + 1) by rw [ls, pow_succ]; omega, this, pow_succ]

theorem INTT_dbl {W : Int → Go Int} (hW : Good32 W) {k : Nat} (h1 : 1 ≤ k) (h : k < 10) {F r : List Int16} (hF : F.length = 2 ^ k)
    (hd : Reduced F) (hr : INTT W F = .ok r) (lr : r.length = 2 ^ k) : INTT W (dbl F) = .ok (pad r) := by
  have one : ∀ k, 1 ≤ k → k < 10 → ∀ F r : List Int16, F.length = 2 ^ k → Reduced F → INTT W F = .ok r → r.length = 2 ^ k →
      INTT W (List.replicate (2 ^ k) 0) = .ok (List.replicate (2 ^ k) 0) → INTT W (dbl F) = .ok (pad r) := by
    intro k h1 h F r hF hd hr lr hz
    have hp : 2 ^ 1 ≤ 2 ^ k := Nat.pow_le_pow_right (by decide) h1
    have hs : SplitNTT W (dbl F) = .ok (F, List.replicate F.length 0) := by
      unfold SplitNTT
      refine splitLoop_dbl hW F hd _ ?_ (roots_lt _)
      have := level_length (k + 1) (by omega) (by omega)
      unfold level at this
      rw [dbl_length, show 2 * F.length = 2 ^ (k + 1) by rw [hF, pow_succ]; omega, this]
    rw [INTT, dif_pos (by rw [dbl_length]; omega)]
    split
    · rename_i s es
      rw [hs] at es
      cases es
      simp only [hr, hF, hz, Go.ok_bind]
      rw [← lr]
      exact merge_pad r
    · rename_i es; rw [hs] at es; cases es
    · rename_i es; rw [hs] at es; cases es
  have hz : ∀ k, 1 ≤ k → k < 10 → INTT W (List.replicate (2 ^ k) 0) = .ok (List.replicate (2 ^ k) 0) := by
    intro k h1
    induction k, h1 using Nat.le_induction with
    | base =>
      intro _
      obtain ⟨v, hv, -, -⟩ := inv_spec (a := 1479) (by decide) (by decide)
      have h0 : W 0 = .ok 0 := hW 0 (by norm_num) (by norm_num)
      rw [INTT]
      simp [List.replicate, h0, Go.ok_bind, hv, show reduceQ 0 = 0 from by decide]
    | succ k h1 ih =>
      intro h
      have hz := ih (by omega)
      have := one k h1 (by omega) _ _ List.length_replicate (by
        intro x hx
        rw [List.eq_of_mem_replicate hx]
        decide) hz List.length_replicate hz
      rw [dbl_replicate, pad_replicate] at this
      rw [pow_succ, mul_comm]
      exact this
  exact one k h1 h F r hF hd hr lr (hz k h1 h)

theorem mulLoop_dbl (F : List Int16) : ∀ G P : List Int16, mulLoop wrap64 F G = .ok P → mulLoop wrap64 (dbl F) (dbl G) = .ok (dbl P) := by
  induction F with
  | nil => intro G P h; cases G <;> · simp [mulLoop] at h; subst h; simp [dbl, mulLoop]
  | cons x F ih =>
    intro G P h
    cases G with
    | nil => simp [mulLoop] at h; subst h; simp [dbl, mulLoop]
    | cons y G =>
      simp only [mulLoop, wrap64, Go.ok_bind, Go.bind_eq_ok, Go.pure_eq, Go.ok.injEq] at h
      obtain ⟨r, hr, rfl⟩ := h
      rw [dbl_cons, dbl_cons, dbl_cons]
      simp only [mulLoop, wrap64, Go.ok_bind, ih _ _ hr, Go.pure_eq]

theorem divLoop_dbl (F : List Int16) : ∀ G P : List Int16, divLoop wrap64 F G = .ok P → divLoop wrap64 (dbl F) (dbl G) = .ok (dbl P) := by
  induction F with
  | nil => intro G P h; cases G <;> · simp [divLoop] at h; subst h; simp [dbl, divLoop]
  | cons x F ih =>
    intro G P h
    cases G with
    | nil => simp [divLoop] at h; subst h; simp [dbl, divLoop]
    | cons y G =>
      by_cases hn : y.toInt < 0
      · simp [divLoop, hn] at h
      simp only [divLoop, hn, if_false, wrap64, Go.ok_bind, Go.bind_eq_ok, Go.pure_eq, Go.ok.injEq] at h
      obtain ⟨v, hv, r, hr, rfl⟩ := h
      rw [dbl_cons, dbl_cons, dbl_cons]
      simp only [divLoop, hn, if_false, wrap64, Go.ok_bind, ih _ _ hr, Go.pure_eq, hv]

theorem any_dbl (G : List Int16) : (dbl G).any (· == 0) = G.any (· == 0) := by
  induction G with
  | nil => rfl
  | cons x G ih => rw [dbl_cons, List.any_cons, List.any_cons, List.any_cons, ih, ← Bool.or_assoc, Bool.or_self]

/-- Multiplying polynomials in `x^2` is multiplying the polynomials, also with a 32-bit `int`. -/
theorem MulZq_pad {W : Int → Go Int} (hW : Good32 W) {k : Nat} (h1 : 1 ≤ k) (h : k < 10) {f g r : List Int16} (hf : f.length = 2 ^ k)
    (hg : g.length = 2 ^ k) (hr : MulZq W f g = .ok r) (lr : r.length = 2 ^ k) : MulZq W (pad f) (pad g) = .ok (pad r) := by
  obtain ⟨F, eF, lF, rF, -⟩ := NTT_spec wrap64_good k h1 (by omega) f hf
  obtain ⟨G, eG, lG, rG, -⟩ := NTT_spec wrap64_good k h1 (by omega) g hg
  obtain ⟨P, eP, lP, rP, -⟩ := mulLoop_spec wrap64_good F G (lF.trans lG.symm)
  unfold MulZq at hr ⊢
  rw [NTT_32 hW, eF, Go.ok_bind, NTT_32 hW, eG, Go.ok_bind, mulNTT_32 hW, mulNTT, if_neg (by simpa using lF.trans lG.symm), eP, Go.ok_bind] at hr
  rw [NTT_32 hW, NTT_pad h1 h hf eF, Go.ok_bind, NTT_32 hW, NTT_pad h1 h hg eG, Go.ok_bind, mulNTT_32 hW, mulNTT,
    if_neg (by rw [dbl_length, dbl_length]; omega), mulLoop_dbl F G P eP, Go.ok_bind]
  exact INTT_dbl hW h1 h (by omega) rP hr lr

/-- The same for division. -/
theorem DivZq_pad {W : Int → Go Int} (hW : Good32 W) {k : Nat} (h1 : 1 ≤ k) (h : k < 10) {f g r : List Int16} (hf : f.length = 2 ^ k)
    (hg : g.length = 2 ^ k) (hr : DivZq W f g = .ok (.ok r)) (lr : r.length = 2 ^ k) : DivZq W (pad f) (pad g) = .ok (.ok (pad r)) := by
  obtain ⟨F, eF, lF, rF, -⟩ := NTT_spec wrap64_good k h1 (by omega) f hf
  obtain ⟨G, eG, lG, rG, -⟩ := NTT_spec wrap64_good k h1 (by omega) g hg
  unfold DivZq at hr ⊢
  rw [NTT_32 hW, eF, Go.ok_bind, NTT_32 hW, eG, Go.ok_bind, divNTT_32 hW, divNTT, if_neg (by simpa using lF.trans lG.symm)] at hr
  rw [NTT_32 hW, NTT_pad h1 h hf eF, Go.ok_bind, NTT_32 hW, NTT_pad h1 h hg eG, Go.ok_bind, divNTT_32 hW, divNTT,
    if_neg (by rw [dbl_length, dbl_length]; omega), any_dbl]
  by_cases hz : G.any (· == 0) = true
  · rw [if_pos hz] at hr
    simp at hr
  · rw [if_neg hz] at hr ⊢
    obtain ⟨P, eP, lP, rP, -⟩ := divLoop_spec wrap64_good F G (lF.trans lG.symm) rG (by
      intro y hy h0
      apply hz
      rw [List.any_eq_true]
      exact ⟨y, hy, by simp [h0]⟩)
    rw [eP] at hr
    rw [divLoop_dbl F G P eP]
    simp only [Go.ok_bind, Go.pure_eq, Go.bind_eq_ok, Go.ok.injEq, Except.ok.injEq] at hr ⊢
    obtain ⟨s, hs, rfl⟩ := hr
    exact ⟨_, INTT_dbl hW h1 h (by omega) rP hs lr, rfl⟩

end Falcon
