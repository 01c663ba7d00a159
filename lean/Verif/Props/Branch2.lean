import Verif.Props.Branch
import Mathlib.RingTheory.Int.Basic
/-!
# Property C89: the conditions of all ring operations, exactly

The branches of `NTT` and `INTT` in terms of the values of polynomials at the roots of `x^n + 1`, and from them the branches of `MulZq` and
`DivZq`.
-/

namespace Falcon
open Spec

/-- Not negative or a multiple of `q`: the condition of `Pmod`. -/
def keeps (x : Int) : Bool := decide (0 ≤ x ∨ (12289 : Int) ∣ x)

/-- The values of a polynomial at the tabulated roots of degree `2^k`, as integers from 0 to `q - 1`. -/
noncomputable def residues (k : Nat) (f : List Int16) : List Int := (rootsZ k).map fun x => (((polyQ f).eval x).val : Int)

/-- The conditions of one level of the forward transform: for each root `w` (every other entry of the table) and the values `x`, `y` of the
even and the odd part at `w^2`, one that always holds and one for `x - w y`. -/
def mergeConds : List Nat → List Int → List Int → List Bool
  | w :: _ :: ws, x :: f0, y :: f1 => true :: keeps (x - w * y) :: mergeConds ws f0 f1
  | _, _, _ => []

/-- The conditions of the forward transform of degree `2^k`. -/
noncomputable def forwardConds : Nat → List Int16 → List Bool
  | k + 2, f => forwardConds (k + 1) (splitPolys f).1 ++ (forwardConds (k + 1) (splitPolys f).2 ++
      mergeConds (level (k + 2)) (residues (k + 1) (splitPolys f).1) (residues (k + 1) (splitPolys f).2))
  | _, [a, b] => [keeps (a.toInt + 1479 * b.toInt), keeps (a.toInt - 1479 * b.toInt)]
  | _, _ => []

/-- The conditions of one level of the inverse transform: for each pair of opposite roots one that always holds and one that compares
the values. -/
def compareConds : List Int → List Bool
  | a :: b :: l => true :: decide (b ≤ a) :: compareConds l
  | _ => []

/-- The conditions of the inverse transform that returns `r`. -/
noncomputable def inverseConds : Nat → List Int16 → List Bool
  | 0, _ => []
  | k + 1, r => compareConds (residues (k + 1) r) ++ (inverseConds k (splitPolys r).1 ++ inverseConds k (splitPolys r).2)

namespace Br

theorem residues_of {k : Nat} {f r : List Int16} (hr : Reduced r) (h : r.map zq = (rootsZ k).map fun x => (polyQ f).eval x) :
    r.map Int16.toInt = residues k f := by
  have e : r.map Int16.toInt = (r.map zq).map fun z => (z.val : Int) := by
    rw [List.map_map]
    apply List.map_congr_left
    intro x hx
    have := hr x hx
    obtain ⟨n, hn⟩ := Int.eq_ofNat_of_zero_le this.1
    simp only [Function.comp, zq, hn]
    have hn' : n < 12289 := by omega
    rw [show ((n : Int) : Zq) = ((n : Nat) : Zq) by simp, ZMod.val_natCast, Nat.mod_eq_of_lt hn']
  rw [e, h, List.map_map]
  rfl

theorem merge_conds {w cs : List Nat} (hp : Pairs w cs) : ∀ (f0 f1 : List Int16), f0.length = cs.length → f1.length = cs.length →
    Reduced f0 → Reduced f1 → ∃ r, (mergeLoop w f0 f1).run = .ok (r, mergeConds w (f0.map Int16.toInt) (f1.map Int16.toInt)) := by
  induction hp with
  | nil =>
    intro f0 f1 h0 h1 _ _
    simp at h0; subst h0
    exact ⟨[], rfl⟩
  | @cons a b c ws cs ha ha' hs hn hp ih =>
    intro f0 f1 h0 h1 r0 r1
    match f0, f1 with
    | [], _ => simp at h0
    | _ :: _, [] => simp at h1
    | x :: f0, y :: f1 =>
      obtain ⟨r, hr⟩ := ih f0 f1 (by simpa using h0) (by simpa using h1) (fun z hz => r0 z (by simp [hz])) (fun z hz => r1 z (by simp [hz]))
      have hx := r0 x (by simp)
      have hy := r1 y (by simp)
      have hm1 : 0 ≤ (a : Int) * y.toInt := by nlinarith
      have hm2 : (a : Int) * y.toInt ≤ 2 ^ 32 := by nlinarith
      refine ⟨Falcon.reduceQ (a * y.toInt + x.toInt) :: Falcon.reduceQ (x.toInt - a * y.toInt) :: r, ?_⟩
      simp only [mergeLoop, idx, List.getElem?_cons_zero, run_bind, run_lift, Go.ok_bind, List.drop_succ_cons, List.drop_zero,
        wrap64_good (a * y.toInt) (by omega) (by omega), wrap64_good (a * y.toInt + x.toInt) (by omega) (by omega),
        wrap64_good (x.toInt - a * y.toInt) (by omega) (by omega), C89_pmod, decide_eq_true (show 0 ≤ (a : Int) * y.toInt + x.toInt ∨ (12289 : Int) ∣ (a : Int) * y.toInt + x.toInt from .inl (by omega)), hr,
        run_pure, List.map_cons, mergeConds, keeps, List.nil_append, List.append_nil, List.cons_append]

end Br
open Br

/-- C89, the forward transform, exactly. -/
theorem C89_forward (k : Nat) (h1 : 1 ≤ k) (h : k ≤ 10) (f : List Int16) (hf : f.length = 2 ^ k) :
    ∃ r, NTT wrap64 f = .ok r ∧ (Br.NTT f).run = .ok (r, forwardConds k f) := by
  obtain ⟨r, l, hl, hr, -⟩ := ntt_log k h1 h f hf
  suffices hs : ∃ r', (Br.NTT f).run = .ok (r', forwardConds k f) by
    obtain ⟨r', h'⟩ := hs
    rw [hl] at h'
    simp only [Go.ok.injEq, Prod.mk.injEq] at h'
    exact ⟨r, hr, by rw [hl, h'.2]⟩
  clear hl hr r l
  induction k, h1 using Nat.le_induction generalizing f with
  | base =>
    obtain ⟨a, b, rfl⟩ := list_length_two hf
    have ha := i16_bounds a
    have hb := i16_bounds b
    have hs : sqr1 = 1479 := sqr1_eq
    refine ⟨[reduceQ (a.toInt + 1479 * b.toInt), reduceQ (a.toInt - 1479 * b.toInt)], ?_⟩
    rw [Br.NTT, dif_neg (by simp)]
    simp only [hs, run_bind, run_lift, Go.ok_bind, wrap64_good (1479 * b.toInt) (by omega) (by omega),
      wrap64_good (a.toInt + 1479 * b.toInt) (by omega) (by omega), wrap64_good (a.toInt - 1479 * b.toInt) (by omega) (by omega), C89_pmod, run_pure,
      forwardConds, keeps, List.nil_append, List.append_nil, List.cons_append]
  | succ k h1 ih =>
    have hp : 2 ≤ 2 ^ k := by
      calc 2 = 2 ^ 1 := rfl
        _ ≤ 2 ^ k := Nat.pow_le_pow_right (by decide) h1
    have hl := splitPolys_length f
    rw [hf, pow_succ, Nat.mul_div_cancel _ (by decide)] at hl
    obtain ⟨r0, e0⟩ := ih (by omega) _ hl.1
    obtain ⟨r1, e1⟩ := ih (by omega) _ hl.2
    obtain ⟨s0, h0, l0, d0, m0⟩ := NTT_spec wrap64_good k h1 (by omega) _ hl.1
    obtain ⟨s1, h1', l1, d1, m1⟩ := NTT_spec wrap64_good k h1 (by omega) _ hl.2
    have hv := value_NTT (splitPolys f).1
    rw [value, e0, h0] at hv
    obtain rfl : r0 = s0 := Go.ok.inj hv
    have hv := value_NTT (splitPolys f).2
    rw [value, e1, h1'] at hv
    obtain rfl : r1 = s1 := Go.ok.inj hv
    have hll := level_length k (by omega) h1
    obtain ⟨r, hr⟩ := merge_conds (level_pairs' k h1 (by omega)) r0 r1 (by omega) (by omega) d0 d1
    rw [residues_of d0 m0, residues_of d1 m1] at hr
    refine ⟨r, ?_⟩
    rw [Br.NTT, dif_pos (by rw [hf, pow_succ]; omega)]
    have hlev : roots_dict_Zq (Int16.ofNat (2 * r0.length)) = level (k + 1) := by rw [l0]; unfold level; rw [pow_succ, Nat.mul_comm]
    obtain ⟨k, rfl⟩ : ∃ j, k = j + 1 := ⟨k - 1, by omega⟩
    simp only [run_bind, e0, e1, Go.ok_bind, Br.MergeNTT, hlev, hr, forwardConds]

namespace Br

theorem compare_keeps {a b : Int16} (ha : 0 ≤ a.toInt ∧ a.toInt < 12289) (hb : 0 ≤ b.toInt ∧ b.toInt < 12289) {v : Nat} (h0 : 0 < v)
    (hv : v < 12289) : (0 ≤ (a.toInt - b.toInt) * (6145 * v) ∨ (12289 : Int) ∣ (a.toInt - b.toInt) * (6145 * v)) ↔ b.toInt ≤ a.toInt := by
  constructor
  · rintro (h | h)
    · by_contra hc
      have : (a.toInt - b.toInt) * (6145 * (v : Int)) < 0 := mul_neg_of_neg_of_pos (by omega) (by omega)
      omega
    · have hp : Prime (12289 : Int) := Nat.prime_iff_prime_int.1 (show Nat.Prime 12289 by norm_num)
      rcases hp.dvd_or_dvd h with h | h
      · omega
      · rcases hp.dvd_or_dvd h with h | h
        · exact absurd h (by decide)
        · have := Int.le_of_dvd (by omega) h
          omega
  · intro h
    left
    exact mul_nonneg (by omega) (by omega)

theorem inv_pos {a v : Nat} (h : a * v % 12289 = 1) : 0 < v := by
  rcases Nat.eq_zero_or_pos v with rfl | h'
  · simp at h
  · exact h'

theorem split_conds {w cs : List Nat} (hp : Pairs w cs) : ∀ (g : List Int16), g.length = w.length → Reduced g →
    ∃ s, (splitLoop w g).run = .ok (s, compareConds (g.map Int16.toInt)) := by
  induction hp with
  | nil =>
    intro g hg _
    simp at hg; subst hg
    exact ⟨([], []), rfl⟩
  | @cons a b c ws cs ha ha' hs hn hp ih =>
    intro g hg hr
    match g with
    | [] => simp at hg
    | [_] => simp at hg
    | x :: y :: g =>
      obtain ⟨s, hs⟩ := ih g (by simpa using hg) (fun z hz => hr z (by simp [hz]))
      obtain ⟨v, hv, hav, hv'⟩ := inv_spec ha ha'
      have hx := hr x (by simp)
      have hy := hr y (by simp)
      have hm1 : -2 ^ 60 ≤ (x.toInt - y.toInt) * i2 * (v : Int) := by unfold i2; nlinarith
      have hm2 : (x.toInt - y.toInt) * i2 * (v : Int) ≤ 2 ^ 60 := by unfold i2; nlinarith
      have hb1 : -2 ^ 60 ≤ (x.toInt - y.toInt) * i2 ∧ (x.toInt - y.toInt) * i2 ≤ 2 ^ 60 := by unfold i2; omega
      have hb2 : 0 ≤ (x.toInt + y.toInt) * i2 ∧ (x.toInt + y.toInt) * i2 ≤ 2 ^ 60 := by unfold i2; omega
      have h0 : idx (a :: b :: ws) 0 = .ok a := rfl
      have hc : decide (0 ≤ (x.toInt - y.toInt) * i2 * v ∨ (12289 : Int) ∣ (x.toInt - y.toInt) * i2 * v) = decide (y.toInt ≤ x.toInt) := by
        rw [decide_eq_decide, ← compare_keeps hx hy (inv_pos hav) hv', show i2 = 6145 from rfl, Int.mul_assoc]
      refine ⟨(Falcon.reduceQ ((x.toInt + y.toInt) * i2) :: s.1, Falcon.reduceQ ((x.toInt - y.toInt) * i2 * v) :: s.2), ?_⟩
      simp only [splitLoop, wrap64_good (x.toInt + y.toInt) (by omega) (by omega), run_bind, run_lift,
          wrap64_good ((x.toInt + y.toInt) * i2) (by omega) (by omega), wrap64_good (x.toInt - y.toInt) (by omega) (by omega),
          wrap64_good ((x.toInt - y.toInt) * i2) (by omega) (by omega), wrap64_good ((x.toInt - y.toInt) * i2 * v) (by omega) (by omega),
          Go.ok_bind, h0, hv, List.drop_succ_cons, List.drop_zero, hs, C89_pmod, decide_eq_true (show 0 ≤ (x.toInt + y.toInt) * i2 ∨ (12289 : Int) ∣ (x.toInt + y.toInt) * i2 from .inl hb2.1), hc, run_pure, List.map_cons, compareConds,
          List.nil_append, List.append_nil, List.cons_append]

theorem inverse_conds (k : Nat) (h1 : 1 ≤ k) (h : k ≤ 10) (g r : List Int16) (hg : g.length = 2 ^ k) (hr : Reduced g)
    (hi : Falcon.INTT wrap64 g = .ok r) (fuel : Nat) (hfu : g.length ≤ fuel) : (INTTFuel fuel g).run = .ok (r, inverseConds k r) := by
  induction k, h1 using Nat.le_induction generalizing g r fuel with
  | base =>
    obtain ⟨r', e, lr, dr, m⟩ := INTT_spec wrap64_good 1 (by decide) (by decide) g hg
    rw [hi] at e
    obtain rfl : r = r' := Go.ok.inj e
    have hv := value_INTTFuel fuel g hfu
    rw [hi, value, Go.bind_eq_ok] at hv
    obtain ⟨⟨r', l⟩, hrun, he⟩ := hv
    obtain rfl : r' = r := Go.ok.inj he
    have hres := residues_of hr m
    obtain ⟨fuel, rfl⟩ : ∃ j, fuel = j + 1 := ⟨fuel - 1, by omega⟩
    obtain ⟨a, b, rfl⟩ := list_length_two hg
    have hx := hr a (by simp)
    have hy := hr b (by simp)
    obtain ⟨v, hv, hav, hv'⟩ := inv_spec (a := 1479) (by decide) (by decide)
    have hm1 : -2 ^ 60 ≤ (a.toInt - b.toInt) * (v : Int) ∧ (a.toInt - b.toInt) * (v : Int) ≤ 2 ^ 60 := by
      constructor <;> nlinarith
    have hm2 : -2 ^ 60 ≤ (a.toInt - b.toInt) * (v : Int) * i2 ∧ (a.toInt - b.toInt) * (v : Int) * i2 ≤ 2 ^ 60 := by
      unfold i2; constructor <;> nlinarith
    have hm3 : 0 ≤ (a.toInt + b.toInt) * i2 ∧ (a.toInt + b.toInt) * i2 ≤ 2 ^ 60 := by
      unfold i2; omega
    have hc : decide (0 ≤ (a.toInt - b.toInt) * v * i2 ∨ (12289 : Int) ∣ (a.toInt - b.toInt) * v * i2) = decide (b.toInt ≤ a.toInt) := by
      rw [decide_eq_decide, ← compare_keeps hx hy (inv_pos hav) hv', show i2 = 6145 from rfl, Int.mul_assoc, Int.mul_comm (v : Int)]
    unfold INTTFuel at hrun
    rw [if_neg (by simp)] at hrun
    simp only [run_bind, run_lift, wrap64_good (a.toInt + b.toInt) (by omega) (by omega), wrap64_good ((a.toInt + b.toInt) * i2) (by omega) (by omega),
      wrap64_good (a.toInt - b.toInt) (by omega) (by omega), wrap64_good ((a.toInt - b.toInt) * v) (by omega) (by omega),
      wrap64_good ((a.toInt - b.toInt) * v * i2) (by omega) (by omega), Go.ok_bind, hv, C89_pmod, decide_eq_true (show 0 ≤ (a.toInt + b.toInt) * i2 ∨ (12289 : Int) ∣ (a.toInt + b.toInt) * i2 from .inl hm3.1), hc, run_pure,
      List.nil_append, List.append_nil, List.cons_append, Go.ok.injEq, Prod.mk.injEq] at hrun
    have hsp : inverseConds 1 r' = [true, decide (b.toInt ≤ a.toInt)] := by
      rw [inverseConds, ← hres]
      simp [compareConds, inverseConds]
    rw [hsp]
    unfold INTTFuel
    rw [if_neg (by simp)]
    simp only [run_bind, run_lift, wrap64_good (a.toInt + b.toInt) (by omega) (by omega), wrap64_good ((a.toInt + b.toInt) * i2) (by omega) (by omega),
      wrap64_good (a.toInt - b.toInt) (by omega) (by omega), wrap64_good ((a.toInt - b.toInt) * v) (by omega) (by omega),
      wrap64_good ((a.toInt - b.toInt) * v * i2) (by omega) (by omega), Go.ok_bind, hv, C89_pmod, decide_eq_true (show 0 ≤ (a.toInt + b.toInt) * i2 ∨ (12289 : Int) ∣ (a.toInt + b.toInt) * i2 from .inl hm3.1), hc, run_pure,
      List.nil_append, List.append_nil, List.cons_append, hrun.1]
  | succ k h1 ih =>
    obtain ⟨r', e, lr, dr, m⟩ := INTT_spec wrap64_good (k + 1) (by omega) h g hg
    rw [hi] at e
    obtain rfl : r = r' := Go.ok.inj e
    have hp := level_pairs' k h1 (by omega)
    have hll := level_length k (by omega) h1
    have hll' := level_length (k + 1) (by omega) (by omega)
    have hk : 2 < g.length := by
      rw [hg, pow_succ]
      have : 2 ^ 1 ≤ 2 ^ k := Nat.pow_le_pow_right (by decide) h1
      omega
    obtain ⟨s0, s1, es, l0, l1, d0, d1, -⟩ := splitLoop_spec wrap64_good hp g (by omega)
    obtain ⟨s, hs⟩ := split_conds hp g (by omega) hr
    have hv := value_splitLoop (level (k + 1)) g
    rw [value, hs, es] at hv
    obtain rfl : s = (s0, s1) := Go.ok.inj hv
    obtain ⟨f0, e0, lf0, -⟩ := INTT_spec wrap64_good k h1 (by omega) s0 (by omega)
    obtain ⟨f1, e1, lf1, -⟩ := INTT_spec wrap64_good k h1 (by omega) s1 (by omega)
    obtain ⟨f, ef, lf, sf, -⟩ := mergePolys_ok (lf0.trans lf1.symm)
    obtain ⟨fuel, rfl⟩ : ∃ j, fuel = j + 1 := ⟨fuel - 1, by omega⟩
    have hlt : 2 ^ k < g.length := by rw [hg, pow_succ]; omega
    have g0 := ih (by omega) s0 f0 (by omega) d0 e0 fuel (by omega)
    have g1 := ih (by omega) s1 f1 (by omega) d1 e1 fuel (by omega)
    have hlev : roots_dict_Zq (Int16.ofNat g.length) = level (k + 1) := by rw [hg]; unfold level; rfl
    have hrun : (INTTFuel (fuel + 1) g).run = .ok (f, compareConds (g.map Int16.toInt) ++ (inverseConds k f0 ++ inverseConds k f1)) := by
      unfold INTTFuel
      rw [if_pos hk]
      simp only [run_bind, run_lift, SplitNTT, hlev, hs, Go.ok_bind, g0, g1, ef, List.append_nil]
    have hv := value_INTTFuel (fuel + 1) g hfu
    rw [value, hrun, hi] at hv
    obtain rfl : f = r := Go.ok.inj hv
    rw [hrun, inverseConds, residues_of hr m, sf]

theorem zero_false {g : List Int16} (h : ∀ y ∈ g, y ≠ 0) : (zeroTest g).run = .ok (false, List.replicate g.length false) := by
  induction g with
  | nil => rfl
  | cons y g ih =>
    simp only [zeroTest, run_bind, test, Go.ok_bind, decide_eq_false (h y (by simp)), Bool.false_eq_true, if_false,
      ih (fun z hz => h z (by simp [hz])), List.cons_append, List.nil_append, List.length_cons, List.replicate_succ]

theorem zero_true {g p s : List Int16} (h : ∀ y ∈ p, y ≠ 0) (hg : g = p ++ 0 :: s) :
    (zeroTest g).run = .ok (true, List.replicate p.length false ++ [true]) := by
  subst hg
  induction p with
  | nil => rfl
  | cons y p ih =>
    simp only [List.cons_append, zeroTest, run_bind, test, Go.ok_bind, decide_eq_false (h y (by simp)), Bool.false_eq_true, if_false,
      ih (fun z hz => h z (by simp [hz])), List.nil_append, List.length_cons, List.replicate_succ]

theorem div_true {f g : List Int16} (hf : Reduced f) (hg : Reduced g) (h : f.length = g.length) (hz : ∀ y ∈ g, y ≠ 0) :
    ∃ r, (divLoop f g).run = .ok (r, List.replicate f.length true) := by
  induction f generalizing g with
  | nil => exact ⟨[], rfl⟩
  | cons x f ih =>
    cases g with
    | nil => cases h
    | cons y g =>
      obtain ⟨r, e⟩ := ih (g := g) (fun z hz => hf z (by simp [hz])) (fun z hz => hg z (by simp [hz])) (by simpa using h)
        (fun z h' => hz z (by simp [h']))
      have hx := hf x (by simp)
      have hy := hg y (by simp)
      have hy0 : y.toInt ≠ 0 := fun hc => hz y (by simp) (Int16.toInt_inj.1 (hc.trans rfl))
      obtain ⟨v, hv, hav, hv'⟩ := inv_spec (a := y.toInt.toNat) (by omega) (by omega)
      have hb1 : 0 ≤ x.toInt * (v : Int) := mul_nonneg hx.1 (by omega)
      have hb2 : x.toInt * (v : Int) ≤ 2 ^ 60 := by nlinarith
      refine ⟨Falcon.reduceQ (x.toInt * v) :: r, ?_⟩
      simp only [divLoop, if_neg (show ¬ y.toInt < 0 by omega), run_bind, run_lift, hv, Go.ok_bind,
        wrap64_good (x.toInt * v) (by omega) (by omega), C89_pmod, decide_eq_true (show 0 ≤ x.toInt * (v : Int) ∨ (12289 : Int) ∣ x.toInt * (v : Int) from .inl hb1), e, run_pure, List.nil_append, List.append_nil, List.cons_append,
        List.length_cons, List.replicate_succ]

end Br

/-- C89, the inverse transform, exactly: its branches compare the values of the result, and of its even and odd parts recursively, at opposite
roots. -/
theorem C89_inverse (k : Nat) (h1 : 1 ≤ k) (h : k ≤ 10) (g : List Int16) (hg : g.length = 2 ^ k) (hr : Reduced g) :
    ∃ r, INTT wrap64 g = .ok r ∧ (Br.INTT g).run = .ok (r, inverseConds k r) := by
  obtain ⟨r, e, -⟩ := INTT_spec wrap64_good k h1 h g hg
  exact ⟨r, e, inverse_conds k h1 h g r hg hr e _ (le_refl _)⟩

/-- C89, the product, exactly: the branches of the two forward transforms, and then branches that the result determines. -/
theorem C89_product (k : Nat) (h1 : 1 ≤ k) (h : k ≤ 10) (f g : List Int16) (hf : f.length = 2 ^ k) (hg : g.length = 2 ^ k) :
    ∃ r, MulZq wrap64 f g = .ok r ∧
      (Br.MulZq f g).run = .ok (r, forwardConds k f ++ (forwardConds k g ++ (List.replicate (2 ^ k) true ++ inverseConds k r))) := by
  obtain ⟨ft, nf, cf⟩ := C89_forward k h1 h f hf
  obtain ⟨gt, ng, cg⟩ := C89_forward k h1 h g hg
  obtain ⟨ft', ef, lf, rf, -⟩ := NTT_spec wrap64_good k h1 h f hf
  obtain ⟨gt', eg, lg, rg, -⟩ := NTT_spec wrap64_good k h1 h g hg
  obtain rfl : ft = ft' := Go.ok.inj (nf.symm.trans ef)
  obtain rfl : gt = gt' := Go.ok.inj (ng.symm.trans eg)
  obtain ⟨p, ep, cp⟩ := C89_pointwise ft gt rf rg (by omega)
  have hp : Reduced p ∧ p.length = 2 ^ k := by
    obtain ⟨p', e, lp, dp, -⟩ := mulLoop_spec wrap64_good ft gt (by omega)
    rw [mulNTT, if_neg (by omega), e] at ep
    obtain rfl : p' = p := Go.ok.inj ep
    exact ⟨dp, by omega⟩
  obtain ⟨r, er, cr⟩ := C89_inverse k h1 h p hp.2 hp.1
  have hrun : (Br.MulZq f g).run = .ok (r, forwardConds k f ++ (forwardConds k g ++ (List.replicate (2 ^ k) true ++ inverseConds k r))) := by
    simp only [Br.MulZq, run_bind, cf, cg, cp, cr, Go.ok_bind, lf]
  refine ⟨r, ?_, hrun⟩
  rw [← (value_ring f g).2.1, value, hrun]
  rfl

/-- C89, the quotient, exactly. If it exists, all branches except those of the two forward transforms are determined by the quotient; if not, by
the position of the first root at which the divisor vanishes. -/
theorem C89_quotient (k : Nat) (h1 : 1 ≤ k) (h : k ≤ 10) (f g : List Int16) (hf : f.length = 2 ^ k) (hg : g.length = 2 ^ k) :
    ((∀ x ∈ rootsZ k, (polyQ g).eval x ≠ 0) → ∃ r, DivZq wrap64 f g = .ok (.ok r) ∧
      (Br.DivZq f g).run = .ok (.ok r, forwardConds k f ++ (forwardConds k g ++
        (List.replicate (2 ^ k) false ++ (List.replicate (2 ^ k) true ++ inverseConds k r))))) ∧
    ∀ p x s, rootsZ k = p ++ x :: s → (∀ y ∈ p, (polyQ g).eval y ≠ 0) → (polyQ g).eval x = 0 → DivZq wrap64 f g = .ok (.error .divByZero) ∧
      (Br.DivZq f g).run = .ok (.error .divByZero, forwardConds k f ++ (forwardConds k g ++ (List.replicate p.length false ++ [true]))) := by
  obtain ⟨ft, nf, cf⟩ := C89_forward k h1 h f hf
  obtain ⟨gt, ng, cg⟩ := C89_forward k h1 h g hg
  obtain ⟨ft', ef, lf, rf, -⟩ := NTT_spec wrap64_good k h1 h f hf
  obtain ⟨gt', eg, lg, rg, mg⟩ := NTT_spec wrap64_good k h1 h g hg
  obtain rfl : ft = ft' := Go.ok.inj (nf.symm.trans ef)
  obtain rfl : gt = gt' := Go.ok.inj (ng.symm.trans eg)
  have hlen : ¬ ft.length ≠ gt.length := by omega
  constructor
  · intro hz
    have hgz : ∀ y ∈ gt, y ≠ 0 := by
      intro y hy hc
      have : zq y ∈ gt.map zq := List.mem_map_of_mem hy
      rw [mg, List.mem_map] at this
      obtain ⟨x, hx, h'⟩ := this
      exact hz x hx (h'.trans ((zq_eq_zero_iff (rg y hy)).2 hc))
    obtain ⟨d, cd⟩ := div_true rf rg (by omega) hgz
    have hd : Reduced d ∧ d.length = 2 ^ k := by
      obtain ⟨d', e, ld, dd, -⟩ := divLoop_spec wrap64_good ft gt (by omega) rg hgz
      have hv := value_divLoop ft gt
      rw [value, cd, e] at hv
      obtain rfl : d = d' := Go.ok.inj hv
      exact ⟨dd, by omega⟩
    obtain ⟨r, er, cr⟩ := C89_inverse k h1 h d hd.2 hd.1
    have hrun : (Br.DivZq f g).run = .ok (.ok r, forwardConds k f ++ (forwardConds k g ++
        (List.replicate (2 ^ k) false ++ (List.replicate (2 ^ k) true ++ inverseConds k r)))) := by
      have hd : (Br.divNTT ft gt).run = .ok (.ok d, List.replicate (2 ^ k) false ++ List.replicate (2 ^ k) true) := by
        rw [Br.divNTT, if_neg hlen, run_bind, zero_false hgz, Go.ok_bind, if_neg (by simp), run_bind, cd, Go.ok_bind, run_pure, Go.ok_bind, lf, lg, Go.ok_bind,
          List.append_nil]
      rw [Br.DivZq, run_bind, cf, Go.ok_bind, run_bind, cg, Go.ok_bind, run_bind, hd, Go.ok_bind]
      simp only [run_bind, cr, Go.ok_bind, run_pure, List.append_nil, List.append_assoc]
    refine ⟨r, ?_, hrun⟩
    rw [← (value_ring f g).2.2, value, hrun]
    rfl
  · intro p x s hp hn hx
    rw [hp, List.map_append, List.map_cons] at mg
    obtain ⟨p', q', rfl, hp', hq'⟩ := List.map_eq_append_iff.1 mg
    obtain ⟨y, s', rfl, hy, -⟩ := List.map_eq_cons_iff.1 hq'
    have hy0 : y = 0 := (zq_eq_zero_iff (rg y (by simp))).1 (hy.trans hx)
    subst hy0
    have hpl : p'.length = p.length := by
      have := congrArg List.length hp'
      simpa using this
    have hpz : ∀ z ∈ p', z ≠ 0 := by
      intro z hz hc
      have : zq z ∈ p'.map zq := List.mem_map_of_mem hz
      rw [hp', List.mem_map] at this
      obtain ⟨t, ht, h'⟩ := this
      exact hn t ht (h'.trans ((zq_eq_zero_iff (rg z (by simp [hz]))).2 hc))
    have hrun : (Br.DivZq f g).run = .ok (.error .divByZero, forwardConds k f ++ (forwardConds k g ++ (List.replicate p.length false ++ [true]))) := by
      have hd : (Br.divNTT ft (p' ++ 0 :: s')).run = .ok (.error .divByZero, List.replicate p.length false ++ [true]) := by
        rw [Br.divNTT, if_neg hlen, run_bind, zero_true hpz rfl, Go.ok_bind, if_pos rfl, run_pure, Go.ok_bind, hpl, List.append_nil]
      rw [Br.DivZq, run_bind, cf, Go.ok_bind, run_bind, cg, Go.ok_bind, run_bind, hd, Go.ok_bind]
      simp only [Go.ok_bind, run_pure, List.append_nil]
    refine ⟨?_, hrun⟩
    rw [← (value_ring f g).2.2, value, hrun]
    rfl

/-- C89, `GetPublicKey`: for two private keys with the same public key, the branches differ only within the two forward transforms, the first
`2 k 2^k` conditions. -/
theorem C89_public_key (k : Nat) (h1 : 1 ≤ k) (h : k ≤ 10) (f g f' g' hh : List Int16) (hf : f.length = 2 ^ k) (hg : g.length = 2 ^ k)
    (hf' : f'.length = 2 ^ k) (hg' : g'.length = 2 ^ k) (l l' : List Bool) (hr : (Br.DivZq g f).run = .ok (.ok hh, l))
    (hr' : (Br.DivZq g' f').run = .ok (.ok hh, l')) :
    l.length = l'.length ∧ l.drop (2 * (k * 2 ^ k)) = l'.drop (2 * (k * 2 ^ k)) := by
  have key : ∀ (f g : List Int16) (l : List Bool), f.length = 2 ^ k → g.length = 2 ^ k → (Br.DivZq g f).run = .ok (.ok hh, l) →
      ∃ p, l = p ++ (List.replicate (2 ^ k) false ++ (List.replicate (2 ^ k) true ++ inverseConds k hh)) ∧ p.length = 2 * (k * 2 ^ k) := by
    intro f g l hf hg hr
    have hlen : ∀ f : List Int16, f.length = 2 ^ k → (forwardConds k f).length = k * 2 ^ k := by
      intro f hf
      obtain ⟨r, -, e⟩ := C89_forward k h1 h f hf
      obtain ⟨r', l, e', hl⟩ := C89_count k h1 h f hf
      rw [e] at e'
      simp only [Go.ok.injEq, Prod.mk.injEq] at e'
      rw [e'.2, hl]
    obtain ⟨q1, q2⟩ := C89_quotient k h1 h g f hg hf
    by_cases hz : ∀ x ∈ rootsZ k, (polyQ f).eval x ≠ 0
    · obtain ⟨r, -, e⟩ := q1 hz
      rw [hr] at e
      simp only [Go.ok.injEq, Prod.mk.injEq, Except.ok.injEq] at e
      obtain ⟨rfl, rfl⟩ := e
      exact ⟨forwardConds k g ++ forwardConds k f, by rw [List.append_assoc], by rw [List.length_append, hlen g hg, hlen f hf]; ring⟩
    · push Not at hz
      have h2 := (DivZq_spec wrap64_good k h1 h g f hg hf).2 hz
      rw [← (value_ring g f).2.2, value, hr] at h2
      cases h2
  obtain ⟨p, rfl, hp⟩ := key f g l hf hg hr
  obtain ⟨p', rfl, hp'⟩ := key f' g' l' hf' hg' hr'
  refine ⟨by simp [hp, hp'], ?_⟩
  rw [← hp, List.drop_left, hp, ← hp', List.drop_left]

/-- Two pairs with the same quotient at degree 2, `(1 + 2x)/(3 + x)` and the same with all signs changed: the first four of the ten conditions
differ, the others agree. -/
example :
    (Br.DivZq [1, 2] [3, 1]).run = .ok (.ok [6145, 6145], [true, false, true, false, false, false, true, true, true, false]) ∧
    (Br.DivZq [-1, -2] [-3, -1]).run = .ok (.ok [6145, 6145], [false, true, false, true, false, false, true, true, true, false]) := by
  decide +kernel

end Falcon
