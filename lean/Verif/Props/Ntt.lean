import Verif.Lemmas.Ntt2
/-!
# Properties C08–C15: NTT arithmetic

`NTT wrap64`, `INTT wrap64`, `MulZq wrap64`, ... are the Go functions (64-bit wrap-around arithmetic). Specification:
polynomials over `ZMod 12289` (`Verif.Spec.Poly`).
-/

namespace Falcon
open Spec Polynomial

/-- C08. Both compositions are the coefficientwise reduction into `[0,q)`. -/
theorem C08_ntt_intt_inverse (k : Nat) (h1 : 1 ≤ k) (h : k ≤ 10) (f : List Int16) (hf : f.length = 2 ^ k) :
    (do INTT wrap64 (← NTT wrap64 f)) = .ok (f.map fun x => Int16.ofInt (x.toInt % 12289)) ∧
    (do NTT wrap64 (← INTT wrap64 f)) = .ok (f.map fun x => Int16.ofInt (x.toInt % 12289)) := by
  constructor
  · obtain ⟨r, er, lr, rr, mr⟩ := NTT_spec wrap64_good k h1 h f hf
    obtain ⟨s, es, ls, rs, ms⟩ := INTT_spec wrap64_good k h1 h r lr
    rw [er, Go.ok_bind, es]
    congr 1
    apply eq_of_values h1 h ls ((redQ_length f).trans hf) rs (redQ_reduced f)
    intro x hx
    rw [redQ_polyQ]
    rw [mr] at ms
    exact (map_eq_iff_forall.1 ms x hx).symm
  · obtain ⟨r, er, lr, rr, mr⟩ := INTT_spec wrap64_good k h1 h f hf
    obtain ⟨s, es, ls, rs, ms⟩ := NTT_spec wrap64_good k h1 h r lr
    rw [er, Go.ok_bind, es]
    congr 1
    apply map_zq_inj rs (redQ_reduced f)
    rw [redQ_zq, ms, mr]

/-- C09. Output `i` is the value in `[0,q)` of the polynomial at the `i`-th tabulated root; the table has `n` distinct roots of `x^n+1`. -/
theorem C09_ntt_is_evaluation (k : Nat) (h1 : 1 ≤ k) (h : k ≤ 10) (f : List Int16) (hf : f.length = 2 ^ k) :
    ∃ r, NTT wrap64 f = .ok r ∧ Reduced r ∧
      r.map zq = (roots_dict_Zq (Int16.ofNat (2 ^ k))).map (fun a : Nat => (polyQ f).eval (a : Zq)) ∧
      ((roots_dict_Zq (Int16.ofNat (2 ^ k))).map (fun a : Nat => (a : Zq))).Nodup ∧
      (roots_dict_Zq (Int16.ofNat (2 ^ k))).length = 2 ^ k ∧
      ∀ a ∈ roots_dict_Zq (Int16.ofNat (2 ^ k)), (a : Zq) ^ 2 ^ k + 1 = 0 := by
  obtain ⟨r, e, l, rr, m⟩ := NTT_spec wrap64_good k h1 h f hf
  have hlev : roots_dict_Zq (Int16.ofNat (2 ^ k)) = level k := by unfold level; rfl
  rw [hlev]
  refine ⟨r, e, rr, ?_, rootsZ_nodup k h1 h, level_length k (by omega) h1, ?_⟩
  · rw [m, rootsZ, wz, List.map_map]; rfl
  · intro a ha
    rw [rootsZ_root k h1 h a (List.mem_map_of_mem ha)]
    ring

/-- C10. `MulZq` is the product in Z_q[x]/(x^n+1). -/
theorem C10_mulzq_is_product (k : Nat) (h1 : 1 ≤ k) (h : k ≤ 10) (f g : List Int16)
    (hf : f.length = 2 ^ k) (hg : g.length = 2 ^ k) :
    ∃ r, MulZq wrap64 f g = .ok r ∧ IsProduct (2 ^ k) f g r ∧ ∀ s, IsProduct (2 ^ k) f g s → s = r := by
  obtain ⟨r, e, hr⟩ := MulZq_spec wrap64_good k h1 h f g hf hg
  exact ⟨r, e, hr, fun s hs => isProduct_unique h1 h hs hr⟩

/-- Non-vacuous: the product of `x` and `x^3 - 5` modulo `x^4+1` is `-5x - 1`. -/
example : IsProduct 4 [0, 1, 0, 0] [-5, 0, 0, 1] [12288, 12284, 0, 0] := by
  refine ⟨rfl, ?_, 1, ?_⟩
  · intro x hx; simp at hx; rcases hx with rfl | rfl | rfl <;> decide
  · have h0 : ((12289 : Nat) : Zq) = 0 := ZMod.natCast_self 12289
    have h1 : zq 12288 = -1 := by decide
    have h2 : zq 12284 = -5 := by decide
    have h3 : zq (-5) = -5 := by decide
    have h4 : zq 0 = 0 := by decide
    have h5 : zq 1 = 1 := by decide
    simp only [polyQ, List.map_cons, List.map_nil, poly_cons, poly_nil, h1, h2, h3, h4, h5, C_0, C_1, C_neg]
    ring

/-- C11, commutativity. -/
theorem C11_mulzq_comm (k : Nat) (h1 : 1 ≤ k) (h : k ≤ 10) (f g : List Int16)
    (hf : f.length = 2 ^ k) (hg : g.length = 2 ^ k) : MulZq wrap64 f g = MulZq wrap64 g f := by
  obtain ⟨r, er, lr, rr, vr⟩ := MulZq_values wrap64_good k h1 h f g hf hg
  obtain ⟨s, es, ls, rs, vs⟩ := MulZq_values wrap64_good k h1 h g f hg hf
  rw [er, es, eq_of_values h1 h lr ls rr rs fun x hx => by rw [vr x hx, vs x hx, mul_comm]]

/-- C11, associativity. -/
theorem C11_mulzq_assoc (k : Nat) (h1 : 1 ≤ k) (h : k ≤ 10) (f g e : List Int16)
    (hf : f.length = 2 ^ k) (hg : g.length = 2 ^ k) (he : e.length = 2 ^ k) :
    (do MulZq wrap64 (← MulZq wrap64 f g) e) = (do MulZq wrap64 f (← MulZq wrap64 g e)) ∧
    ∃ r, (do MulZq wrap64 f (← MulZq wrap64 g e)) = .ok r := by
  obtain ⟨r, er, lr, rr, vr⟩ := MulZq_values wrap64_good k h1 h f g hf hg
  obtain ⟨s, es, ls, rs, vs⟩ := MulZq_values wrap64_good k h1 h g e hg he
  obtain ⟨t, et, lt, rt, vt⟩ := MulZq_values wrap64_good k h1 h r e lr he
  obtain ⟨u, eu, lu, ru, vu⟩ := MulZq_values wrap64_good k h1 h f s hf ls
  rw [er, es, Go.ok_bind, Go.ok_bind, et, eu]
  refine ⟨?_, u, rfl⟩
  rw [eq_of_values h1 h lt lu rt ru fun x hx => by rw [vt x hx, vu x hx, vr x hx, vs x hx, mul_assoc]]

/-- C11, unit: multiplying by `[1,0,...,0]` only reduces. -/
theorem C11_mulzq_one (k : Nat) (h1 : 1 ≤ k) (h : k ≤ 10) (f : List Int16) (hf : f.length = 2 ^ k) :
    MulZq wrap64 f (1 :: List.replicate (2 ^ k - 1) 0) = .ok (f.map fun x => Int16.ofInt (x.toInt % 12289)) := by
  have hpos : 1 ≤ 2 ^ k := Nat.one_le_two_pow
  obtain ⟨r, er, lr, rr, vr⟩ := MulZq_values wrap64_good k h1 h f (1 :: List.replicate (2 ^ k - 1) 0) hf (by simp; omega)
  rw [er]
  congr 1
  apply eq_of_values h1 h lr ((redQ_length f).trans hf) rr (redQ_reduced f)
  intro x hx
  rw [vr x hx, redQ_polyQ]
  have hz : ∀ m, polyQ (List.replicate m 0) = 0 := by
    intro m
    induction m with
    | zero => rfl
    | succ m ih =>
      have h0 : zq 0 = 0 := by decide
      simp only [polyQ, List.replicate_succ, List.map_cons, poly_cons, h0] at ih ⊢
      rw [ih]; simp
  have h1' : polyQ (1 :: List.replicate (2 ^ k - 1) 0) = 1 := by
    have := hz (2 ^ k - 1)
    have h0 : zq 1 = 1 := by decide
    simp only [polyQ, List.map_cons, poly_cons, h0] at this ⊢
    rw [this]; simp
  rw [h1']
  simp

/-- C11, distributivity over `SubZq` (operands of `SubZq` in `[0,q)`, see C13). -/
theorem C11_mulzq_distrib (k : Nat) (h1 : 1 ≤ k) (h : k ≤ 10) (f g e : List Int16)
    (hf : f.length = 2 ^ k) (hg : g.length = 2 ^ k) (he : e.length = 2 ^ k) (rg : Reduced g) (re : Reduced e) :
    (do MulZq wrap64 f (← SubZq g e)) = (do SubZq (← MulZq wrap64 f g) (← MulZq wrap64 f e)) ∧
    ∃ r, (do MulZq wrap64 f (← SubZq g e)) = .ok r := by
  obtain ⟨d, ed, ld, rd, pd⟩ := SubZq_poly g e (hg.trans he.symm) (reduced_le rg) (reduced_ne re)
  obtain ⟨r, er, lr, rr, vr⟩ := MulZq_values wrap64_good k h1 h f g hf hg
  obtain ⟨s, es, ls, rs, vs⟩ := MulZq_values wrap64_good k h1 h f e hf he
  obtain ⟨t, et, lt, rt, vt⟩ := MulZq_values wrap64_good k h1 h f d hf (ld.trans hg)
  obtain ⟨u, eu, lu, ru, pu⟩ := SubZq_poly r s (lr.trans ls.symm) (reduced_le rr) (reduced_ne rs)
  rw [ed, er, es, Go.ok_bind, Go.ok_bind, Go.ok_bind, et, eu]
  refine ⟨?_, t, rfl⟩
  rw [eq_of_values h1 h lt (lu.trans lr) rt ru fun x hx => by
    rw [vt x hx, pd, pu, eval_sub, eval_sub, vr x hx, vs x hx]; ring]

/-- C12. `DivZq` divides exactly when the divisor is invertible modulo `x^n+1`, and reports division by zero otherwise. -/
theorem C12_divzq (k : Nat) (h1 : 1 ≤ k) (h : k ≤ 10) (f g : List Int16) (hf : f.length = 2 ^ k) (hg : g.length = 2 ^ k) :
    ((∃ u : Zq[X], (X ^ 2 ^ k + 1 : Zq[X]) ∣ polyQ g * u - 1) →
      ∃ r, DivZq wrap64 f g = .ok (.ok r) ∧ r.length = 2 ^ k ∧ Reduced r ∧
        (X ^ 2 ^ k + 1 : Zq[X]) ∣ polyQ r * polyQ g - polyQ f) ∧
    ((¬ ∃ u : Zq[X], (X ^ 2 ^ k + 1 : Zq[X]) ∣ polyQ g * u - 1) →
      DivZq wrap64 f g = .ok (.error .divByZero)) := by
  have hd := fun p => dvd_iff_eval (K := Zq) (n := 2 ^ k) (by positivity) (rootsZ k) (rootsZ_length k h1 h)
    (rootsZ_nodup k h1 h) (rootsZ_root k h1 h) p
  obtain ⟨hok, herr⟩ := DivZq_spec wrap64_good k h1 h f g hf hg
  have hiff : (∃ u : Zq[X], (X ^ 2 ^ k + 1 : Zq[X]) ∣ polyQ g * u - 1) ↔ ∀ x ∈ rootsZ k, (polyQ g).eval x ≠ 0 := by
    constructor
    · rintro ⟨u, hu⟩ x hx h0
      have := (hd _).1 hu x hx
      simp [h0] at this
    · intro hnz
      have hpos : 1 ≤ 2 ^ k := Nat.one_le_two_pow
      obtain ⟨r, er, lr, rr, vr⟩ := (DivZq_spec wrap64_good k h1 h (1 :: List.replicate (2 ^ k - 1) 0) g
        (by simp; omega) hg).1 hnz
      refine ⟨polyQ r, (hd _).2 ?_⟩
      intro x hx
      have := vr x hx
      have h1' : polyQ (1 :: List.replicate (2 ^ k - 1) 0) = 1 := by
        have hz : ∀ m, poly (List.map zq (List.replicate m 0)) = 0 := by
          intro m
          induction m with
          | zero => rfl
          | succ m ih =>
            have h0 : zq 0 = 0 := by decide
            simp only [List.replicate_succ, List.map_cons, poly_cons, h0, ih]; simp
        have h0 : zq 1 = 1 := by decide
        simp only [polyQ, List.map_cons, poly_cons, h0, hz]; simp
      rw [h1', eval_one] at this
      simp only [eval_sub, eval_mul, eval_one]
      rw [mul_comm, this, sub_self]
  constructor
  · intro hu
    obtain ⟨r, er, lr, rr, vr⟩ := hok (hiff.1 hu)
    refine ⟨r, er, lr, rr, (hd _).2 ?_⟩
    intro x hx
    simp only [eval_sub, eval_mul]
    rw [vr x hx, sub_self]
  · intro hu
    apply herr
    by_contra hc
    apply hu
    rw [hiff]
    intro x hx h0
    exact hc ⟨x, hx, h0⟩

/-- Both branches of C12 occur: `1` is invertible modulo `x^4+1`, `0` is not. -/
example : (∃ u : Zq[X], (X ^ 2 ^ 2 + 1 : Zq[X]) ∣ polyQ [1, 0, 0, 0] * u - 1) ∧
    ¬ ∃ u : Zq[X], (X ^ 2 ^ 2 + 1 : Zq[X]) ∣ polyQ [0, 0, 0, 0] * u - 1 := by
  have h0 : zq 0 = 0 := by decide
  have h1 : zq 1 = 1 := by decide
  constructor
  · exact ⟨1, 0, by simp [polyQ, h0, h1]⟩
  · rintro ⟨u, hu⟩
    have := (dvd_iff_eval (K := Zq) (n := 2 ^ 2) (by positivity) (rootsZ 2) (rootsZ_length 2 (by decide) (by decide))
      (rootsZ_nodup 2 (by decide) (by decide)) (rootsZ_root 2 (by decide) (by decide)) _).1 hu
    have hl := rootsZ_length 2 (by decide) (by decide)
    match hr : rootsZ 2, hl with
    | x :: _, _ =>
      rw [hr] at this
      have := this x (by simp)
      simp [polyQ, h0] at this

/-- C13, what holds: subtraction mod q, for `f` below 20480 and `g` without -32768 (in particular for all inputs in `[0,q)`). -/
theorem C13_subzq_partial (f g : List Int16) (h : f.length = g.length) (hf : ∀ x ∈ f, x.toInt ≤ 20479)
    (hg : ∀ y ∈ g, y ≠ -32768) :
    ∃ r, SubZq f g = .ok r ∧ r.length = f.length ∧ Reduced r ∧ r.map zq = List.zipWith (fun x y => zq x - zq y) f g :=
  SubZq_spec f g h hf hg

theorem sub_arith {X Y NY Z S : Int} (hx : -32768 ≤ X ∧ X ≤ 32767) (hy : -32768 ≤ Y ∧ Y ≤ 32767) (hz : Z = NY % 12289)
    (hs : S = (X + Z).bmod (2 ^ 16)) (hn : NY = (-Y).bmod (2 ^ 16)) :
    S % 12289 = (X - Y) % 12289 ↔ ¬ Y = -32768 ∧ X + (-Y) % 12289 ≤ 32767 := by
  have hZ : 0 ≤ Z ∧ Z < 12289 := by rw [hz]; omega
  have hS : (X + Z ≤ 32767 ∧ S = X + Z) ∨ (32767 < X + Z ∧ S = X + Z - 65536) := by
    rw [hs, Int.bmod_def]
    split <;> omega
  have hN : (Y = -32768 ∧ NY = -32768) ∨ (Y ≠ -32768 ∧ NY = -Y) := by
    rw [hn, Int.bmod_def]
    split <;> omega
  clear hs hn
  rcases hN with ⟨h1, rfl⟩ | ⟨h1, rfl⟩
  · subst h1
    have : Z = 4099 := by omega
    subst this
    rcases hS with ⟨h2, rfl⟩ | ⟨h2, rfl⟩ <;> omega
  · rcases hS with ⟨h2, rfl⟩ | ⟨h2, rfl⟩
    · refine ⟨fun _ => ⟨h1, by omega⟩, fun _ => by omega⟩
    · refine ⟨fun h => ?_, fun h => by omega⟩
      exfalso
      omega

/-- C13 is violated outside: the exact condition on one pair of coefficients. The result is always in `[0,q)`. -/
theorem C13_subzq_exact (x y : Int16) :
    ∃ r, SubZq [x] [y] = .ok [r] ∧ 0 ≤ r.toInt ∧ r.toInt < 12289 ∧
      (zq r = zq x - zq y ↔ y ≠ -32768 ∧ x.toInt + (-y.toInt) % 12289 ≤ 32767) := by
  refine ⟨reduceQ (x + reduceQ (-y).toInt).toInt, by simp [SubZq, addZq, negZq, addLoop], reduceQ_red _ |>.1, reduceQ_red _ |>.2, ?_⟩
  have hx := i16_bounds x
  have hy := i16_bounds y
  have hz := reduceQ_toInt (-y).toInt
  have hs := Int16.toInt_add x (reduceQ (-y).toInt)
  have hn := Int16.toInt_neg y
  have hy0 : y = -32768 ↔ y.toInt = -32768 := ⟨fun h => by rw [h]; rfl, fun h => Int16.toInt_inj.1 (h.trans rfl)⟩
  have key : zq (reduceQ (x + reduceQ (-y).toInt).toInt) = zq x - zq y ↔
      (x + reduceQ (-y).toInt).toInt % 12289 = (x.toInt - y.toInt) % 12289 := by
    rw [zq_reduceQ]
    unfold zq
    rw [← Int.cast_sub]
    exact ZMod.intCast_eq_intCast_iff' _ _ _
  rw [key, ne_eq, hy0]
  exact sub_arith hx hy hz hs hn

/-- The violation occurs: 30000 - (-5000). -/
example : SubZq [30000] [-5000] = .ok [6331] ∧ (30000 - -5000) % 12289 = 10422 := by decide +kernel

/-- C15 for `SubZq`: it panics exactly on operands of different lengths, and otherwise returns a vector of the common length. -/
theorem C15_subzq_lengths (f g : List Int16) : (SubZq f g = .panic ↔ f.length ≠ g.length) ∧
    (f.length = g.length → ∃ r, SubZq f g = .ok r ∧ r.length = f.length) := by
  have hl : ∀ f g : List Int16, f.length = g.length → (addLoop f g).length = f.length := by
    intro f
    induction f with
    | nil => intro g h; cases g <;> simp [addLoop]
    | cons x f ih =>
      intro g h
      cases g with
      | nil => simp at h
      | cons y g => simp only [addLoop, List.length_cons] at h ⊢; rw [ih g (by omega)]
  unfold SubZq addZq
  rw [show (negZq g).length = g.length by simp [negZq]]
  constructor
  · by_cases h : f.length = g.length <;> simp [h]
  · intro h
    rw [if_neg (by simpa using h)]
    exact ⟨_, rfl, hl f _ (by simp [negZq, h])⟩
example : SubZq [1, 2] [3] = .panic ∧ SubZq [1, 2] [3, 4] = .ok [12287, 12287] := by decide +kernel

/-- C14. With arithmetic that fails on any 64-bit overflow the results are the same, they exist, and they are reduced. -/
theorem C14_no_overflow (k : Nat) (h1 : 1 ≤ k) (h : k ≤ 10) (f g : List Int16) (hf : f.length = 2 ^ k) (hg : g.length = 2 ^ k) :
    (∃ r, NTT check64 f = .ok r ∧ NTT wrap64 f = .ok r ∧ Reduced r) ∧
    (∃ r, INTT check64 f = .ok r ∧ INTT wrap64 f = .ok r ∧ Reduced r) ∧
    (∃ r, MulZq check64 f g = .ok r ∧ MulZq wrap64 f g = .ok r ∧ Reduced r) ∧
    (∃ r, DivZq check64 f g = .ok r ∧ DivZq wrap64 f g = .ok r ∧ ∀ d, r = .ok d → Reduced d) := by
  refine ⟨?_, ?_, ?_, ?_⟩
  · obtain ⟨r, er, lr, rr, vr⟩ := NTT_spec wrap64_good k h1 h f hf
    obtain ⟨s, es, ls, rs, vs⟩ := NTT_spec check64_good k h1 h f hf
    have := map_zq_inj rr rs (vr.trans vs.symm)
    subst this
    exact ⟨r, es, er, rr⟩
  · obtain ⟨r, er, lr, rr, vr⟩ := INTT_spec wrap64_good k h1 h f hf
    obtain ⟨s, es, ls, rs, vs⟩ := INTT_spec check64_good k h1 h f hf
    have := eq_of_values h1 h lr ls rr rs (map_eq_iff_forall.1 (vr.symm.trans vs))
    subst this
    exact ⟨r, es, er, rr⟩
  · obtain ⟨r, er, lr, rr, vr⟩ := MulZq_values wrap64_good k h1 h f g hf hg
    obtain ⟨s, es, ls, rs, vs⟩ := MulZq_values check64_good k h1 h f g hf hg
    have := eq_of_values h1 h lr ls rr rs fun x hx => (vr x hx).trans (vs x hx).symm
    subst this
    exact ⟨r, es, er, rr⟩
  · obtain ⟨hok, herr⟩ := DivZq_spec wrap64_good k h1 h f g hf hg
    obtain ⟨hok', herr'⟩ := DivZq_spec check64_good k h1 h f g hf hg
    by_cases hz : ∀ x ∈ rootsZ k, (polyQ g).eval x ≠ 0
    · obtain ⟨r, er, lr, rr, vr⟩ := hok hz
      obtain ⟨s, es, ls, rs, vs⟩ := hok' hz
      have := eq_of_values h1 h lr ls rr rs fun x hx => by
        have := (vr x hx).trans (vs x hx).symm
        exact mul_right_cancel₀ (hz x hx) this
      subst this
      exact ⟨.ok r, es, er, fun d hd => by cases hd; exact rr⟩
    · have hz' : ∃ x ∈ rootsZ k, (polyQ g).eval x = 0 := by
        by_contra hc
        exact hz fun x hx h0 => hc ⟨x, hx, h0⟩
      exact ⟨_, herr' hz', herr hz', fun d hd => by cases hd⟩

/-- The number of coefficients that an operand of length `n` contributes: `2^k` for `2^k ≤ n < 3*2^(k-1)` (`k ≥ 1`),
nothing otherwise. -/
def effLen (n : Nat) : Nat :=
  let p := 2 ^ n.log2
  if 2 ≤ n ∧ n < p + p / 2 then p else 0

theorem effLen_cases (f : List Int16) :
    (effLen f.length = 0 ∧ NTT wrap64 f = .ok []) ∨
    (1024 < effLen f.length ∧ NTT wrap64 f = .panic) ∨
    (∃ k, 1 ≤ k ∧ k ≤ 10 ∧ effLen f.length = 2 ^ k ∧ 2 ^ k ≤ f.length ∧ NTT wrap64 f = NTT wrap64 (f.take (2 ^ k))) := by
  unfold effLen
  by_cases h2 : f.length < 2
  · left
    rw [if_neg (by omega)]
    exact ⟨rfl, NTT_short f (by omega)⟩
  · have hlo : 2 ^ f.length.log2 ≤ f.length := Nat.log2_self_le (by omega)
    have hhi : f.length < 2 ^ (f.length.log2 + 1) := Nat.lt_log2_self
    have hl : 1 ≤ f.length.log2 := by
      by_contra hc
      have : f.length.log2 = 0 := by omega
      rw [this] at hhi
      omega
    obtain ⟨j, hj⟩ : ∃ j, f.length.log2 = j + 1 := ⟨f.length.log2 - 1, by omega⟩
    rw [hj] at hlo hhi ⊢
    have e1 : 2 ^ (j + 1) = 2 * 2 ^ j := by rw [pow_succ]; omega
    have e2 : 2 ^ (j + 1 + 1) = 4 * 2 ^ j := by rw [pow_succ, pow_succ]; omega
    simp only
    by_cases hc : f.length < 3 * 2 ^ j
    · rw [if_pos (by omega)]
      by_cases hk : j + 1 ≤ 10
      · right; right
        exact ⟨j + 1, by omega, hk, rfl, hlo, NTT_take (j + 1) (by omega) f hlo (by simpa using hc)⟩
      · right; left
        refine ⟨?_, NTT_panic wrap64_good (j + 1) (by omega) f hlo (by simpa using hc)⟩
        calc 1024 < 2 ^ 11 := by decide
          _ ≤ 2 ^ (j + 1) := Nat.pow_le_pow_right (by decide) (by omega)
    · rw [if_neg (by omega)]
      left
      exact ⟨rfl, NTT_empty j f (by omega) (by omega)⟩

/-- C15, exact behaviour of `MulZq` for all operand lengths: it panics when the two effective lengths differ or exceed
1024; otherwise it multiplies the first `effLen` coefficients and silently ignores the others. -/
theorem C15_mulzq_all_lengths_partial (f g : List Int16) :
    ((effLen f.length ≠ effLen g.length ∨ 1024 < effLen f.length) → MulZq wrap64 f g = .panic) ∧
    (effLen f.length = 0 → effLen g.length = 0 → MulZq wrap64 f g = .ok []) ∧
    (effLen f.length = effLen g.length → 0 < effLen f.length → effLen f.length ≤ 1024 →
      ∃ r, MulZq wrap64 f g = .ok r ∧
        IsProduct (effLen f.length) (f.take (effLen f.length)) (g.take (effLen f.length)) r) := by
  have hI : INTT wrap64 [] = .ok [] := by rw [INTT]; simp
  rcases effLen_cases f with ⟨ef, nf⟩ | ⟨ef, nf⟩ | ⟨k, hk1, hk2, ef, lf, nf⟩
  · rcases effLen_cases g with ⟨eg, ng⟩ | ⟨eg, ng⟩ | ⟨j, hj1, hj2, eg, lg, ng⟩
    · refine ⟨fun h => ?_, fun _ _ => ?_, fun _ h => ?_⟩
      · omega
      · simp [MulZq, nf, ng, mulNTT, mulLoop, hI]
      · omega
    · refine ⟨fun h => ?_, fun _ _ => ?_, fun _ h => ?_⟩
      · simp [MulZq, nf, ng]
      · omega
      · omega
    · obtain ⟨r, er, lr, _⟩ := NTT_spec wrap64_good j hj1 hj2 (g.take (2 ^ j)) (by simpa using lg)
      have hpos : 0 < 2 ^ j := Nat.two_pow_pos j
      refine ⟨fun h => ?_, fun _ _ => ?_, fun _ h => ?_⟩
      · simp only [MulZq, nf, ng, er, Go.ok_bind, mulNTT, lr]
        rw [if_pos (by simp only [List.length_nil]; omega)]
        rfl
      · omega
      · omega
  · refine ⟨fun h => ?_, fun _ _ => ?_, fun _ h => ?_⟩
    · simp [MulZq, nf]
    · omega
    · omega
  · obtain ⟨r, er, lr, _⟩ := NTT_spec wrap64_good k hk1 hk2 (f.take (2 ^ k)) (by simpa using lf)
    have hpos : 0 < 2 ^ k := Nat.two_pow_pos k
    have hle : 2 ^ k ≤ 2 ^ 10 := Nat.pow_le_pow_right (by decide) hk2
    rcases effLen_cases g with ⟨eg, ng⟩ | ⟨eg, ng⟩ | ⟨j, hj1, hj2, eg, lg, ng⟩
    · refine ⟨fun h => ?_, fun _ _ => ?_, fun _ h => ?_⟩
      · simp only [MulZq, nf, ng, er, Go.ok_bind, mulNTT, lr]
        rw [if_pos (by simp)]
        rfl
      · omega
      · omega
    · refine ⟨fun h => ?_, fun _ _ => ?_, fun _ h => ?_⟩
      · simp [MulZq, nf, er, ng]
      · omega
      · omega
    · obtain ⟨s, es, ls, _⟩ := NTT_spec wrap64_good j hj1 hj2 (g.take (2 ^ j)) (by simpa using lg)
      refine ⟨fun h => ?_, fun _ _ => ?_, fun h _ _ => ?_⟩
      · simp only [MulZq, nf, ng, er, es, Go.ok_bind, mulNTT, lr, ls]
        rw [if_pos (by omega)]
        rfl
      · omega
      · have hjk : j = k := Nat.pow_right_injective (le_refl 2) (by simpa using (ef.symm.trans (h.trans eg)).symm)
        subst hjk
        obtain ⟨t, et, ht⟩ := MulZq_spec wrap64_good j hj1 hj2 (f.take (2 ^ j)) (g.take (2 ^ j)) (by simpa using lf)
          (by simpa using lg)
        refine ⟨t, ?_, by rw [ef]; exact ht⟩
        simp only [MulZq] at et ⊢
        rw [nf, ng]
        exact et

/-- C15 is violated: for every supported degree `2^k`, `k ≥ 2`, operands with up to `2^(k-1)-1` surplus coefficients give the
same result as without them, whatever their values, and operands of lengths 3, 6 and 7 give an empty product. -/
theorem C15_violated_surplus_ignored (k : Nat) (h1 : 1 ≤ k) (f g t : List Int16)
    (hf : f.length = 2 ^ k) (ht : t.length < 2 ^ (k - 1)) : MulZq wrap64 (f ++ t) g = MulZq wrap64 f g := by
  have e1 : 2 ^ k = 2 * 2 ^ (k - 1) := by
    obtain ⟨j, rfl⟩ : ∃ j, k = j + 1 := ⟨k - 1, by omega⟩
    rw [pow_succ]; simp; omega
  have := NTT_take (W := wrap64) k h1 (f ++ t) (by simp; omega) (by simp; omega)
  rw [← hf, List.take_left] at this
  simp only [MulZq, this]

/-- C15 is violated: lengths between `3*2^k` and `4*2^k-1` give an empty product. -/
theorem C15_violated_empty_product (k j : Nat) (f g : List Int16) (hf : 3 * 2 ^ k ≤ f.length ∧ f.length < 4 * 2 ^ k)
    (hg : 3 * 2 ^ j ≤ g.length ∧ g.length < 4 * 2 ^ j) : MulZq wrap64 f g = .ok [] := by
  have hI : INTT wrap64 [] = .ok [] := by rw [INTT]; simp
  simp [MulZq, NTT_empty k f hf.1 hf.2, NTT_empty j g hg.1 hg.2, mulNTT, mulLoop, hI]

/-- The three regions of C15 are inhabited. -/
example : effLen 512 = 512 ∧ effLen 767 = 512 ∧ effLen 768 = 0 ∧ effLen 2048 = 2048 ∧ effLen 1 = 0 ∧ effLen 1535 = 1024 := by
  decide +kernel

end Falcon
