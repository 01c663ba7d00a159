import Verif.Lemmas.Parity
import Verif.Props.GsDegree
import Verif.Props.EquationSmall
import Verif.Props.Degree2
/-!
# Candidates for which the solver ends (C70)

A tie needs `f` and `g` whose values at 1 are both odd: if the coefficients of `f` and `g` add up to an odd number, no quotient that occurs in the
solver has a coefficient halfway between two integers. In exact arithmetic the solver then ends.
-/

namespace Falcon
open Spec Polynomial

/-! ### inner levels -/

/-- A pair that is not too small at any root, with bounded coefficients, is tame. -/
theorem tame_of {k : Nat} {f g : List Int} (lf : f.length = 2 ^ k) (lg : g.length = 2 ^ k) (L B : ℝ) (hB : 0 < B)
    (hd : ∀ w ∈ rootsC k, 1 / B ^ 2 ≤ gramAt f g w) (hf : l1 (realI f) ≤ L) (hg : l1 (realI g) ≤ L)
    (hb : L / 2 + B * (2 ^ k * (12289 + 2 * L)) < 2 ^ 44) : Tame k f g := by
  have L0 : 0 ≤ L := (l1_nonneg _).trans hf
  have ne : ∀ w ∈ rootsC k, evalR (realI f) w ≠ 0 ∨ evalR (realI g) w ≠ 0 := by
    intro w hw
    by_contra hc
    push Not at hc
    have := hd w hw
    rw [gramAt, hc.1, hc.2, map_zero, add_zero] at this
    have h0 : 0 < 1 / B ^ 2 := by positivity
    linarith
  have hc := gram_coprime k (realI f) (realI g) (by rw [realI_length, lf]) (by rw [realI_length, lg]) ne
  refine ⟨lf, lg, ne, ?_, ?_⟩
  · intro v hv
    have h1 : |(v : ℝ)| ≤ L := by
      rcases List.mem_append.1 hv with hv | hv
      · exact (List.single_le_sum (by simp) _ (List.mem_map_of_mem (List.mem_map_of_mem hv))).trans hf
      · exact (List.single_le_sum (by simp) _ (List.mem_map_of_mem (List.mem_map_of_mem hv))).trans hg
    have h2 : |(v : ℝ)| < 2 ^ 48 := by
      have : 0 ≤ B * (2 ^ k * (12289 + 2 * L)) := by positivity
      linarith
    have h3 : |v| < 2 ^ 48 := by exact_mod_cast h2
    rw [Int.abs_eq_natAbs] at h3
    exact_mod_cast h3
  · intro F G s κ hs hκ hle
    obtain ⟨D, lD, hD, d4⟩ := shift_det_l1 k f g F G hs.lF hs.lG hs.det s
    obtain ⟨Ft, hFt, d2⟩ := exists_div k (poly (adjList (realI f))) _ hc
    obtain ⟨Gt, hGt, d3⟩ := exists_div k (poly (adjList (realI g))) _ hc
    obtain ⟨bF, bG⟩ := gram_inv_bound k _ _ Ft Gt (by rw [realI_length, lf]) (by rw [realI_length, lg]) hFt hGt B hB hd d2 d3
    obtain ⟨r1, r2⟩ := core_bound k (realI f) (realI g) _ _ κ Ft Gt D (by rw [realI_length, lf]) (by rw [realI_length, lg])
      (by rw [realI_length, List.length_map, hs.lF]) (by rw [realI_length, List.length_map, hs.lG]) hκ.1 hFt hGt hc (1 / 2) hle B bF bG hκ.2 d2 d3 d4
    have h5 : B * l1 D ≤ B * (2 ^ k * (12289 + 2 * L)) := by
      apply mul_le_mul_of_nonneg_left _ hB.le
      refine hD.trans (mul_le_mul_of_nonneg_left ?_ (by positivity))
      linarith
    intro v hv
    rcases List.mem_append.1 hv with hv | hv
    · apply lt_of_le_of_lt (r1 ((v >>> s : Int) : ℝ) (List.mem_map_of_mem (List.mem_map_of_mem hv)))
      linarith
    · apply lt_of_le_of_lt (r2 ((v >>> s : Int) : ℝ) (List.mem_map_of_mem (List.mem_map_of_mem hv)))
      linarith

theorem l1_of_bound (k : Nat) (f : List Int) (lf : f.length = 2 ^ k) (M : ℝ) (h : ∀ v ∈ f, |(v : ℝ)| ≤ M) : l1 (realI f) ≤ 2 ^ k * M := by
  have := l1_le_length (realI f) M (by
    intro x hx
    obtain ⟨v, hv, rfl⟩ := List.mem_map.1 hx
    exact h v hv)
  rw [realI_length, lf] at this
  exact_mod_cast this

/-- A pair of degree 2. -/
theorem tame_two (f g : List Int) (lf : f.length = 2) (lg : g.length = 2) (hne : ∃ v ∈ f ++ g, v ≠ 0)
    (hM : ∀ v ∈ f ++ g, |(v : ℝ)| ≤ 10 ^ 11) : Tame 1 f g := by
  refine tame_of (by rw [lf]; rfl) (by rw [lg]; rfl) (2 * 10 ^ 11) 1 one_pos ?_
    ((l1_of_bound 1 f (by rw [lf]; rfl) _ fun v hv => hM v (List.mem_append_left _ hv)).trans (by norm_num))
    ((l1_of_bound 1 g (by rw [lg]; rfl) _ fun v hv => hM v (List.mem_append_right _ hv)).trans (by norm_num)) (by norm_num)
  intro w hw
  match f, lf, g, lg with
  | [a, b], _, [c, d], _ =>
    have hi : w ^ 2 = -1 := rootsC_root 1 w hw
    have hI : w = Complex.I ∨ w = -Complex.I := by
      rw [← Complex.I_sq, sq_eq_sq_iff_eq_or_eq_neg] at hi
      exact hi
    have e : gramAt [a, b] [c, d] w = ((a * a + b * b + c * c + d * d : Int) : ℝ) := by
      unfold gramAt evalR realI
      rcases hI with rfl | rfl <;> simp [Complex.normSq_apply] <;> ring
    rw [e]
    have hp : 1 ≤ a * a + b * b + c * c + d * d := by
      obtain ⟨v, hv, hv0⟩ := hne
      simp only [List.cons_append, List.nil_append, List.mem_cons, List.not_mem_nil, or_false] at hv
      have s1 := mul_self_nonneg a
      have s2 := mul_self_nonneg b
      have s3 := mul_self_nonneg c
      have s4 := mul_self_nonneg d
      have := mul_self_pos.2 hv0
      rcases hv with rfl | rfl | rfl | rfl <;> omega
    norm_num
    exact_mod_cast hp

theorem sqNorm_of_bound (f : List Int) (M : ℝ) (h : ∀ v ∈ f, |(v : ℝ)| ≤ M) : sqNorm (realI f) ≤ f.length * M ^ 2 := by
  unfold sqNorm realI
  induction f with
  | nil => simp
  | cons a f ih =>
    have h1 := ih fun v hv => h v (List.mem_cons_of_mem _ hv)
    have h2 := sq_le_sq' (abs_le.1 (h a List.mem_cons_self)).1 (abs_le.1 (h a List.mem_cons_self)).2
    simp only [List.map_cons, List.sum_cons, List.length_cons] at h1 ⊢
    push_cast
    nlinarith

/-- A pair of degree 4. -/
theorem tame_four (f g : List Int) (lf : f.length = 4) (lg : g.length = 4) (hne : ∃ v ∈ f ++ g, v ≠ 0)
    (hM : ∀ v ∈ f ++ g, |(v : ℝ)| ≤ 140000) : Tame 2 f g := by
  refine tame_of (by rw [lf]; rfl) (by rw [lg]; rfl) 560000 600000 (by norm_num) ?_
    ((l1_of_bound 2 f (by rw [lf]; rfl) _ fun v hv => hM v (List.mem_append_left _ hv)).trans (by norm_num))
    ((l1_of_bound 2 g (by rw [lg]; rfl) _ fun v hv => hM v (List.mem_append_right _ hv)).trans (by norm_num)) (by norm_num)
  intro w hw
  have h1 := sqNorm_of_bound f _ fun v hv => hM v (List.mem_append_left _ hv)
  have h2 := sqNorm_of_bound g _ fun v hv => hM v (List.mem_append_right _ hv)
  rw [lf] at h1
  rw [lg] at h2
  refine le_trans (by norm_num) (gram_four_gen f g lf lg hne (8 * 140000 ^ 2) (by norm_num) (by push_cast at h1 h2; linarith) w (rootsC_root 2 w hw))

/-! ### the field norm -/

theorem splitPolys_mem : ∀ a : List Int, (∀ v ∈ (splitPolys a).1, v ∈ a) ∧ ∀ v ∈ (splitPolys a).2, v ∈ a
  | [] => by simp [splitPolys]
  | [_] => by simp [splitPolys]
  | x :: y :: a => by
    obtain ⟨h1, h2⟩ := splitPolys_mem a
    simp only [splitPolys, List.mem_cons]
    constructor
    · rintro v (rfl | hv)
      · exact Or.inl rfl
      · exact Or.inr (Or.inr (h1 v hv))
    · rintro v (rfl | hv)
      · exact Or.inr (Or.inl rfl)
      · exact Or.inr (Or.inr (h2 v hv))

theorem splitPolys_sum : ∀ a : List Int, a.length % 2 = 0 → (splitPolys a).1.sum + (splitPolys a).2.sum = a.sum
  | [], _ => by simp [splitPolys]
  | [_], h => by simp at h
  | x :: y :: a, h => by
    have := splitPolys_sum a (by simp only [List.length_cons] at h; omega)
    simp only [splitPolys, List.sum_cons]
    omega

/-- The coefficients of the field norm are bounded. -/
theorem fieldNorm_bound (k : Nat) (a r : List Int) (ha : a.length = 2 ^ (k + 1)) (h : fieldNorm a = .ok r) (M : ℝ) (hM : ∀ v ∈ a, |(v : ℝ)| ≤ M) :
    r.length = 2 ^ k ∧ ∀ v ∈ r, |(v : ℝ)| ≤ 2 ^ (k + 1) * M ^ 2 := by
  obtain ⟨r', er, lr, c, hc⟩ := fieldNorm_ok k a ha
  rw [h, Go.ok.injEq] at er
  subst er
  refine ⟨lr, ?_⟩
  have e := pow_succ 2 k
  have hp : 0 < 2 ^ k := Nat.two_pow_pos k
  have M0 : 0 ≤ M := by
    obtain ⟨v, hv⟩ := List.exists_mem_of_length_pos (show 0 < a.length by omega)
    exact (abs_nonneg _).trans (hM v hv)
  have l1' : (splitPolys a).1.length = 2 ^ k := by rw [splitPolys_length1]; omega
  have l2' : (splitPolys a).2.length = 2 ^ k := by rw [splitPolys_length2]; omega
  have hmem : (∀ v ∈ (splitPolys a).1, v ∈ a) ∧ ∀ v ∈ (splitPolys a).2, v ∈ a := splitPolys_mem a
  have b1 : ∀ x ∈ realI (splitPolys a).1, |x| ≤ M := by
    intro x hx
    obtain ⟨v, hv, rfl⟩ := List.mem_map.1 hx
    exact hM v (hmem.1 v hv)
  have b2 : ∀ x ∈ realI (splitPolys a).2, |x| ≤ M := by
    intro x hx
    obtain ⟨v, hv, rfl⟩ := List.mem_map.1 hx
    exact hM v (hmem.2 v hv)
  obtain ⟨p, lp, ⟨c1, e1⟩, bp⟩ := prod_bound (2 ^ k) hp (realI (splitPolys a).1) M (by rw [realI_length, l1']) b1 (realI (splitPolys a).1)
  obtain ⟨q, lq, ⟨c2, e2⟩, bq⟩ := prod_bound (2 ^ k) hp (realI (splitPolys a).2) M (by rw [realI_length, l2']) b2 (0 :: realI (splitPolys a).2)
  have n1 := l1_le_length _ _ b1
  have n2 := l1_le_length _ _ b2
  rw [realI_length, l1'] at n1
  rw [realI_length, l2'] at n2
  have n3 : l1 (0 :: realI (splitPolys a).2) = l1 (realI (splitPolys a).2) := by simp [l1]
  rw [n3] at bq
  have key : realI r = List.zipWith (fun x y : ℝ => x + y) p (q.map fun x : ℝ => -1 * x) := by
    apply C50_unique k _ _ (by rw [realI_length, lr]) (by simp [lp, lq])
    rw [poly_zipWith_add _ _ (by simp [lp, lq]), poly_smul]
    have hcR := congrArg (Polynomial.map (Int.castRingHom ℝ)) hc
    simp only [Polynomial.map_sub, Polynomial.map_mul, Polynomial.map_add, Polynomial.map_pow, Polynomial.map_X, Polynomial.map_one,
      ← poly_realI] at hcR
    rw [poly_cons] at e2
    refine ⟨c1 - c2 - c.map (Int.castRingHom ℝ), ?_⟩
    simp only [C_neg, C_1, C_0, zero_add] at e2 ⊢
    linear_combination e1 - e2 - hcR
  intro v hv
  have hv2 : (v : ℝ) ∈ List.zipWith (fun x y : ℝ => x + y) p (q.map fun x : ℝ => -1 * x) := by
    rw [← key]
    exact List.mem_map_of_mem hv
  refine (abs_zipWith_add p _ _ _ bp (fun x hx => ?_) _ hv2).trans (b := M * l1 (realI (splitPolys a).1) + M * l1 (realI (splitPolys a).2)) ?_
  · obtain ⟨y, hy, rfl⟩ := List.mem_map.1 hx
    rw [neg_one_mul, abs_neg]
    exact bq y hy
  · have m1 := mul_le_mul_of_nonneg_left n1 M0
    have m2 := mul_le_mul_of_nonneg_left n2 M0
    push_cast at m1 m2
    rw [pow_succ]
    nlinarith

/-- The field norm keeps the parity of the sum of the coefficients. -/
theorem fieldNorm_parity (k : Nat) (a r : List Int) (ha : a.length = 2 ^ (k + 1)) (h : fieldNorm a = .ok r) : r.sum % 2 = a.sum % 2 := by
  obtain ⟨r', er, -, c, hc⟩ := fieldNorm_ok k a ha
  rw [h, Go.ok.injEq] at er
  subst er
  have hs : (splitPolys a).1.sum + (splitPolys a).2.sum = a.sum := splitPolys_sum a (by rw [ha, pow_succ]; omega)
  have e := congrArg (eval 1) hc
  have ev : ∀ l : List Int, (poly l).eval 1 = l.sum := eval_one
  simp only [eval_sub, eval_mul, eval_pow, eval_X, eval_add, Polynomial.eval_one, one_pow, one_mul, ev] at e
  rw [← hs]
  generalize (splitPolys a).1.sum = x at *
  generalize (splitPolys a).2.sum = y at *
  have h1 : (x ^ 2 - y ^ 2) % 2 = (x + y) % 2 := by
    rcases Int.emod_two_eq_zero_or_one x with hx | hx <;> rcases Int.emod_two_eq_zero_or_one y with hy | hy <;>
      simp [pow_two, Int.sub_emod, Int.add_emod, Int.mul_emod, hx, hy]
  omega

/-- One level of the solver: the pair that `reduce` gets solves the equation. -/
theorem solve_det (k : Nat) (f g fp gp Fp Gp F G : List Int) (hf : f.length = 2 ^ (k + 1)) (hg : g.length = 2 ^ (k + 1)) (ef : fieldNorm f = .ok fp)
    (eg : fieldNorm g = .ok gp) (d : ℤ) (hdet : CongrZ (2 ^ k) (ntruDet fp gp Fp Gp) (C d)) (lF : Fp.length = 2 ^ k) (lG : Gp.length = 2 ^ k)
    (hF : karamul (lift Fp) (galoisConjugate g) = .ok F) (hG : karamul (lift Gp) (galoisConjugate f) = .ok G) :
    F.length = 2 ^ (k + 1) ∧ G.length = 2 ^ (k + 1) ∧ CongrZ (2 ^ (k + 1)) (ntruDet f g F G) (C d) := by
  have e := pow_succ 2 k
  obtain ⟨fp', ef', -, cf⟩ := fieldNorm_ok k f hf
  obtain ⟨gp', eg', -, cg⟩ := fieldNorm_ok k g hg
  rw [ef, Go.ok.injEq] at ef'
  rw [eg, Go.ok.injEq] at eg'
  subst ef' eg'
  obtain ⟨F', e1, l1, c1⟩ := karamul_ok (k + 1) (lift Fp) (galoisConjugate g) (by rw [lift_length]; omega) (by rw [galois_length]; omega)
  obtain ⟨G', e2, l2, c2⟩ := karamul_ok (k + 1) (lift Gp) (galoisConjugate f) (by rw [lift_length]; omega) (by rw [galois_length]; omega)
  rw [hF, Go.ok.injEq] at e1
  rw [hG, Go.ok.injEq] at e2
  subst e1 e2
  refine ⟨l1, l2, ?_⟩
  obtain ⟨b, hb⟩ := congrZ_comp_sq hdet
  obtain ⟨c, hc⟩ := fieldNorm_conj k f fp hf cf
  obtain ⟨d', hd⟩ := fieldNorm_conj k g gp hg cg
  obtain ⟨u, hu⟩ := c1
  obtain ⟨v, hv⟩ := c2
  rw [poly_lift, poly_galois] at hu hv
  rw [show 2 * 2 ^ k = 2 ^ (k + 1) by omega] at hb
  unfold ntruDet polyZ at *
  simp only [sub_comp, mul_comp, C_comp] at hb
  refine ⟨b + (poly Gp).comp (X ^ 2) * c - (poly Fp).comp (X ^ 2) * d' - poly f * v + poly g * u, ?_⟩
  linear_combination hb + (poly Gp).comp (X ^ 2) * hc - (poly Fp).comp (X ^ 2) * hd - poly f * hv + poly g * hu

/-- The solver returns, in exact arithmetic. -/
def Ends (f g : List Int) : Prop := ∃ fuel r, NtruSolve exactOps fuel f g = .ok r

/-- If the solver ends one level below, and the pair is tame with an odd sum of coefficients, it ends. -/
theorem ends_step (k : Nat) (hk : k + 1 ≤ 10) (f g fp gp : List Int) (hf : f.length = 2 ^ (k + 1)) (hg : g.length = 2 ^ (k + 1))
    (ef : fieldNorm f = .ok fp) (eg : fieldNorm g = .ok gp) (ht : Tame (k + 1) f g) (hp : (f.sum + g.sum) % 2 = 1)
    (hgcd : ∀ Nf Ng, towerNorm (k + 1) f = .ok Nf → towerNorm (k + 1) g = .ok Ng → bigInt64 (xgcd Nf Ng).1 = 1 → (xgcd Nf Ng).1 = 1)
    (h : Ends fp gp) : Ends f g := by
  obtain ⟨fuel, r, hr⟩ := h
  have lf1 : f.length ≠ 1 := by have := Nat.two_pow_pos k; have := pow_succ 2 k; omega
  rcases r with _ | ⟨Fp, Gp⟩
  · refine ⟨fuel + 1, none, ?_⟩
    rw [NtruSolve, if_neg lf1, ef, Go.ok_bind, eg, Go.ok_bind, hr]
    rfl
  obtain ⟨lfp, -⟩ := fieldNorm_bound k f fp hf ef (f.map fun v : Int => |(v : ℝ)|).sum
    fun v hv => List.single_le_sum (by simp) _ (List.mem_map_of_mem hv)
  obtain ⟨lgp, -⟩ := fieldNorm_bound k g gp hg eg (g.map fun v : Int => |(v : ℝ)|).sum
    fun v hv => List.single_le_sum (by simp) _ (List.mem_map_of_mem hv)
  obtain ⟨Nf, tf, -⟩ := towerNorm_ok k fp lfp
  obtain ⟨Ng, tg, -⟩ := towerNorm_ok k gp lgp
  obtain ⟨-, -, a3⟩ := NtruSolve_ok (O := exactOps) k (by omega) fp gp lfp lgp Nf Ng tf tg fuel
  obtain ⟨b1, b2, b3, b4⟩ := a3 Fp Gp hr
  have tf' : towerNorm (k + 1) f = .ok Nf := by rw [towerNorm, ef, Go.ok_bind, tf]
  have tg' : towerNorm (k + 1) g = .ok Ng := by rw [towerNorm, eg, Go.ok_bind, tg]
  rw [hgcd Nf Ng tf' tg' b1, mul_one] at b4
  have e := pow_succ 2 k
  obtain ⟨F, e1, -⟩ := karamul_ok (k + 1) (lift Fp) (galoisConjugate g) (by rw [lift_length]; omega) (by rw [galois_length]; omega)
  obtain ⟨G, e2, -⟩ := karamul_ok (k + 1) (lift Gp) (galoisConjugate f) (by rw [lift_length]; omega) (by rw [galois_length]; omega)
  obtain ⟨lF, lG, hdet⟩ := solve_det k f g fp gp Fp Gp F G hf hg ef eg _ b4 b2 b3 e1 e2
  obtain ⟨κ, lκ, dκ⟩ := exists_div (k + 1) (poly (realI F) * poly (adjList (realI f)) + poly (realI G) * poly (adjList (realI g))) _ ht.coprime
  have hκ : IsQuot (k + 1) (realI f) (realI g) (realI F) (realI G) κ := ⟨lκ, dκ⟩
  obtain ⟨S, hS⟩ := sizeOf2_ok F G (ne_nil_of_length lF) (ne_nil_of_length lG)
  obtain ⟨res, hres⟩ := (exact_tame (k + 1) (by omega) hk f g F G ht lF lG hdet κ hκ).2 (parity_no_tie (k + 1) f g F G hp κ hκ) S hS
    (max fuel S + 1) (by omega)
  refine ⟨max fuel S + 1, some res, ?_⟩
  have hr' : NtruSolve exactOps (max fuel S) fp gp = .ok (some (Fp, Gp)) := by
    rw [(C72_outcome exactOps fuel (max fuel S) (by omega)).2.2.2.2.1 fp gp (by rw [hr]; simp), hr]
  rw [NtruSolve, if_neg lf1, ef, Go.ok_bind, eg, Go.ok_bind, hr', Go.ok_bind]
  simp only [e1, e2, Go.ok_bind, hres]
  rfl

theorem ends_zero (f g : List Int) (hf : f.length = 1) (hg : g.length = 1) : Ends f g := by
  match f, hf, g, hg with
  | [a], _, [b], _ =>
    refine ⟨1, if bigInt64 (xgcd a b).1 ≠ 1 then none else some ([-Q * (xgcd a b).2.2], [Q * (xgcd a b).2.1]), ?_⟩
    rw [NtruSolve, if_pos (by simp)]
    simp only [idx, List.getElem?_cons_zero, Go.ok_bind]
    split <;> rfl

/-- The condition on the greatest common divisor goes down one level. -/
def GcdOne (k : Nat) (f g : List Int) : Prop :=
  ∀ Nf Ng, towerNorm k f = .ok Nf → towerNorm k g = .ok Ng → bigInt64 (xgcd Nf Ng).1 = 1 → (xgcd Nf Ng).1 = 1

theorem GcdOne.down {k : Nat} {f g fp gp : List Int} (h : GcdOne (k + 1) f g) (ef : fieldNorm f = .ok fp) (eg : fieldNorm g = .ok gp) : GcdOne k fp gp :=
  fun Nf Ng tf tg => h Nf Ng (by rw [towerNorm, ef, Go.ok_bind, tf]) (by rw [towerNorm, eg, Go.ok_bind, tg])

theorem nonzero_of_odd (f g : List Int) (hp : (f.sum + g.sum) % 2 = 1) : ∃ v ∈ f ++ g, v ≠ 0 := by
  by_contra hc
  push Not at hc
  have := List.sum_eq_zero hc
  rw [List.sum_append] at this
  omega

theorem ends_two (f g : List Int) (lf : f.length = 2) (lg : g.length = 2) (hp : (f.sum + g.sum) % 2 = 1)
    (hM : ∀ v ∈ f ++ g, |(v : ℝ)| ≤ 10 ^ 11) (hg : GcdOne 1 f g) : Ends f g := by
  obtain ⟨fp, ef, lfp, -⟩ := fieldNorm_ok 0 f lf
  obtain ⟨gp, eg, lgp, -⟩ := fieldNorm_ok 0 g lg
  exact ends_step 0 (by decide) f g fp gp lf lg ef eg (tame_two f g lf lg (nonzero_of_odd f g hp) hM) hp hg (ends_zero fp gp lfp lgp)

theorem bound_append {k : Nat} {f g fp gp : List Int} (lf : f.length = 2 ^ (k + 1)) (lg : g.length = 2 ^ (k + 1)) (ef : fieldNorm f = .ok fp)
    (eg : fieldNorm g = .ok gp) (M : ℝ) (hM : ∀ v ∈ f ++ g, |(v : ℝ)| ≤ M) : ∀ v ∈ fp ++ gp, |(v : ℝ)| ≤ 2 ^ (k + 1) * M ^ 2 := by
  intro v hv
  rcases List.mem_append.1 hv with hv | hv
  · exact (fieldNorm_bound k f fp lf ef M fun v hv => hM v (List.mem_append_left _ hv)).2 v hv
  · exact (fieldNorm_bound k g gp lg eg M fun v hv => hM v (List.mem_append_right _ hv)).2 v hv

theorem parity_down {k : Nat} {f g fp gp : List Int} (lf : f.length = 2 ^ (k + 1)) (lg : g.length = 2 ^ (k + 1)) (ef : fieldNorm f = .ok fp)
    (eg : fieldNorm g = .ok gp) (hp : (f.sum + g.sum) % 2 = 1) : (fp.sum + gp.sum) % 2 = 1 := by
  have h1 := fieldNorm_parity k f fp lf ef
  have h2 := fieldNorm_parity k g gp lg eg
  omega

theorem ends_four (f g : List Int) (lf : f.length = 4) (lg : g.length = 4) (hp : (f.sum + g.sum) % 2 = 1)
    (hM : ∀ v ∈ f ++ g, |(v : ℝ)| ≤ 140000) (hg : GcdOne 2 f g) : Ends f g := by
  obtain ⟨fp, ef, lfp, -⟩ := fieldNorm_ok 1 f lf
  obtain ⟨gp, eg, lgp, -⟩ := fieldNorm_ok 1 g lg
  refine ends_step 1 (by decide) f g fp gp lf lg ef eg (tame_four f g lf lg (nonzero_of_odd f g hp) hM) hp hg ?_
  refine ends_two fp gp lfp lgp (parity_down (k := 1) lf lg ef eg hp) (fun v hv => ?_) (hg.down ef eg)
  exact (bound_append (k := 1) lf lg ef eg 140000 hM v hv).trans (by norm_num)

/-- The norm has the parity of the sum of the coefficients. -/
theorem tower_parity (k : Nat) (f : List Int) (hf : f.length = 2 ^ k) (N : Int) (h : towerNorm k f = .ok N) : N % 2 = f.sum % 2 := by
  induction k generalizing f with
  | zero =>
    match f, hf with
    | [a], _ =>
      have := Go.ok.inj h
      subst this
      simp
  | succ k ih =>
    obtain ⟨fp, ef, lfp, -⟩ := fieldNorm_ok k f hf
    rw [towerNorm, ef, Go.ok_bind] at h
    rw [ih fp lfp h, fieldNorm_parity k f fp hf ef]

/-- If the greatest common divisor is not 1 to the solver, it reports that there is no solution. -/
theorem solve_none (O : FloatOps) (k : Nat) (f g : List Int) (hf : f.length = 2 ^ k) (hg : g.length = 2 ^ k) (Nf Ng : Int)
    (tf : towerNorm k f = .ok Nf) (tg : towerNorm k g = .ok Ng) (h : bigInt64 (xgcd Nf Ng).1 ≠ 1) (fuel : Nat) :
    NtruSolve O (fuel + k + 1) f g = .ok none := by
  induction k generalizing f g with
  | zero =>
    match f, hf, g, hg with
    | [a], _, [b], _ =>
      have h1 := Go.ok.inj tf
      have h2 := Go.ok.inj tg
      subst h1 h2
      rw [NtruSolve, if_pos (by simp)]
      simp only [idx, List.getElem?_cons_zero, Go.ok_bind]
      rw [if_pos h]
      rfl
  | succ k ih =>
    obtain ⟨fp, ef, lfp, -⟩ := fieldNorm_ok k f hf
    obtain ⟨gp, eg, lgp, -⟩ := fieldNorm_ok k g hg
    rw [towerNorm, ef, Go.ok_bind] at tf
    rw [towerNorm, eg, Go.ok_bind] at tg
    have := Nat.two_pow_pos k
    have := pow_succ 2 k
    rw [NtruSolve, if_neg (by omega), ef, Go.ok_bind, eg, Go.ok_bind, show fuel + (k + 1) = fuel + k + 1 by omega, ih fp gp lfp lgp tf tg]
    rfl

/-- C70: if the coefficients of `f` and those of `g` both add up to an even number, `NtruSolve` reports that there is no solution, after one call per
level, at every degree and for every floating-point behaviour. -/
theorem C70_even (O : FloatOps) (k : Nat) (f g : List Int) (hf : f.length = 2 ^ k) (hg : g.length = 2 ^ k) (h1 : f.sum % 2 = 0) (h2 : g.sum % 2 = 0)
    (fuel : Nat) : NtruSolve O (fuel + k + 1) f g = .ok none := by
  obtain ⟨Nf, tf, -⟩ := towerNorm_ok k f hf
  obtain ⟨Ng, tg, -⟩ := towerNorm_ok k g hg
  refine solve_none O k f g hf hg Nf Ng tf tg ?_ fuel
  rw [Ne, bigInt64_eq_one]
  have p1 := tower_parity k f hf Nf tf
  have p2 := tower_parity k g hg Ng tg
  have hd : (2 : Int) ∣ (Int.gcd Nf Ng : Int) := Int.dvd_coe_gcd (by omega) (by omega)
  have hx := (C37_xgcd Nf Ng).2.1
  have h3 : (xgcd Nf Ng).1 % 2 = 0 := by omega
  omega

/-- C70: in exact arithmetic, for a short `(f, g)` whose coefficients add up to an odd number, `reduce` returns for every solution of the NTRU equation,
within the bit size of the solution. -/
theorem C70_parity (k : Nat) (h1 : 1 ≤ k) (h2 : k ≤ 10) (f g F G : List Int) (h : Short k f g) (lF : F.length = 2 ^ k) (lG : G.length = 2 ^ k)
    (hdet : CongrZ (2 ^ k) (ntruDet f g F G) (C 12289)) (hp : (f.sum + g.sum) % 2 = 1) (S : Nat) (hS : sizeOf2 F G = .ok S) (fuel : Nat) (hf : S ≤ fuel) :
    ∃ r, reduce exactOps fuel f g F G = .ok r := by
  obtain ⟨κ, lκ, dκ⟩ := exists_div k (poly (realI F) * poly (adjList (realI f)) + poly (realI G) * poly (adjList (realI g))) _ h.coprime
  exact (C70_exact k h1 h2 f g F G h lF lG hdet κ ⟨lκ, dκ⟩).2 (parity_no_tie k f g F G hp κ ⟨lκ, dκ⟩) S hS fuel hf

/-- At degrees up to 8 the test of the greatest common divisor is exact for pairs within the norm bound. -/
theorem gcdOne_short (k : Nat) (h1 : 1 ≤ k) (h2 : k ≤ 3) (f g : List Int) (lf : f.length = 2 ^ k) (lg : g.length = 2 ^ k)
    (hn : sqNorm (realI f) + sqNorm (realI g) ≤ 16823) : GcdOne k f g := by
  intro Nf Ng tf tg hb
  obtain ⟨N1, t1, i1⟩ := towerNorm_ok k f lf
  obtain ⟨N2, t2, i2⟩ := towerNorm_ok k g lg
  rw [tf, Go.ok.injEq] at t1
  rw [tg, Go.ok.injEq] at t2
  subst t1 t2
  have hs := gcd_small k h1 h2 f g lf lg hn Nf Ng i1 i2
  obtain ⟨k, rfl⟩ : ∃ j, k = j + 1 := ⟨k - 1, by omega⟩
  rw [xgcd_eq_gcd k f g lf lg Nf Ng tf tg] at hb ⊢
  rw [bigInt64_eq_one] at hb
  omega

theorem bound_short (f g : List Int) (hn : sqNorm (realI f) + sqNorm (realI g) ≤ 16823) : ∀ v ∈ f ++ g, |(v : ℝ)| ≤ 130 := by
  intro v hv
  have q1 := sqNorm_nonneg (realI f)
  have q2 := sqNorm_nonneg (realI g)
  apply abs_le_of_sq_le_sq _ (by norm_num)
  rcases List.mem_append.1 hv with hv | hv
  · exact (sq_le_sqNorm (realI f) v (List.mem_map_of_mem hv)).trans (by norm_num; linarith)
  · exact (sq_le_sqNorm (realI g) v (List.mem_map_of_mem hv)).trans (by norm_num; linarith)

/-- C70 at degree 4, in exact arithmetic: for all `(f, g)` within the norm bound, `NtruSolve` returns unless the coefficients of `f` and those of `g`
both add up to an odd number. -/
theorem C70_parity_four (f g : List Int) (lf : f.length = 4) (lg : g.length = 4) (hn : sqNorm (realI f) + sqNorm (realI g) ≤ 16823)
    (hq : ¬ (f.sum % 2 = 1 ∧ g.sum % 2 = 1)) : ∃ fuel r, NtruSolve exactOps fuel f g = .ok r := by
  by_cases hev : f.sum % 2 = 0 ∧ g.sum % 2 = 0
  · exact ⟨_, none, C70_even exactOps 2 f g lf lg hev.1 hev.2 0⟩
  · exact ends_four f g lf lg (by omega) (fun v hv => (bound_short f g hn v hv).trans (by norm_num))
      (gcdOne_short 2 (by decide) (by decide) f g lf lg hn)

/-- C70 at degrees 2, 4 and 8, in exact arithmetic: for every short `(f, g)`, `NtruSolve` returns unless the coefficients of `f` and those of `g` both
add up to an odd number. -/
theorem C70_parity_solve (k : Nat) (h1 : 1 ≤ k) (h2 : k ≤ 3) (f g : List Int) (h : Short k f g) (hq : ¬ (f.sum % 2 = 1 ∧ g.sum % 2 = 1)) :
    ∃ fuel r, NtruSolve exactOps fuel f g = .ok r := by
  by_cases hev : f.sum % 2 = 0 ∧ g.sum % 2 = 0
  · exact ⟨_, none, C70_even exactOps k f g h.lf h.lg hev.1 hev.2 0⟩
  have hp : (f.sum + g.sum) % 2 = 1 := by omega
  have hn : sqNorm (realI f) + sqNorm (realI g) ≤ 16823 := h.hn.trans (by norm_num)
  have hgcd := gcdOne_short k h1 h2 f g h.lf h.lg hn
  have hM := bound_short f g hn
  have ht := h.tame (by omega)
  have lf := h.lf
  have lg := h.lg
  obtain rfl | rfl | rfl : k = 1 ∨ k = 2 ∨ k = 3 := by omega
  · exact ends_two f g lf lg hp (fun v hv => (hM v hv).trans (by norm_num)) hgcd
  · exact C70_parity_four f g lf lg hn hq
  · obtain ⟨fp, ef, lfp, -⟩ := fieldNorm_ok 2 f lf
    obtain ⟨gp, eg, lgp, -⟩ := fieldNorm_ok 2 g lg
    refine ends_step 2 (by decide) f g fp gp lf lg ef eg ht hp hgcd ?_
    refine ends_four fp gp lfp lgp (parity_down (k := 2) lf lg ef eg hp) (fun v hv => ?_) (hgcd.down ef eg)
    exact (bound_append (k := 2) lf lg ef eg 130 hM v hv).trans (by norm_num)

/-- A pair of degree 4 with an even and an odd sum. -/
example : ∃ fuel r, NtruSolve exactOps fuel [72, 5, -3, 11] [60, 31, 7, -20] = .ok r :=
  C70_parity_four _ _ rfl rfl (by norm_num [sqNorm, realI]) (by decide)

/-- The hypotheses are met: a pair of degree 2 with an odd and an even sum. The two units 1, 1, for which the solver does not end, both have odd sums. -/
example : (∃ fuel r, NtruSolve exactOps fuel [72, 5] [60, 30] = .ok r) ∧ (∃ fuel r, NtruSolve exactOps fuel [3, 1] [2, 4] = .ok r) ∧
    ∀ fuel, NtruSolve exactOps fuel [1, 0] [1, 0] = .diverge :=
  ⟨C70_parity_solve 1 (by decide) (by decide) _ _ (short2 72 5 60 30 (by decide) (by decide)) (by decide),
    ⟨2, none, C70_even exactOps 1 _ _ rfl rfl (by decide) (by decide) 0⟩,
    C70_violated_exact 1 (by decide) _ _ rfl rfl (unit_two 1 0 rfl) (unit_two 1 0 rfl)⟩

end Falcon
