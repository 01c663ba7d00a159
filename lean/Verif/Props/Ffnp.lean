import Verif.Lemmas.NearestPlane
import Verif.Props.GsNorm
/-!
# `FfnpFFT` is the nearest-plane algorithm (C69)
-/

namespace Falcon
open Spec Polynomial ComplexConjugate Matrix

/-- The tree of the Falcon specification (`ffLDL*`) for a matrix `G` of vectors of length `2^k`, with the operations of the repository: the
node stores `l10`, the children are the trees of the two diagonal entries. The second component lists the leaves, which `FfnpFFT` does not
look at. (The repository's own `FfldlFFT` loses all of this, see C63.) -/
def ldlTree (O : FloatOps) : Nat → List (List (List O.C)) → Go (NpTree O × List O.C)
  | 0, G => do
    let g ← idx2 G 0 0
    let x ← idx g 0
    pure (.other, [x])
  | k + 1, G => do
    let (L, D) ← LdlFFT O G
    let l10 ← idx2 L 1 0
    let d0 ← idx2 D 0 0
    let d1 ← idx2 D 1 1
    let s0 ← SplitFFT O d0
    let s1 ← SplitFFT O d1
    let (T0, a) ← ldlTree O k [[s0.1, s0.2], [AdjFFT O s0.2, s0.1]]
    let (T1, b) ← ldlTree O k [[s1.1, s1.2], [AdjFFT O s1.2, s1.1]]
    pure (.node l10 T0 T1, a ++ b)

/-- The real polynomial with integer coefficients `z`. -/
def realZ (z : List ℤ) : List ℝ := z.map fun x : ℤ => (x : ℝ)

/-- The outcome of `FfnpFFT` on a tree: the leaves are positive; on real polynomials the result is integral and the squared distance `Q`
is at most half the sum of the leaves (each of the two coordinates of a leaf is off by at most 1/2). -/
def Nearest (k : Nat) (T : NpTree exactOps) (leaves : List ℂ) (Q : (ℂ → ℂ) → (ℂ → ℂ) → ℝ) (tr det : ℝ) : Prop :=
  (∀ x ∈ leaves, x = (x.re : ℂ) ∧ 0 < x.re) ∧ leaves.length = 2 ^ k ∧ (leaves.map Complex.re).sum ≤ 2 ^ k * tr / 2 ∧
  (leaves.map Complex.re).prod ^ 2 = det ∧
  ∀ x0 x1, RealF k x0 → RealF k x1 → ∃ z0 z1 : List ℤ, z0.length = 2 ^ k ∧ z1.length = 2 ^ k ∧
    FfnpFFT exactOps T (vals k x0, vals k x1) = .ok (some (vals k (evalR (realZ z0)), vals k (evalR (realZ z1)))) ∧
    Q (fun w => x0 w - evalR (realZ z0) w) (fun w => x1 w - evalR (realZ z1) w) ≤ (leaves.map Complex.re).sum / 2

theorem np_round (x : ℝ) : ∃ m : ℤ, exactOps.round x = (m : ℝ) ∧ (x - m) ^ 2 ≤ 1 / 4 := by
  by_cases hx : 0 ≤ x
  · refine ⟨⌊x + 1 / 2⌋, if_pos hx, ?_⟩
    have h1 := Int.floor_le (x + 1 / 2)
    have h2 := Int.lt_floor_add_one (x + 1 / 2)
    nlinarith
  · refine ⟨⌈x - 1 / 2⌉, if_neg hx, ?_⟩
    have h1 := Int.le_ceil (x - 1 / 2)
    have h2 := Int.ceil_lt_add_one (x - 1 / 2)
    nlinarith

/-- The value of the quadratic form of `[[a, c^*], [c, b]]` at the row vector `(x, y)`. -/
noncomputable def quad (a c b x y : ℂ → ℂ) (w : ℂ) : ℝ :=
  (a w).re * Complex.normSq (x w) + (b w).re * Complex.normSq (y w) + 2 * (y w * c w * conj (x w)).re

/-- Positive functions on the roots. -/
def PosF (k : Nat) (d : ℂ → ℂ) : Prop := ∀ w, w ^ 2 ^ k = -1 → d w = ((d w).re : ℂ) ∧ 0 < (d w).re

theorem np_zero (d : ℂ → ℂ) (hd : RealF 1 d) (hp : PosF 1 d) (T : NpTree exactOps) :
    Nearest 0 T [Ev d (-1)] (fun x0 x1 => mean 1 fun w => (d w).re * Complex.normSq (x0 (w ^ 2) + w * x1 (w ^ 2)))
      (2 * mean 1 fun w => (d w).re) (rprod 1 fun w => (d w).re) := by
  have hI : Complex.I ^ 2 ^ 1 = -1 := by simp
  have hI2 : Complex.I ^ 2 = -1 := by simp
  have e1 : d (-Complex.I) = d Complex.I := by
    have := hd Complex.I hI
    rw [Complex.conj_I] at this
    rw [this, (hp _ hI).1, Complex.conj_ofReal]
  have eE : Ev d (-1) = d Complex.I := by
    rw [← hI2, Ev_sq, e1]; ring
  have h1 : rootC 1 1 = -Complex.I := by
    have := rootC_odd 0 0
    simpa [rootC_one_zero] using this
  have hm : mean 1 (fun w => (d w).re) = (d Complex.I).re := by
    simp [mean, Finset.sum_range_succ, rootC_one_zero, h1, e1]
  have hr : rprod 1 (fun w => (d w).re) = (d Complex.I).re ^ 2 := by
    simp [rprod, Finset.prod_range_succ, rootC_one_zero, h1, e1, sq]
  rw [eE]
  refine ⟨?_, rfl, ?_, ?_, ?_⟩
  · intro x hx
    rw [List.mem_singleton] at hx
    rw [hx]
    exact hp _ hI
  · rw [hm]; simp
  · rw [hr]; simp
  · intro x0 x1 r0 r1
    obtain ⟨m0, e0, b0⟩ := np_round (x0 (-1)).re
    obtain ⟨m1, e1', b1⟩ := np_round (x1 (-1)).re
    have hv : ∀ A : ℂ → ℂ, vals 0 A = [A (-1)] := by intro A; simp [vals, rootsC, rootC]
    have hz : ∀ (m : ℤ) (w : ℂ), evalR (realZ [m]) w = ((m : ℝ) : ℂ) := by intro m w; simp [evalR, realZ]
    have hc : ∀ x : ℝ, exactOps.cplx x (exactOps.lit 0) = (x : ℂ) := by
      intro x
      apply Complex.ext
      · rfl
      · show ((0 : ℚ) : ℝ) = 0
        simp
    refine ⟨[m0], [m1], rfl, rfl, ?_, ?_⟩
    · rw [hv, hv, hv, hv, hz, hz, ← e0, ← e1', ← hc, ← hc]
      unfold FfnpFFT
      simp [idx]
    · have hq : (mean 1 fun w => (d w).re * Complex.normSq ((x0 (w ^ 2) - evalR (realZ [m0]) (w ^ 2)) +
          w * (x1 (w ^ 2) - evalR (realZ [m1]) (w ^ 2)))) =
          mean 0 fun _ => (d Complex.I).re * (((x0 (-1)).re - m0) ^ 2 + ((x1 (-1)).re - m1) ^ 2) := by
        apply mean_split
        intro w hw
        have hw2 : w ^ 2 = -1 := by simpa using hw
        have hd' : ∀ w : ℂ, w ^ 2 = -1 → d w = d Complex.I := by
          intro w hw
          rw [← hI2] at hw
          rcases sq_eq_sq_iff_eq_or_eq_neg.1 hw with h | h
          · rw [h]
          · rw [h, e1]
        have hn : (-w) ^ 2 = -1 := by rw [neg_sq]; exact hw2
        rw [hd' w hw2, hd' (-w) hn, hn, hw2, hz, hz]
        have r0' := r0.zero
        have r1' := r1.zero
        have hww : w * conj w = 1 := root_unit 1 w hw
        rw [Complex.mul_conj] at hww
        have hww' : Complex.normSq w = 1 := by exact_mod_cast hww
        rw [r0', r1']
        generalize (x0 (-1)).re = u
        generalize (x1 (-1)).re = v
        rw [Complex.normSq_apply] at hww'
        simp only [Complex.normSq_apply, Complex.add_re, Complex.add_im, Complex.mul_re, Complex.mul_im, Complex.sub_re, Complex.sub_im,
          Complex.ofReal_re, Complex.ofReal_im, Complex.neg_re, Complex.neg_im]
        linear_combination 2 * (d Complex.I).re * (v - m1) ^ 2 * hww'
      refine (le_of_eq hq).trans ?_
      rw [mean_zero]
      have := (hp _ hI).2
      simp only [List.map_cons, List.map_nil, List.sum_cons, List.sum_nil, add_zero]
      nlinarith

/-- One node: the Gram matrix `[[a, c^*], [c, b]]` and the trees of its diagonal entries. -/
theorem np_node (k : Nat) (h2 : k + 1 ≤ 10) (a c b : ℂ → ℂ) (ra : RealF (k + 1) a) (rc : RealF (k + 1) c) (rb : RealF (k + 1) b)
    (pa : PosF (k + 1) a) (hb : ∀ w, w ^ 2 ^ (k + 1) = -1 → b w = ((b w).re : ℂ))
    (hdet : ∀ w, w ^ 2 ^ (k + 1) = -1 → 0 < (a w).re * (b w).re - Complex.normSq (c w)) (g01 : List ℂ) (hg : g01.length = 2 ^ (k + 1))
    (ih : ∀ d, RealF (k + 1) d → PosF (k + 1) d → ∃ T leaves,
      ldlTree exactOps k [[vals k (Ev d), vals k (Od d)], [vals k fun w => conj (Od d w), vals k (Ev d)]] = .ok (T, leaves) ∧
      Nearest k T leaves (fun x0 x1 => mean (k + 1) fun w => (d w).re * Complex.normSq (x0 (w ^ 2) + w * x1 (w ^ 2)))
        (2 * mean (k + 1) fun w => (d w).re) (rprod (k + 1) fun w => (d w).re)) :
    ∃ T leaves, ldlTree exactOps (k + 1) [[vals (k + 1) a, g01], [vals (k + 1) c, vals (k + 1) b]] = .ok (T, leaves) ∧
      Nearest (k + 1) T leaves (fun x0 x1 => mean (k + 1) (quad a c b x0 x1)) (mean (k + 1) fun w => (a w).re + (b w).re)
        (rprod (k + 1) fun w => (a w).re * (b w).re - Complex.normSq (c w)) := by
  set l : ℂ → ℂ := fun w => c w / a w with hl
  set d1 : ℂ → ℂ := fun w => b w - l w * conj (l w) * a w with hd1
  have rl : RealF (k + 1) l := rc.div ra
  have rd1 : RealF (k + 1) d1 := rb.sub ((rl.mul rl.conj).mul ra)
  have hd1v : ∀ w, w ^ 2 ^ (k + 1) = -1 → d1 w = (((b w).re - Complex.normSq (c w) / (a w).re : ℝ) : ℂ) := by
    intro w hw
    obtain ⟨e, p⟩ := pa w hw
    have p' : ((a w).re : ℂ) ≠ 0 := by exact_mod_cast p.ne'
    simp only [hd1, hl]
    rw [Complex.mul_conj, hb w hw, map_div₀]
    have : Complex.normSq (a w) = (a w).re ^ 2 := by rw [e, Complex.normSq_ofReal]; simp; ring
    rw [this, e]
    push_cast
    simp only [Complex.ofReal_re]
    field_simp
  have pd1 : PosF (k + 1) d1 := by
    intro w hw
    rw [hd1v w hw]
    refine ⟨by simp, ?_⟩
    rw [Complex.ofReal_re]
    have p := (pa w hw).2
    have := hdet w hw
    have e : (b w).re - Complex.normSq (c w) / (a w).re = ((a w).re * (b w).re - Complex.normSq (c w)) / (a w).re := by
      field_simp
    rw [e]
    exact div_pos this p
  obtain ⟨T0, lv0, e0, p0, n0, s0, q0, f0⟩ := ih a ra pa
  obtain ⟨T1, lv1, e1, p1, n1, s1, q1, f1⟩ := ih d1 rd1 pd1
  have eL : LdlFFT exactOps [[vals (k + 1) a, g01], [vals (k + 1) c, vals (k + 1) b]] =
      .ok ([[List.replicate (2 ^ (k + 1)) (exactOps.cplx (exactOps.lit 1) (exactOps.lit 0)),
          List.replicate (2 ^ (k + 1)) (exactOps.cplx (exactOps.lit 0) (exactOps.lit 0))],
        [vals (k + 1) l, List.replicate (2 ^ (k + 1)) (exactOps.cplx (exactOps.lit 1) (exactOps.lit 0))]],
        [[vals (k + 1) a, List.replicate (2 ^ (k + 1)) (exactOps.cplx (exactOps.lit 0) (exactOps.lit 0))],
        [List.replicate (2 ^ (k + 1)) (exactOps.cplx (exactOps.lit 0) (exactOps.lit 0)), vals (k + 1) d1]]) := by
    unfold LdlFFT
    simp only [idx2, idx, List.getElem?_cons_zero, List.getElem?_cons_succ, Go.ok_bind, List.length_cons, List.length_nil]
    rw [if_neg (by simp), div_vals, Go.ok_bind, adj_vals, mul_vals, Go.ok_bind, mul_vals, Go.ok_bind, sub_vals, Go.ok_bind, vals_length]
    rfl
  refine ⟨.node (vals (k + 1) l) T0 T1, lv0 ++ lv1, ?_, ?_, ?_, ?_, ?_, ?_⟩
  · rw [ldlTree]
    rw [eL]
    simp only [Go.ok_bind, idx2, idx, List.getElem?_cons_zero, List.getElem?_cons_succ]
    rw [split_vals k h2, Go.ok_bind, split_vals k h2, Go.ok_bind]
    simp only [adj_vals]
    rw [e0, Go.ok_bind]
    simp only []
    rw [e1, Go.ok_bind]
    rfl
  · intro x hx
    rcases List.mem_append.1 hx with h | h
    · exact p0 x h
    · exact p1 x h
  · rw [List.length_append, n0, n1]; ring
  · rw [List.map_append, List.sum_append, mean_add]
    have : mean (k + 1) (fun w => (d1 w).re) ≤ mean (k + 1) fun w => (b w).re := by
      apply mean_le
      intro w hw
      rw [hd1v w hw, Complex.ofReal_re]
      have := div_nonneg (Complex.normSq_nonneg (c w)) (pa w hw).2.le
      linarith
    have h2k : (0 : ℝ) < 2 ^ k := by positivity
    rw [pow_succ]
    nlinarith
  · rw [List.map_append, List.prod_append, mul_pow, q0, q1, ← rprod_mul]
    apply rprod_congr
    intro w hw
    rw [hd1v w hw, Complex.ofReal_re]
    have := (pa w hw).2
    field_simp
  · intro x0 x1 r0 r1
    obtain ⟨z2, z3, l2, l3, E1, B1⟩ := f1 (Ev x1) (Od x1) r1.ev r1.od
    obtain ⟨z1, ez1, lz1, sz1, -⟩ := mergePolys_ok (f0 := z2) (f1 := z3) (by omega)
    have hm : ∀ (z u v : List ℤ), 2 ∣ z.length → splitPolys z = (u, v) → ∀ w,
        evalR (realZ u) (w ^ 2) + w * evalR (realZ v) (w ^ 2) = evalR (realZ z) w := by
      intro z u v hz hs w
      have e : splitPolys (realZ z) = (realZ u, realZ v) := by unfold realZ; rw [splitPolys_map, hs]
      rw [evalR_split (realZ z) (by simpa [realZ] using hz), e]
    have v1 := hm z1 z2 z3 (by omega) sz1
    set y : ℂ → ℂ := fun w => x0 w + (x1 w - evalR (realZ z1) w) * l w with hy
    have ry : RealF (k + 1) y := r0.add ((r1.sub (RealF.evalR _ _)).mul rl)
    obtain ⟨z4, z5, l4, l5, E0, B0⟩ := f0 (Ev y) (Od y) ry.ev ry.od
    obtain ⟨z0, ez0, lz0, sz0, -⟩ := mergePolys_ok (f0 := z4) (f1 := z5) (by omega)
    have v0 := hm z0 z4 z5 (by omega) sz0
    refine ⟨z0, z1, by rw [lz0, l4]; ring, by rw [lz1, l2]; ring, ?_, ?_⟩
    · rw [FfnpFFT, if_pos (by rw [vals_length]; exact Nat.one_lt_two_pow (by omega))]
      simp only [split_vals k h2, Go.ok_bind]
      rw [E1, Go.ok_bind]
      simp only []
      rw [merge_vals k h2, Go.ok_bind]
      simp only [v1]
      rw [sub_vals, Go.ok_bind, mul_vals, Go.ok_bind, add_vals, Go.ok_bind]
      rw [split_vals k h2, Go.ok_bind, E0, Go.ok_bind]
      simp only []
      rw [merge_vals k h2, Go.ok_bind]
      simp only [v0]
      rfl
    · have key : mean (k + 1) (quad a c b (fun w => x0 w - evalR (realZ z0) w) fun w => x1 w - evalR (realZ z1) w) =
          (mean (k + 1) fun w => (a w).re * Complex.normSq ((fun v => Ev y v - evalR (realZ z4) v) (w ^ 2) +
            w * (fun v => Od y v - evalR (realZ z5) v) (w ^ 2))) +
          (mean (k + 1) fun w => (d1 w).re * Complex.normSq ((fun v => Ev x1 v - evalR (realZ z2) v) (w ^ 2) +
            w * (fun v => Od x1 v - evalR (realZ z3) v) (w ^ 2))) := by
        rw [← mean_add]
        apply mean_congr
        intro w hw
        have hw0 := root_ne_zero _ w hw
        have t1 : Ev y (w ^ 2) - evalR (realZ z4) (w ^ 2) + w * (Od y (w ^ 2) - evalR (realZ z5) (w ^ 2)) = y w - evalR (realZ z0) w := by
          rw [← v0 w, ← ev_od y w hw0]; ring
        have t2 : Ev x1 (w ^ 2) - evalR (realZ z2) (w ^ 2) + w * (Od x1 (w ^ 2) - evalR (realZ z3) (w ^ 2)) = x1 w - evalR (realZ z1) w := by
          rw [← v1 w, ← ev_od x1 w hw0]; ring
        simp only [t1, t2]
        rw [hd1v w hw, Complex.ofReal_re]
        have t3 : y w - evalR (realZ z0) w = (x0 w - evalR (realZ z0) w) + (x1 w - evalR (realZ z1) w) * (c w / ((a w).re : ℂ)) := by
          simp only [hy, hl]
          rw [← (pa w hw).1]
          ring
        rw [t3, quad]
        generalize x0 w - evalR (realZ z0) w = p
        generalize x1 w - evalR (realZ z1) w = r
        have pos := (pa w hw).2
        generalize (a w).re = α at *
        generalize (b w).re = β
        generalize c w = γ
        have e3 : r * (γ / (α : ℂ)) = ((1 / α : ℝ) : ℂ) * (r * γ) := by
          push_cast
          field_simp
        rw [e3, Complex.normSq_add, Complex.normSq_mul, Complex.normSq_ofReal, Complex.normSq_mul]
        have e4 : (p * conj (((1 / α : ℝ) : ℂ) * (r * γ))).re = 1 / α * (r * γ * conj p).re := by
          rw [map_mul, Complex.conj_ofReal]
          simp only [Complex.mul_re, Complex.mul_im, Complex.conj_re, Complex.conj_im, map_mul, Complex.ofReal_re, Complex.ofReal_im]
          ring
        rw [e4]
        field_simp
        ring
      rw [List.map_append, List.sum_append]
      refine (le_of_eq key).trans ?_
      linarith [B0, B1]

theorem np_all (k : Nat) (h2 : k + 1 ≤ 10) : ∀ d, RealF (k + 1) d → PosF (k + 1) d → ∃ T leaves,
      ldlTree exactOps k [[vals k (Ev d), vals k (Od d)], [vals k fun w => conj (Od d w), vals k (Ev d)]] = .ok (T, leaves) ∧
      Nearest k T leaves (fun x0 x1 => mean (k + 1) fun w => (d w).re * Complex.normSq (x0 (w ^ 2) + w * x1 (w ^ 2)))
        (2 * mean (k + 1) fun w => (d w).re) (rprod (k + 1) fun w => (d w).re) := by
  induction k with
  | zero =>
    intro d rd pd
    refine ⟨.other, [Ev d (-1)], ?_, np_zero d rd pd _⟩
    have hv : ∀ A : ℂ → ℂ, vals 0 A = [A (-1)] := by intro A; simp [vals, rootsC, rootC]
    simp only [ldlTree, hv, idx2, idx, List.getElem?_cons_zero, Go.ok_bind, Go.pure_eq]
  | succ k ih =>
    intro d rd pd
    have hval : ∀ w, w ^ 2 ^ (k + 2) = -1 → Ev d (w ^ 2) = (((d w).re + (d (-w)).re) / 2 : ℝ) ∧
        w * Od d (w ^ 2) = (((d w).re - (d (-w)).re) / 2 : ℝ) ∧ Complex.normSq (Od d (w ^ 2)) = (((d w).re - (d (-w)).re) / 2) ^ 2 := by
      intro w hw
      have q1 := (pd w hw).1
      have q2 := (pd (-w) (root_neg _ w hw)).1
      have hw0 := root_ne_zero _ w hw
      have e2 : w * Od d (w ^ 2) = (((d w).re - (d (-w)).re) / 2 : ℝ) := by
        rw [Od_sq, q1, q2]
        push_cast
        simp only [Complex.ofReal_re]
        field_simp
      refine ⟨?_, e2, ?_⟩
      · rw [Ev_sq, q1, q2]
        push_cast
        simp
      · have := congrArg Complex.normSq e2
        have hww := root_unit _ w hw
        rw [Complex.mul_conj] at hww
        have hww' : Complex.normSq w = 1 := by exact_mod_cast hww
        rw [Complex.normSq_mul, hww', one_mul, Complex.normSq_ofReal] at this
        rw [this]
        ring
    obtain ⟨T, leaves, e, c1, c2, c3, c4, c5⟩ := np_node k (by omega) (Ev d) (fun w => conj (Od d w)) (Ev d) rd.ev rd.od.conj rd.ev
      (by
        intro v hv
        obtain ⟨w, hw, rfl⟩ := root_sqrt _ v hv
        have p1 := (pd w hw).2
        have p2 := (pd (-w) (root_neg _ w hw)).2
        rw [(hval w hw).1]
        refine ⟨by simp, ?_⟩
        rw [Complex.ofReal_re]
        linarith)
      (by
        intro v hv
        obtain ⟨w, hw, rfl⟩ := root_sqrt _ v hv
        rw [(hval w hw).1]
        simp)
      (by
        intro v hv
        obtain ⟨w, hw, rfl⟩ := root_sqrt _ v hv
        have p1 := (pd w hw).2
        have p2 := (pd (-w) (root_neg _ w hw)).2
        rw [(hval w hw).1, Complex.ofReal_re, Complex.normSq_conj, (hval w hw).2.2]
        have := mul_pos p1 p2
        linarith)
      (vals (k + 1) (Od d)) (vals_length _ _) (ih (by omega))
    refine ⟨T, leaves, e, c1, c2, ?_, ?_, ?_⟩
    · have : (mean (k + 2) fun w => (d w).re) = mean (k + 1) fun w => (Ev d w).re := by
        apply mean_split
        intro w hw
        rw [(hval w hw).1, Complex.ofReal_re]
        ring
      rw [this, ← mean_smul]
      refine c3.trans (le_of_eq ?_)
      congr 3
      funext w
      ring
    · rw [c4]
      symm
      apply rprod_split
      intro w hw
      rw [(hval w hw).1, Complex.ofReal_re, Complex.normSq_conj, (hval w hw).2.2]
      ring
    · intro x0 x1 r0 r1
      obtain ⟨z0, z1, l0, l1, E, B⟩ := c5 x0 x1 r0 r1
      refine ⟨z0, z1, l0, l1, E, (le_of_eq ?_).trans B⟩
      apply mean_split
      intro w hw
      obtain ⟨g1, g2, g3⟩ := hval w hw
      have hww := root_unit _ w hw
      have hww' : Complex.normSq w = 1 := by rw [Complex.mul_conj] at hww; exact_mod_cast hww
      have hO : conj (Od d (w ^ 2)) = (((d w).re - (d (-w)).re) / 2 : ℝ) * w := by
        have h1 : Od d (w ^ 2) = conj w * (((d w).re - (d (-w)).re) / 2 : ℝ) := by
          rw [← g2]
          linear_combination -(Od d (w ^ 2)) * hww
        rw [h1, map_mul, Complex.conj_conj, Complex.conj_ofReal, mul_comm]
      rw [quad, g1, Complex.ofReal_re, hO, neg_sq]
      beta_reduce
      generalize x0 (w ^ 2) - evalR (realZ z0) (w ^ 2) = p
      generalize x1 (w ^ 2) - evalR (realZ z1) (w ^ 2) = r
      generalize (d w).re = α
      generalize (d (-w)).re = β
      have e1 : (r * (((α - β) / 2 : ℝ) * w) * conj p).re = (α - β) / 2 * (p * conj (w * r)).re := by
        simp only [Complex.mul_re, Complex.mul_im, Complex.conj_re, Complex.conj_im, map_mul, Complex.ofReal_re, Complex.ofReal_im]
        ring
      rw [e1, neg_mul, Complex.normSq_add, Complex.normSq_add, (starRingEnd ℂ).map_neg, mul_neg, Complex.neg_re, Complex.normSq_neg, Complex.normSq_mul, hww']
      ring

/-- C69, exact arithmetic: let `B` be a real basis matrix, non-singular at every root of `x^n+1`, `G` the values of its Gram matrix and `T`
the specification's tree of `G`, with its leaves (the squared Gram-Schmidt norms: positive, with the product of the determinants of `B`).
For all real polynomials `t0, t1`, `FfnpFFT` returns the FFT of two integer polynomials `z0, z1` for which the lattice point `z B` is close
to `t B`: the squared distance is at most half the sum of the leaves, and at most `n/4` times the sum of the squares of the coefficients
of the basis. -/
theorem C69_nearest (k : Nat) (h1 : 1 ≤ k) (h2 : k ≤ 10) (b00 b01 b10 b11 : List ℝ) (l00 : b00.length = 2 ^ k) (l01 : b01.length = 2 ^ k)
    (l10 : b10.length = 2 ^ k) (l11 : b11.length = 2 ^ k)
    (hdet : ∀ w : ℂ, w ^ 2 ^ k + 1 = 0 → (matAt [[b00, b01], [b10, b11]] w).det ≠ 0)
    (G : List (List (List ℂ))) (hG : Mat (2 ^ k) G)
    (hs : ∀ j < 2 ^ k, slot G j = matAt [[b00, b01], [b10, b11]] (rootC k j) * (matAt [[b00, b01], [b10, b11]] (rootC k j))ᴴ) :
    ∃ T leaves, ldlTree exactOps k G = .ok (T, leaves) ∧ leaves.length = 2 ^ k ∧ (∀ x ∈ leaves, x = (x.re : ℂ) ∧ 0 < x.re) ∧
      (leaves.map Complex.re).prod = ∏ j ∈ Finset.range (2 ^ k), ‖(matAt [[b00, b01], [b10, b11]] (rootC k j)).det‖ ∧
      ∀ t0 t1 : List ℝ, t0.length = 2 ^ k → t1.length = 2 ^ k → ∃ z0 z1 : List ℤ, z0.length = 2 ^ k ∧ z1.length = 2 ^ k ∧
        (do FfnpFFT exactOps T (← FFT exactOps t0, ← FFT exactOps t1)) =
          (do pure (some (← FFT exactOps (realZ z0), ← FFT exactOps (realZ z1)))) ∧
        ∀ e0 e1 : List ℝ, e0.length = 2 ^ k → e1.length = 2 ^ k →
          (X ^ 2 ^ k + 1 : ℝ[X]) ∣ poly e0 - ((poly t0 - poly (realZ z0)) * poly b00 + (poly t1 - poly (realZ z1)) * poly b10) →
          (X ^ 2 ^ k + 1 : ℝ[X]) ∣ poly e1 - ((poly t0 - poly (realZ z0)) * poly b01 + (poly t1 - poly (realZ z1)) * poly b11) →
          sqNorm e0 + sqNorm e1 ≤ (leaves.map Complex.re).sum / 2 ∧
          sqNorm e0 + sqNorm e1 ≤ 2 ^ k / 4 * (sqNorm b00 + sqNorm b01 + sqNorm b10 + sqNorm b11) := by
  obtain ⟨k, rfl⟩ : ∃ m, k = m + 1 := ⟨k - 1, by omega⟩
  obtain ⟨g00, g01, g10, g11, rfl, m00, m01, m10, m11⟩ := hG
  obtain ⟨A, rfl⟩ := vals_surj _ g00 m00
  obtain ⟨C, rfl⟩ := vals_surj _ g10 m10
  obtain ⟨D, rfl⟩ := vals_surj _ g11 m11
  have hv : ∀ (F : ℂ → ℂ) j, j < 2 ^ (k + 1) → (vals (k + 1) F).getD j 0 = F (rootC (k + 1) j) := by
    intro F j hj
    simp [vals, rootsC, hj]
  set a : ℂ → ℂ := fun w => evalR b00 w * conj (evalR b00 w) + evalR b01 w * conj (evalR b01 w) with ha
  set c : ℂ → ℂ := fun w => evalR b10 w * conj (evalR b00 w) + evalR b11 w * conj (evalR b01 w) with hc
  set b : ℂ → ℂ := fun w => evalR b10 w * conj (evalR b10 w) + evalR b11 w * conj (evalR b11 w) with hb
  have hABC : ∀ j < 2 ^ (k + 1), A (rootC (k + 1) j) = a (rootC (k + 1) j) ∧ C (rootC (k + 1) j) = c (rootC (k + 1) j) ∧
      D (rootC (k + 1) j) = b (rootC (k + 1) j) := by
    intro j hj
    have := hs j hj
    rw [slot_mk, matAt_mk, hv _ j hj, hv _ j hj, hv _ j hj] at this
    have e1 := congrFun (congrFun this 0) 0
    have e2 := congrFun (congrFun this 1) 0
    have e3 := congrFun (congrFun this 1) 1
    simp [Matrix.mul_apply, Fin.sum_univ_two, Matrix.conjTranspose_apply] at e1 e2 e3
    exact ⟨e1, e2, e3⟩
  have hex : ∀ w : ℂ, w ^ 2 ^ (k + 1) = -1 → ∃ j < 2 ^ (k + 1), rootC (k + 1) j = w := by
    intro w hw
    have := (mem_rootsC (k + 1) w).2 hw
    simpa [rootsC] using this
  have eA : vals (k + 1) A = vals (k + 1) a := vals_congr _ _ _ fun w hw => by
    obtain ⟨j, hj, rfl⟩ := hex w hw
    exact (hABC j hj).1
  have eC : vals (k + 1) C = vals (k + 1) c := vals_congr _ _ _ fun w hw => by
    obtain ⟨j, hj, rfl⟩ := hex w hw
    exact (hABC j hj).2.1
  have eD : vals (k + 1) D = vals (k + 1) b := vals_congr _ _ _ fun w hw => by
    obtain ⟨j, hj, rfl⟩ := hex w hw
    exact (hABC j hj).2.2
  rw [eA, eC, eD]
  have are : ∀ w, a w = ((Complex.normSq (evalR b00 w) + Complex.normSq (evalR b01 w) : ℝ) : ℂ) := by
    intro w; simp only [ha]; rw [Complex.mul_conj, Complex.mul_conj]; push_cast; rfl
  have bre : ∀ w, b w = ((Complex.normSq (evalR b10 w) + Complex.normSq (evalR b11 w) : ℝ) : ℂ) := by
    intro w; simp only [hb]; rw [Complex.mul_conj, Complex.mul_conj]; push_cast; rfl
  have hd2 : ∀ w, (a w).re * (b w).re - Complex.normSq (c w) = Complex.normSq (matAt [[b00, b01], [b10, b11]] w).det := by
    intro w
    rw [are, bre, Complex.ofReal_re, Complex.ofReal_re, matAt_mk, Matrix.det_fin_two_of]
    simp only [hc]
    simp only [Complex.normSq_apply, Complex.add_re, Complex.add_im, Complex.mul_re, Complex.mul_im, Complex.conj_re, Complex.conj_im,
      Complex.sub_re, Complex.sub_im]
    ring
  have hpos : ∀ w, w ^ 2 ^ (k + 1) = -1 → 0 < (a w).re * (b w).re - Complex.normSq (c w) := by
    intro w hw
    rw [hd2]
    exact Complex.normSq_pos.2 (hdet w (by rw [hw]; ring))
  have rr := fun f : List ℝ => RealF.evalR (k + 1) f
  obtain ⟨T, leaves, e, c1, c2, c3, c4, c5⟩ := np_node k h2 a c b (((rr b00).mul (rr b00).conj).add ((rr b01).mul (rr b01).conj))
    (((rr b10).mul (rr b00).conj).add ((rr b11).mul (rr b01).conj)) (((rr b10).mul (rr b10).conj).add ((rr b11).mul (rr b11).conj))
    (by
      intro w hw
      have h0 := hpos w hw
      rw [are, bre, Complex.ofReal_re, Complex.ofReal_re] at h0
      rw [are]
      refine ⟨by simp, ?_⟩
      rw [Complex.ofReal_re]
      have n1 := Complex.normSq_nonneg (evalR b00 w)
      have n2 := Complex.normSq_nonneg (evalR b01 w)
      have n3 := Complex.normSq_nonneg (c w)
      rcases (add_nonneg n1 n2).eq_or_lt with h | h
      · rw [← h] at h0; linarith
      · exact h)
    (by intro w hw; rw [bre]; simp) hpos g01 m01 (np_all k h2)
  refine ⟨T, leaves, e, c2, c1, ?_, ?_⟩
  · have hp1 : 0 ≤ (leaves.map Complex.re).prod := by
      apply List.prod_nonneg
      intro x hx
      obtain ⟨y, hy, rfl⟩ := List.mem_map.1 hx
      exact (c1 y hy).2.le
    have hp2 : 0 ≤ ∏ j ∈ Finset.range (2 ^ (k + 1)), ‖(matAt [[b00, b01], [b10, b11]] (rootC (k + 1) j)).det‖ :=
      Finset.prod_nonneg fun _ _ => norm_nonneg _
    rw [← sq_eq_sq₀ hp1 hp2, c4, ← Finset.prod_pow]
    apply Finset.prod_congr rfl
    intro j _
    exact (hd2 _).trans (Complex.normSq_eq_norm_sq _)
  · intro t0 t1 lt0 lt1
    obtain ⟨z0, z1, lz0, lz1, E, Bd⟩ := c5 (evalR t0) (evalR t1) (rr t0) (rr t1)
    refine ⟨z0, z1, lz0, lz1, ?_, ?_⟩
    · rw [FFT_exact _ h1 h2 t0 lt0, FFT_exact _ h1 h2 t1 lt1, FFT_exact _ h1 h2 (realZ z0) (by simpa [realZ] using lz0),
        FFT_exact _ h1 h2 (realZ z1) (by simpa [realZ] using lz1)]
      simp only [Go.ok_bind, Go.pure_eq]
      exact E
    · intro e0 e1 le0 le1 d0 d1
      have key : sqNorm e0 + sqNorm e1 = mean (k + 1) (quad a c b (fun w => evalR t0 w - evalR (realZ z0) w)
          fun w => evalR t1 w - evalR (realZ z1) w) := by
        have hp : ∀ f : List ℝ, f.length = 2 ^ (k + 1) → sqNorm f = mean (k + 1) fun w => Complex.normSq (evalR f w) := by
          intro f hf
          unfold mean
          rw [parseval (k + 1) f hf]
          field_simp
        rw [hp e0 le0, hp e1 le1, ← mean_add]
        apply mean_congr
        intro w hw
        have hw' := (mem_rootsC (k + 1) w).2 hw
        have v0 := evalR_dvd (k + 1) _ d0 w hw'
        have v1 := evalR_dvd (k + 1) _ d1 w hw'
        simp only [eval₂_sub, eval₂_add, eval₂_mul, ← evalR_eq, sub_eq_zero] at v0 v1
        rw [v0, v1, quad, are, bre, Complex.ofReal_re, Complex.ofReal_re]
        simp only [hc]
        generalize evalR t0 w - evalR (realZ z0) w = p
        generalize evalR t1 w - evalR (realZ z1) w = r
        simp only [Complex.normSq_apply, Complex.add_re, Complex.add_im, Complex.mul_re, Complex.mul_im, Complex.conj_re, Complex.conj_im]
        ring
      have htr : (mean (k + 1) fun w => (a w).re + (b w).re) = sqNorm b00 + sqNorm b01 + sqNorm b10 + sqNorm b11 := by
        have hp : ∀ f : List ℝ, f.length = 2 ^ (k + 1) → sqNorm f = mean (k + 1) fun w => Complex.normSq (evalR f w) := by
          intro f hf
          unfold mean
          rw [parseval (k + 1) f hf]
          field_simp
        rw [hp b00 l00, hp b01 l01, hp b10 l10, hp b11 l11, ← mean_add, ← mean_add, ← mean_add]
        apply mean_congr
        intro w _
        rw [are, bre, Complex.ofReal_re, Complex.ofReal_re]
        ring
      rw [htr] at c3
      rw [key]
      refine ⟨Bd, Bd.trans ?_⟩
      linarith

/-- The trees on which `FfnpFFT` does not panic for vectors of length `2^k`: `k` levels of nodes, each with at least as many entries as the
vectors it is used for. -/
def Fits (O : FloatOps) : Nat → NpTree O → Prop
  | 0, _ => True
  | _ + 1, .other => False
  | k + 1, .node l a b => 2 ^ (k + 1) ≤ l.length ∧ Fits O k a ∧ Fits O k b

theorem np_leaf (O : FloatOps) (T : NpTree O) (a b : O.C) : FfnpFFT O T ([a], [b]) =
    .ok (some ([O.cplx (O.round (O.re a)) (O.lit 0)], [O.cplx (O.round (O.re b)) (O.lit 0)])) := by
  rw [FfnpFFT.eq_def]
  simp [idx]

/-- C69, any arithmetic: on vectors of length `2^k` `FfnpFFT` returns two vectors of that length if the tree has `k` levels of long enough
nodes, and panics otherwise. -/
theorem C69_panics (O : FloatOps) (k : Nat) (h2 : k ≤ 10) (T : NpTree O) (t0 t1 : List O.C) (l0 : t0.length = 2 ^ k) (l1 : t1.length = 2 ^ k) :
    (Fits O k T → ∃ z0 z1, FfnpFFT O T (t0, t1) = .ok (some (z0, z1)) ∧ z0.length = 2 ^ k ∧ z1.length = 2 ^ k) ∧
    (¬ Fits O k T → FfnpFFT O T (t0, t1) = .panic) := by
  induction k generalizing T t0 t1 with
  | zero =>
    refine ⟨fun _ => ?_, fun h => absurd (by cases T <;> trivial) h⟩
    match t0, t1, l0, l1 with
    | [a], [b], _, _ => exact ⟨_, _, np_leaf O T a b, rfl, rfl⟩
  | succ k ih =>
    have hk : 2 ^ (k + 1) > 1 := Nat.one_lt_two_pow (by omega)
    match T with
    | .other =>
      refine ⟨fun h => h.elim, fun _ => ?_⟩
      rw [FfnpFFT, if_pos (by simpa [l0] using hk)]
    | .node l a b =>
      rw [FfnpFFT, if_pos (by simpa [l0] using hk)]
      obtain ⟨s, es, ls1, ls2⟩ := SplitFFT_ok (O := O) k h2 t1 l1
      simp only [es, Go.ok_bind]
      obtain ⟨ib1, ib2⟩ := ih (by omega) b s.1 s.2 ls1 ls2
      by_cases hb : Fits O k b
      · obtain ⟨u0, u1, eu, lu0, lu1⟩ := ib1 hb
        obtain ⟨z1, em, lz1⟩ := MergeFFT_ok (O := O) k h2 u0 u1 lu0 lu1
        have ed : ∃ d, SubFFT O t1 z1 = .ok d ∧ d.length = 2 ^ (k + 1) := by
          unfold SubFFT AddFFT
          rw [if_neg (by simp [NegFFT]; omega)]
          exact ⟨_, rfl, by simp [NegFFT, l1, lz1]⟩
        obtain ⟨d, ed, ld⟩ := ed
        rw [eu, Go.ok_bind]
        simp only [em, Go.ok_bind, ed]
        by_cases hl : 2 ^ (k + 1) ≤ l.length
        · have emm : ∃ m, MulFFT O d l = .ok m ∧ m.length = 2 ^ (k + 1) := by
            unfold MulFFT
            rw [if_neg (by omega)]
            exact ⟨_, rfl, by simp [ld, hl]⟩
          obtain ⟨m, emm, lm⟩ := emm
          have ea : ∃ v, AddFFT O t0 m = .ok v ∧ v.length = 2 ^ (k + 1) := by
            unfold AddFFT
            rw [if_neg (by omega)]
            exact ⟨_, rfl, by simp [l0, lm]⟩
          obtain ⟨v, ea, lv⟩ := ea
          obtain ⟨s', es', ls1', ls2'⟩ := SplitFFT_ok (O := O) k h2 v lv
          obtain ⟨ia1, ia2⟩ := ih (by omega) a s'.1 s'.2 ls1' ls2'
          simp only [emm, Go.ok_bind, ea, es']
          by_cases ha : Fits O k a
          · obtain ⟨y0, y1, ey, ly0, ly1⟩ := ia1 ha
            obtain ⟨z0, em', lz0⟩ := MergeFFT_ok (O := O) k h2 y0 y1 ly0 ly1
            refine ⟨fun _ => ⟨z0, z1, ?_, lz0, lz1⟩, fun h => absurd ⟨hl, ha, hb⟩ h⟩
            rw [ey, Go.ok_bind]
            simp only [em', Go.ok_bind, Go.pure_eq]
          · refine ⟨fun h => absurd h.2.1 ha, fun _ => ?_⟩
            rw [ia2 ha, Go.panic_bind]
        · refine ⟨fun h => absurd h.1 hl, fun _ => ?_⟩
          unfold MulFFT
          rw [if_pos (by omega), Go.panic_bind]
      · refine ⟨fun h => absurd h.2.2 hb, fun _ => ?_⟩
        rw [ib2 hb, Go.panic_bind]

/-- C69, exact arithmetic: whatever the tree and the vectors, a result of `FfnpFFT` is the FFT of two integer polynomials. -/
theorem C69_integral (k : Nat) (h1 : 1 ≤ k) (h2 : k ≤ 10) (T : NpTree exactOps) (t0 t1 : List ℂ) (l0 : t0.length = 2 ^ k) (l1 : t1.length = 2 ^ k)
    (r : Option (List ℂ × List ℂ)) (h : FfnpFFT exactOps T (t0, t1) = .ok r) :
    ∃ z0 z1 : List ℤ, z0.length = 2 ^ k ∧ z1.length = 2 ^ k ∧
      (do pure (some (← FFT exactOps (realZ z0), ← FFT exactOps (realZ z1)))) = Go.ok r := by
  have key : ∀ (k : Nat), k ≤ 10 → ∀ (T : NpTree exactOps) (t0 t1 : List ℂ), t0.length = 2 ^ k → t1.length = 2 ^ k →
      ∀ r, FfnpFFT exactOps T (t0, t1) = .ok r →
      ∃ z0 z1 : List ℤ, z0.length = 2 ^ k ∧ z1.length = 2 ^ k ∧ r = some (vals k (evalR (realZ z0)), vals k (evalR (realZ z1))) := by
    intro k
    induction k with
    | zero =>
      intro _ T t0 t1 l0 l1 r h
      match t0, t1, l0, l1, h with
      | [x], [y], _, _, h =>
        obtain ⟨m0, e0, -⟩ := np_round x.re
        obtain ⟨m1, e1, -⟩ := np_round y.re
        refine ⟨[m0], [m1], rfl, rfl, ?_⟩
        have hv : ∀ A : ℂ → ℂ, vals 0 A = [A (-1)] := by intro A; simp [vals, rootsC, rootC]
        have hz : ∀ (m : ℤ) (w : ℂ), evalR (realZ [m]) w = ((m : ℝ) : ℂ) := by intro m w; simp [evalR, realZ]
        have hc : ∀ x : ℝ, exactOps.cplx x (exactOps.lit 0) = (x : ℂ) := by
          intro x
          apply Complex.ext
          · rfl
          · show ((0 : ℚ) : ℝ) = 0
            simp
        rw [hv, hv, hz, hz, ← e0, ← e1, ← hc, ← hc]
        rw [np_leaf] at h
        exact (Go.ok.inj h).symm
    | succ k ih =>
      intro h2 T t0 t1 l0 l1 r h
      have hF : Fits exactOps (k + 1) T := by
        by_contra hc
        rw [(C69_panics exactOps (k + 1) h2 T t0 t1 l0 l1).2 hc] at h
        cases h
      match T, hF with
      | .node l a b, ⟨hl, ha, hb⟩ =>
        rw [FfnpFFT, if_pos (by simpa [l0] using Nat.one_lt_two_pow (n := k + 1) (by omega))] at h
        obtain ⟨s, es, h⟩ := Go.bind_eq_ok.1 h
        obtain ⟨u, eu, h⟩ := Go.bind_eq_ok.1 h
        obtain ⟨s', es', ls1, ls2⟩ := SplitFFT_ok (O := exactOps) k h2 t1 l1
        obtain rfl : s' = s := by rw [es'] at es; exact Go.ok.inj es
        obtain ⟨z2, z3, n2, n3, rfl⟩ := ih (by omega) b s'.1 s'.2 ls1 ls2 u eu
        simp only [merge_vals k h2, Go.ok_bind] at h
        obtain ⟨d, ed, h⟩ := Go.bind_eq_ok.1 h
        obtain ⟨m, em, h⟩ := Go.bind_eq_ok.1 h
        obtain ⟨v, ev, h⟩ := Go.bind_eq_ok.1 h
        obtain ⟨q, eq, h⟩ := Go.bind_eq_ok.1 h
        obtain ⟨y, ey, h⟩ := Go.bind_eq_ok.1 h
        have lv : v.length = 2 ^ (k + 1) := by
          unfold AddFFT at ev
          split at ev
          · cases ev
          · rw [← Go.ok.inj ev]; simp; omega
        obtain ⟨q', eq', lq1, lq2⟩ := SplitFFT_ok (O := exactOps) k h2 v lv
        obtain rfl : q' = q := by rw [eq'] at eq; exact Go.ok.inj eq
        obtain ⟨z4, z5, n4, n5, rfl⟩ := ih (by omega) a q'.1 q'.2 lq1 lq2 y ey
        simp only [merge_vals k h2, Go.ok_bind, Go.pure_eq, Go.ok.injEq] at h
        obtain ⟨z1, ez1, lz1, sz1, -⟩ := mergePolys_ok (f0 := z2) (f1 := z3) (by omega)
        obtain ⟨z0, ez0, lz0, sz0, -⟩ := mergePolys_ok (f0 := z4) (f1 := z5) (by omega)
        have hm : ∀ (z u v : List ℤ), 2 ∣ z.length → splitPolys z = (u, v) → ∀ w,
            evalR (realZ u) (w ^ 2) + w * evalR (realZ v) (w ^ 2) = evalR (realZ z) w := by
          intro z u v hz hs w
          have e : splitPolys (realZ z) = (realZ u, realZ v) := by unfold realZ; rw [splitPolys_map, hs]
          rw [evalR_split (realZ z) (by simpa [realZ] using hz), e]
        refine ⟨z0, z1, by rw [lz0, n4]; ring, by rw [lz1, n2]; ring, ?_⟩
        rw [← h]
        simp only [hm z0 z4 z5 (by omega) sz0, hm z1 z2 z3 (by omega) sz1]
  obtain ⟨z0, z1, n0, n1, rfl⟩ := key k h2 T t0 t1 l0 l1 r h
  refine ⟨z0, z1, n0, n1, ?_⟩
  rw [FFT_exact k h1 h2 (realZ z0) (by simpa [realZ] using n0), FFT_exact k h1 h2 (realZ z1) (by simpa [realZ] using n1)]
  rfl

/-- The hypotheses of `C69_nearest` are met by the basis `[[3, 1], [1, 2]]` of degree 2, of determinant 5. -/
example : (∀ w : ℂ, w ^ 2 ^ 1 + 1 = 0 → (matAt [[[3, 0], [1, 0]], [[1, 0], [2, 0]]] w).det ≠ 0) ∧
    ∃ G, Mat (2 ^ 1) G ∧ ∀ j < 2 ^ 1, slot G j = matAt [[[3, 0], [1, 0]], [[1, 0], [2, 0]]] (rootC 1 j) *
      (matAt [[[3, 0], [1, 0]], [[1, 0], [2, 0]]] (rootC 1 j))ᴴ := by
  constructor
  · intro w _
    rw [matAt_mk, Matrix.det_fin_two_of]
    norm_num [evalR]
  · obtain ⟨G0, e0, m0, v0⟩ := C51_gram 1 (by omega) (by omega) [[[3, 0], [1, 0]], [[1, 0], [2, 0]]] ⟨_, _, _, _, rfl, rfl, rfl, rfl, rfl⟩
    obtain ⟨M, e2, m2, v2⟩ := slot_fft 1 (by omega) (by omega) _ m0
    exact ⟨M, m2, fun j hj => by rw [v2 j hj, v0 _ (by rw [rootC_pow]; ring)]⟩

/-- A tree of one level for vectors of length 2, and one with a node that is too short. -/
example (O : FloatOps) (z : O.C) : Fits O 1 (.node [z, z] .other .other) ∧ ¬ Fits O 1 (.node [z] .other .other) ∧ ¬ Fits O 1 .other := by
  simp [Fits]

end Falcon
