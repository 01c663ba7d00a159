import Verif.Lemmas.KeyLen
import Verif.Spec.RatOps
/-!
# Properties of the sampling tree and of fast Fourier sampling (C52)
-/

namespace Falcon

variable {O : FloatOps}

/-! ### C52 -/

/-- C52 is violated for every degree above 2: if the node value of the tree has length 2, sampling for degree `2^k`, `k ≥ 2`, never
returns, whatever the random source, the target and the floating-point arithmetic. -/
theorem ffsampling_never (rand : Rand) (T : FFTtree O) (hT : T.Value.length = 2) (sigmin : O.F) (k : Nat) (hk : 2 ≤ k) (hk2 : k ≤ 10)
    (fuel : Nat) (t : List O.C × List O.C) (h0 : t.1.length = 2 ^ k) (h1 : t.2.length = 2 ^ k) (pos : Nat) (r) :
    FfSamplingFFT O rand T sigmin fuel t pos ≠ .ok r := by
  induction k, hk using Nat.le_induction generalizing fuel t pos r with
  | base =>
    intro h
    cases fuel with
    | zero => simp [FfSamplingFFT] at h
    | succ fuel =>
      rw [FfSamplingFFT] at h
      simp only at h
      rw [if_pos (by rw [h0]; decide)] at h
      obtain ⟨s, _, h⟩ := Go.bind_eq_ok.1 h
      obtain ⟨⟨u, p⟩, _, h⟩ := Go.bind_eq_ok.1 h
      obtain ⟨z1, _, h⟩ := Go.bind_eq_ok.1 h
      obtain ⟨d, hd, h⟩ := Go.bind_eq_ok.1 h
      obtain ⟨m, hm, h⟩ := Go.bind_eq_ok.1 h
      have ld : d.length = 4 := by
        unfold SubFFT AddFFT at hd
        split at hd
        · simp at hd
        · rename_i hl
          simp only [ne_eq, not_not] at hl
          simp only [Go.ok.injEq] at hd
          rw [← hd, List.length_zipWith, ← hl, h1]
          rfl
      unfold MulFFT at hm
      rw [if_pos (by omega)] at hm
      simp at hm
  | succ k hk ih =>
    intro h
    cases fuel with
    | zero => simp [FfSamplingFFT] at h
    | succ fuel =>
      rw [FfSamplingFFT] at h
      simp only at h
      have hpow : 2 ^ 2 ≤ 2 ^ k := Nat.pow_le_pow_right (by omega) hk
      rw [if_pos (by rw [h0, pow_succ]; omega)] at h
      obtain ⟨s, hs, h⟩ := Go.bind_eq_ok.1 h
      obtain ⟨s', hs', l1, l2⟩ := SplitFFT_ok (O := O) k hk2 t.2 h1
      rw [hs] at hs'
      cases hs'
      obtain ⟨⟨u, p⟩, hu, h⟩ := Go.bind_eq_ok.1 h
      exact ih (by omega) fuel s l1 l2 pos _ hu

/-- C52 is violated: on a tree built by `FfldlFFT` from a Gram matrix of degree `2^k`, `k ≥ 2`, `FfSamplingFFT` never returns. -/
theorem C52_violated (rand : Rand) (k : Nat) (hk : 2 ≤ k) (hk2 : k ≤ 10) (fuel : Nat) (hfu : k ≤ fuel) (T0 : FFTtree O)
    (G : List (List (List O.C))) (hG : Mat (2 ^ k) G) : ∃ T, FfldlFFT O fuel T0 G = .ok T ∧
    ∀ sigmin fuel' (t : List O.C × List O.C) pos r, t.1.length = 2 ^ k → t.2.length = 2 ^ k →
      FfSamplingFFT O rand T sigmin fuel' t pos ≠ .ok r := by
  obtain ⟨T, e, hT, -⟩ := FfldlFFT_ok k (by omega) hk2 fuel hfu T0 G hG
  exact ⟨T, e, fun sigmin fuel' t pos r h0 h1 => ffsampling_never rand T hT sigmin k hk hk2 fuel' t h0 h1 pos r⟩

/-- The two sampler calls at the bottom of the recursion. -/
theorem ffsampling_leaf (rand : Rand) (T : FFTtree O) (v w : O.C) (hT : T.Value = [v, w]) (sigmin : O.F) (fuel : Nat) (a b : O.C)
    (pos : Nat) : FfSamplingFFT O rand T sigmin (fuel + 1) ([a], [b]) pos = (do
      let (x, pos) ← Samplerz O rand (O.re a) (O.re v) sigmin (fuel + 1) pos
      let (y, pos) ← Samplerz O rand (O.re b) (O.re v) sigmin (fuel + 1) pos
      pure (([O.cplx (O.ofInt x.toInt) (O.lit 0)], [O.cplx (O.ofInt y.toInt) (O.lit 0)]), pos)) := by
  rw [FfSamplingFFT]
  simp [idx, hT]

/-- The exact form of the violation: if the sampler always returns, sampling for a degree above 2 on such a tree panics. -/
theorem ffsampling_panics (rand : Rand) (T : FFTtree O) (hT : T.Value.length = 2) (sigmin : O.F)
    (hS : ∀ mu sigma fuel pos, ∃ r, Samplerz O rand mu sigma sigmin (fuel + 1) pos = .ok r) (k : Nat) (h1 : 1 ≤ k) (hk2 : k ≤ 10)
    (fuel : Nat) (hfu : k + 1 ≤ fuel) (t : List O.C × List O.C) (h0 : t.1.length = 2 ^ k) (h1' : t.2.length = 2 ^ k) (pos : Nat) :
    if k = 1 then ∃ z pos', FfSamplingFFT O rand T sigmin fuel t pos = .ok (z, pos') ∧ z.1.length = 2 ∧ z.2.length = 2
    else FfSamplingFFT O rand T sigmin fuel t pos = .panic := by
  induction k, h1 using Nat.le_induction generalizing fuel t pos with
  | base =>
    rw [if_pos rfl]
    obtain ⟨m, rfl⟩ : ∃ m, fuel = m + 2 := ⟨fuel - 2, by omega⟩
    have leaf : ∀ (s : List O.C × List O.C) pos, s.1.length = 1 → s.2.length = 1 → ∃ z pos',
        FfSamplingFFT O rand T sigmin (m + 1) s pos = .ok (z, pos') ∧ z.1.length = 2 ^ 0 ∧ z.2.length = 2 ^ 0 := by
      rintro ⟨s1, s2⟩ pos e1 e2
      obtain ⟨v, w, hv⟩ := List.length_eq_two.1 hT
      match s1, s2, e1, e2 with
      | [a], [b], _, _ =>
        rw [ffsampling_leaf rand T v w hv]
        obtain ⟨⟨x, p⟩, hx⟩ := hS (O.re a) (O.re v) m pos
        obtain ⟨⟨y, p'⟩, hy⟩ := hS (O.re b) (O.re v) m p
        refine ⟨([O.cplx (O.ofInt x.toInt) (O.lit 0)], [O.cplx (O.ofInt y.toInt) (O.lit 0)]), p', ?_, rfl, rfl⟩
        rw [hx, Go.ok_bind]
        simp only [hy, Go.ok_bind]
        rfl
    obtain ⟨s, es, a1, a2⟩ := SplitFFT_ok (O := O) 0 (by omega) t.2 h1'
    obtain ⟨u, p1, eu, b1, b2⟩ := leaf s pos a1 a2
    obtain ⟨z1, ez1, lz1⟩ := MergeFFT_ok (O := O) 0 (by omega) u.1 u.2 b1 b2
    obtain ⟨d, ed, ld⟩ := SubFFT_ok (O := O) t.2 z1 (by omega)
    obtain ⟨mm, em, lm⟩ := MulFFT_ok (O := O) d T.Value (by omega)
    obtain ⟨t0b, et, lt⟩ := AddFFT_ok (O := O) t.1 mm (by omega)
    obtain ⟨s', es', a1', a2'⟩ := SplitFFT_ok (O := O) 0 (by omega) t0b (by omega)
    obtain ⟨u', p1', eu', b1', b2'⟩ := leaf s' p1 a1' a2'
    obtain ⟨z0, ez0, lz0⟩ := MergeFFT_ok (O := O) 0 (by omega) u'.1 u'.2 b1' b2'
    refine ⟨(z0, z1), p1', ?_, lz0, lz1⟩
    rw [FfSamplingFFT]
    simp only
    rw [if_pos (by rw [h0]; decide)]
    simp only [es, Go.ok_bind, eu, ez1, ed, em, et, es', eu', ez0]
    rfl
  | succ k h1 ih =>
    rw [if_neg (by omega)]
    obtain ⟨m, rfl⟩ : ∃ m, fuel = m + 1 := ⟨fuel - 1, by omega⟩
    have hpow : 2 ^ 1 ≤ 2 ^ k := Nat.pow_le_pow_right (by omega) h1
    obtain ⟨s, es, a1, a2⟩ := SplitFFT_ok (O := O) k hk2 t.2 h1'
    have hi := ih (by omega) m (by omega) s a1 a2 pos
    rw [FfSamplingFFT]
    simp only
    rw [if_pos (by rw [h0, pow_succ]; omega)]
    split at hi
    · rename_i hk1
      subst hk1
      obtain ⟨z, pos', ez, b1, b2⟩ := hi
      obtain ⟨z1, ez1, lz1⟩ := MergeFFT_ok (O := O) 1 (by omega) z.1 z.2 b1 b2
      obtain ⟨d, ed, ld⟩ := SubFFT_ok (O := O) t.2 z1 (by omega)
      simp only [es, Go.ok_bind, ez, ez1, ed]
      unfold MulFFT
      rw [if_pos (by rw [hT, ld, h1']; decide)]
      rfl
    · simp only [es, Go.ok_bind, hi]
      rfl

/-- C52, exact form of the violation: if all sampler calls return, then on a tree built by `FfldlFFT` for degree `2^k`, `k ≥ 2`,
`FfSamplingFFT` panics. -/
theorem C52_violated_panic (rand : Rand) (sigmin : O.F) (hS : ∀ mu sigma fuel pos, ∃ r, Samplerz O rand mu sigma sigmin (fuel + 1) pos = .ok r)
    (k : Nat) (hk : 2 ≤ k) (hk2 : k ≤ 10) (fuel : Nat) (hfu : k ≤ fuel) (T0 : FFTtree O) (G : List (List (List O.C)))
    (hG : Mat (2 ^ k) G) : ∃ T, FfldlFFT O fuel T0 G = .ok T ∧
    ∀ fuel' (t : List O.C × List O.C) pos, k + 1 ≤ fuel' → t.1.length = 2 ^ k → t.2.length = 2 ^ k →
      FfSamplingFFT O rand T sigmin fuel' t pos = .panic := by
  obtain ⟨T, e, hT, -⟩ := FfldlFFT_ok k (by omega) hk2 fuel hfu T0 G hG
  refine ⟨T, e, fun fuel' t pos hf h0 h1 => ?_⟩
  have := ffsampling_panics rand T hT sigmin hS k (by omega) hk2 fuel' hf t h0 h1 pos
  rwa [if_neg (by omega)] at this

/-- C52, the part that holds: for degree 2, if all sampler calls return, sampling on the tree built by `FfldlFFT` returns two vectors of
length 2. -/
theorem C52_degree2_partial (rand : Rand) (sigmin : O.F) (hS : ∀ mu sigma fuel pos, ∃ r, Samplerz O rand mu sigma sigmin (fuel + 1) pos = .ok r)
    (fuel : Nat) (hfu : 1 ≤ fuel) (T0 : FFTtree O) (G : List (List (List O.C))) (hG : Mat 2 G) :
    ∃ T, FfldlFFT O fuel T0 G = .ok T ∧ ∀ fuel' (t : List O.C × List O.C) pos, 2 ≤ fuel' → t.1.length = 2 → t.2.length = 2 →
      ∃ z pos', FfSamplingFFT O rand T sigmin fuel' t pos = .ok (z, pos') ∧ z.1.length = 2 ∧ z.2.length = 2 := by
  obtain ⟨T, e, hT, -⟩ := FfldlFFT_ok 1 (by omega) (by omega) fuel hfu T0 G hG
  refine ⟨T, e, fun fuel' t pos hf h0 h1 => ?_⟩
  have := ffsampling_panics rand T hT sigmin hS 1 (by omega) (by omega) fuel' hf t h0 h1 pos
  rwa [if_pos rfl] at this

/-- A floating-point instance with a single value, on which the sampler accepts a zero acceptance byte at once. -/
def unitOps : FloatOps where
  F := Unit
  C := Unit
  lit _ := ()
  ofInt _ := ()
  add _ _ := ()
  sub _ _ := ()
  mul _ _ := ()
  div _ _ := ()
  neg _ := ()
  pow2 _ := ()
  sqrt _ := ()
  floor _ := ()
  round _ := ()
  lt _ _ := false
  toInt _ := 0
  toUInt64 _ := 0
  toInt16 _ := 0
  cplx _ _ := ()
  re _ := ()
  im _ := ()
  cadd _ _ := ()
  csub _ _ := ()
  cmul _ _ := ()
  cdiv _ _ := ()
  cneg _ := ()
  conj _ := ()
  root _ _ := ()

/-- The hypothesis on the sampler can be met. -/
example : ∀ mu sigma fuel pos, ∃ r, Samplerz unitOps (fun _ => some fun _ => 0) mu sigma () (fuel + 1) pos = .ok r := by
  intro mu sigma fuel pos
  refine ⟨(0, pos + 1), ?_⟩
  cases mu; cases sigma
  have h : berexp unitOps () () [0] = .ok true := by decide +kernel
  show (berexp unitOps () () [0] >>= _) = _
  rw [h]
  rfl

/-- A run for degree 2, with rational arithmetic: two vectors of length 2. -/
example : (match FfldlFFT ratOps 1 ⟨[], [], []⟩ [[[(5, 0), (7, 0)], [(3, 0), (1, 0)]], [[(3, 0), (1, 0)], [(6, 0), (8, 0)]]] with
    | .ok T => (match FfSamplingFFT ratOps (fun _ => some fun _ => 0) T (1 : ℚ) 2 ([(0, 0), (0, 0)], [(0, 0), (0, 0)]) 0 with
      | .ok (z, p) => z.1.length == 2 && z.2.length == 2 && p == 4
      | _ => false)
    | _ => false) = true := by decide +kernel

/-- A run for degree 4 on the tree of degree 4: a panic. -/
example : (match FfldlFFT ratOps 2 ⟨[], [], []⟩ [[[(5, 0), (7, 0), (5, 0), (7, 0)], [(3, 0), (1, 0), (3, 0), (1, 0)]],
      [[(3, 0), (1, 0), (3, 0), (1, 0)], [(6, 0), (8, 0), (6, 0), (8, 0)]]] with
    | .ok T => (match FfSamplingFFT ratOps (fun _ => some fun _ => 0) T (1 : ℚ) 3
        ([(0, 0), (0, 0), (0, 0), (0, 0)], [(0, 0), (0, 0), (0, 0), (0, 0)]) 0 with
      | .panic => true
      | _ => false)
    | _ => false) = true := by decide +kernel

end Falcon
