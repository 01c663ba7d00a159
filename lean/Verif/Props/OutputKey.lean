import Verif.Props.Output
/-!
# The printed norm of a private key (C98)
-/

namespace Falcon
open F64 Spec
open scoped ComplexConjugate

theorem splitPolys_len {α : Type} (l : List α) : (splitPolys l).1.length = l.length / 2 ∧ (splitPolys l).2.length = l.length / 2 := by
  induction l using List.twoStepInduction with
  | nil => simp [splitPolys]
  | singleton x => simp [splitPolys]
  | cons_cons x y l ih _ =>
    simp only [splitPolys, List.length_cons, ih]
    omega

/-- The left child of the first tree that `FfldlFFT` prints: the average of `|p(w)|^2` over all roots, which is the sum of the squares of the coefficients. -/
theorem FfldlLines_first (va : Variant) (k : Nat) (h1 : 1 ≤ k) (h2 : k ≤ 10) (fuel : Nat) (hfu : k ≤ fuel) (ps : List (List ℝ))
    (hp : ∀ p ∈ ps, p.length = 2 ^ k) (T : FFTtree va.ops) (a b : List (F64 × F64)) (r : List (List (F64 × F64))) (hG : Mat (2 ^ k) [[a, b], r])
    (e : ℝ) (he : 0 ≤ e) (he1 : e + k / 10 ^ 6 ≤ 1) (ha : List.Forall₂ (CNear e) a ((List.range (2 ^ k)).map fun t => (gramL ps (rootC k t) : ℂ)))
    (hM : ∀ t < 2 ^ k, ‖(gramL ps (rootC k t) : ℂ)‖ ≤ 10 ^ 8) :
    ∃ (T' : FFTtree va.ops) (v : List (F64 × F64)) (z0 z1 : F64 × F64) (rc : List (F64 × F64)) (ls : List (Line va.ops)),
      FfldlLines va.ops fuel T [[a, b], r] = .ok (T', .tree ⟨v, [z0, z1], rc⟩ :: ls) ∧
      CNear (e + k / 10 ^ 6) z0 (normL ps : ℂ) ∧ CNear (e + k / 10 ^ 6) z1 (normL ps : ℂ) := by
  induction k, h1 using Nat.le_induction generalizing T a b r fuel ps e with
  | base =>
    obtain ⟨m, rfl⟩ : ∃ m, fuel = m + 1 := ⟨fuel - 1, by omega⟩
    obtain ⟨g00, g01, r', l10, d11, eG, a1, a2, a3, eq⟩ := FfldlLines_two (O := va.ops) m T _ hG
    simp only [List.cons.injEq, and_true] at eG
    obtain ⟨⟨rfl, rfl⟩, rfl⟩ := eG
    have hv : ∀ t, (gramL ps (rootC 1 t) : ℂ) = (normL ps : ℂ) := by
      intro t
      rw [gramL_two ps (by simpa using hp) _ (by simpa using rootC_pow 1 t)]
    match a, a1, ha with
    | [z0, z1], _, ha =>
      simp only [hv, show List.range (2 ^ 1) = [0, 1] from rfl, List.map_cons, List.map_nil, List.forall₂_cons, List.forall₂_nil_left_iff, and_true] at ha
      exact ⟨_, _, z0, z1, _, _, eq, ha.1.mono (by norm_num), ha.2.mono (by norm_num)⟩
  | succ k h1 ih =>
    obtain ⟨m, rfl⟩ : ∃ m, fuel = m + 1 := ⟨fuel - 1, by omega⟩
    obtain ⟨g00, g01, r', s0, s1, l10, eG, a1, es, m0, m1, eq⟩ := FfldlLines_step (O := va.ops) k h1 h2 m T _ hG
    simp only [List.cons.injEq, and_true] at eG
    obtain ⟨⟨rfl, rfl⟩, rfl⟩ := eG
    have h2p : ∀ p ∈ ps, 2 ∣ p.length := fun p h => by rw [hp p h, pow_succ]; exact ⟨2 ^ k, by ring⟩
    have hk0 : (0 : ℝ) ≤ k := Nat.cast_nonneg k
    have e1 : e ≤ 1 := by push_cast at he1; linarith [div_nonneg hk0 (by norm_num : (0 : ℝ) ≤ 10 ^ 6)]
    have hfun : ((List.range (2 ^ (k + 1))).map fun t => (gramL ps (rootC (k + 1) t) : ℂ)) =
        (List.range' (2 * 0) (2 * 2 ^ k)).map fun j => (gramL (halves ps) (rootC (k + 1) j ^ 2) : ℂ) + rootC (k + 1) j * oddPart ps (rootC (k + 1) j ^ 2) := by
      rw [List.range_eq_range', pow_succ, mul_comm (2 ^ k) 2, Nat.mul_zero]
      exact List.map_congr_left fun t _ => gramL_split ps h2p _ (rootC_conj _ _)
    obtain ⟨rs, Rs, q1, q2, n1, -, b1, -⟩ := split_near_variant va k h2 e (10 ^ 8) (by
      refine le_trans ?_ Big_ge'
      norm_num at *
      linarith) 0 a _ ha (by
        simp only [List.mem_map, List.mem_range]
        rintro _ ⟨t, ht, rfl⟩
        exact hM t ht) (by omega)
    rw [hfun, split_exact k h2 (fun u => (gramL (halves ps) u : ℂ)) (oddPart ps) (2 ^ k) 0 (by omega)] at q2
    have q3 : SplitFFT va.ops a = .ok rs := by
      unfold SplitFFT
      rw [a1]
      exact q1
    rw [es] at q3
    obtain rfl := Go.ok.inj q3
    obtain rfl := Go.ok.inj q2
    simp only at n1 b1
    rw [← List.range_eq_range'] at n1 b1
    have hstep : e + 30 * uu * (10 ^ 8 + e) + 20 * et ≤ e + 1 / 10 ^ 6 := by
      have u0 := uu_pos
      have u1 := uu_le
      have t1 := et_le
      have : uu * (10 ^ 8 + e) ≤ 1 / 9 / 10 ^ 15 * (10 ^ 8 + 1) := mul_le_mul u1 (by linarith) (by positivity) (by positivity)
      norm_num at *
      linarith
    obtain ⟨T1, v, z0, z1, rc, ls, f1, f2, f3⟩ := ih (by omega) m (by omega) (halves ps) (by
        intro p h
        simp only [halves, List.mem_flatMap] at h
        obtain ⟨q, hq, h⟩ := h
        have l := splitPolys_len q
        rw [hp q hq, pow_succ, Nat.mul_div_cancel _ (by norm_num)] at l
        simp only [List.mem_cons, List.not_mem_nil, or_false] at h
        rcases h with rfl | rfl
        · exact l.1
        · exact l.2) { T with Value := l10 } s0.1 s0.2 _ m0 (e + 1 / 10 ^ 6) (by positivity) (by push_cast at he1; linarith)
      (n1.imp fun _ _ h => CNear.mono h hstep) (by
        intro t ht
        exact b1 _ (List.mem_map.2 ⟨t, List.mem_range.2 ht, rfl⟩))
    obtain ⟨T2, ts, g1, -⟩ := FfldlLines_count (O := va.ops) k h1 (by omega) m (by omega) T1 _ m1
    rw [halves_norm ps h2p] at f2 f3
    refine ⟨T2, v, z0, z1, rc, ls ++ ts.map Line.tree ++ [.tree T2], ?_, f2.mono (by push_cast; linarith), f3.mono (by push_cast; linarith)⟩
    rw [eq]
    erw [f1]
    simp only [Go.ok_bind, g1, Go.pure_eq, List.cons_append]

/-- The sum of the squares of the coefficients of `f` and `g`. -/
def keyNorm (f g : List Int16) : Int := ((f ++ g).map fun x => x.toInt ^ 2).sum

theorem keyNorm_eq (f g : List Int16) : (keyNorm f g : ℝ) = sqNorm (realOf f) + sqNorm (realOf g) := by
  have h : ∀ l : List Int16, (((l.map fun x => x.toInt ^ 2).sum : Int) : ℝ) = sqNorm (realOf l) := by
    intro l
    induction l with
    | nil => simp [sqNorm, realOf]
    | cons x l ih =>
      simp only [List.map_cons, List.sum_cons, sqNorm, realOf] at ih ⊢
      rw [Int.cast_add, ih]
      push_cast
      rfl
  rw [keyNorm, List.map_append, List.sum_append]
  push_cast
  rw [← h, ← h]
  push_cast
  rfl

theorem variant_basisLines (va : Variant) (k : Nat) (h1 : 1 ≤ k) (h2 : k ≤ 10) (fuel : Nat) (hfu : 10 ≤ fuel) (f g F G : List Int16)
    (hf : f.length = 2 ^ k) (hg : g.length = 2 ^ k) (hF : F.length = 2 ^ k) (hG : G.length = 2 ^ k) (hN : keyNorm f g ≤ 16822) :
    ∃ (B : List (List (List (F64 × F64)))) (T : FFTtree va.ops) (v : List (F64 × F64)) (z0 z1 : F64 × F64) (rc : List (F64 × F64)) (ts : List (FFTtree va.ops)),
      basisLines va.ops fuel f g F G = .ok ((B, T), (⟨v, [z0, z1], rc⟩ :: ts).map Line.tree) ∧ ts.length + 2 = 2 ^ k ∧ T.Leftchild.length = 2 ∧
      CNear (1 / 50) z0 (keyNorm f g : ℂ) ∧ CNear (1 / 50) z1 (keyNorm f g : ℂ) := by
  have hN' : sqNorm (realOf f) + sqNorm (realOf g) ≤ 16822 := by rw [← keyNorm_eq]; exact_mod_cast hN
  have p2 : (2 : ℝ) ^ k ≤ 1024 := (pow_le_pow_right₀ (by norm_num) h2).trans (by norm_num)
  have p0 : (0 : ℝ) < 2 ^ k := by positivity
  have nn : ∀ l : List ℝ, 0 ≤ sqNorm l := fun l => List.sum_nonneg (by simp only [List.mem_map]; rintro _ ⟨a, -, rfl⟩; positivity)
  have small : ∀ l : List Int16, l.length = 2 ^ k → sqNorm (realOf l) ≤ 16822 → l1 (realOf l) ≤ 4151 := by
    intro l hl h
    have := l1_sq_le (realOf l)
    rw [realOf, List.length_map, hl] at this
    push_cast at this
    have := this.trans (mul_le_mul p2 h (nn _) (by norm_num))
    exact (abs_le_of_sq_le_sq' (this.trans (by norm_num : (1024 : ℝ) * 16822 ≤ 4151 ^ 2)) (by norm_num)).2
  have large : ∀ l : List Int16, l.length = 2 ^ k → l1 (realOf l) ≤ 10 ^ 9 := by
    intro l hl
    have := l1_int16 l
    rw [hl] at this
    push_cast at this
    linarith
  have neg : ∀ l : List Int16, l1 (l.map fun x => -(x.toInt : ℝ)) = l1 (realOf l) := by
    intro l
    simp [l1, realOf, Function.comp_def]
  have bf := small _ hf (by linarith [nn (realOf g)])
  have bg := small _ hg (by linarith [nn (realOf f)])
  have bF := large _ hF
  have bG := large _ hG
  obtain ⟨B, eB, mB, fB, rB⟩ := float_basis va k f g F G hf hg hF hG
  have hS : RowBound (basisOf f g F G) ![4152, 10 ^ 10] := by
    intro i j
    fin_cases i <;> fin_cases j
    · show l1 (realOf g) + 1 ≤ 4152
      linarith
    · show l1 (f.map fun x => -(x.toInt : ℝ)) + 1 ≤ 4152
      rw [neg]; linarith
    · show l1 (realOf G) + 1 ≤ 10 ^ 10
      linarith
    · show l1 (F.map fun x => -(x.toInt : ℝ)) + 1 ≤ 10 ^ 10
      rw [neg]; linarith
  have hS2 : ∀ i, (![4152, 10 ^ 10] : Fin 2 → ℝ) i ≤ 10 ^ 10 := by intro i; fin_cases i <;> norm_num
  obtain ⟨G0, M, e0, e1, mM, fM, vM⟩ := variant_C97_gram_fft va k h1 h2 B mB fB _ (by rw [rB]; exact hS) hS2
  have hl : ∀ i j : Fin 2, l1 (((realM B).getD i []).getD j []) + 1 ≤ (![4152, 10 ^ 10] : Fin 2 → ℝ) i := by rw [rB]; exact hS
  obtain ⟨B', e2, -, -, -⟩ := variant_C97_fft3D va k h1 h2 B mB fB (fun i j => by
    have := hl i j
    have := hS2 i
    norm_num at *
    linarith)
  obtain ⟨T, ts, c1, c2, c3, c4⟩ := FfldlLines_count (O := va.ops) k h1 h2 fuel (by omega) ⟨[], [], []⟩ M mM
  have hg' : ∀ w, gramL [realOf f, realOf g] w = gramAt (int16ToBigInt f) (int16ToBigInt g) w := by
    intro w
    rw [gramAt, realI_int16, realI_int16]
    simp [gramL]
  have hn' : normL [realOf f, realOf g] = keyNorm f g := by
    rw [keyNorm_eq]
    simp [normL]
  obtain ⟨a, b, c, d, rfl, la, lb, lc, ld⟩ := mM
  have hcl : ∀ t (ht : t < 2 ^ k), CNear (72 / 10 ^ 4) (a[t]'(by omega)) (gramL [realOf f, realOf g] (rootC k t) : ℂ) := by
    intro t ht
    refine ⟨?_, ?_⟩
    · exact fM [a, b] (by simp) a (by simp) _ (List.getElem_mem _)
    · have q := vM t ht 0 0
      rw [rB, (gram_entries f g F G (rootC k t)).1, ← hg'] at q
      have e : fslot [[a, b], [c, d]] t 0 0 = cval (a[t]'(by omega)) := by
        rw [fslot_mk]
        simp [la, ht]
      rw [e] at q
      refine q.trans ?_
      have : (![4152, 10 ^ 10] : Fin 2 → ℝ) 0 = 4152 := rfl
      rw [this]
      linarith
  obtain ⟨T', v, z0, z1, rc, ls, f1, f2, f3⟩ := FfldlLines_first va k h1 h2 fuel (by omega) [realOf f, realOf g] (by simp [realOf, hf, hg]) ⟨[], [], []⟩ a b
    [c, d] ⟨_, _, _, _, rfl, la, lb, lc, ld⟩ (72 / 10 ^ 4) (by norm_num) (by
      have : (k : ℝ) ≤ 10 := by exact_mod_cast h2
      linarith) (by
      rw [List.forall₂_iff_get]
      refine ⟨by simp [la], fun t ht _ => ?_⟩
      simp only [List.get_eq_getElem, List.getElem_map, List.getElem_range]
      exact hcl t (by omega)) (by
      intro t ht
      have n1 := evalR_norm (realOf f) _ (rootC_norm k t)
      have n2 := evalR_norm (realOf g) _ (rootC_norm k t)
      have s1 : ‖evalR (realOf f) (rootC k t)‖ ^ 2 ≤ 4151 ^ 2 := pow_le_pow_left₀ (norm_nonneg _) (n1.trans bf) 2
      have s2 : ‖evalR (realOf g) (rootC k t)‖ ^ 2 ≤ 4151 ^ 2 := pow_le_pow_left₀ (norm_nonneg _) (n2.trans bg) 2
      have hpos : 0 ≤ gramL [realOf f, realOf g] (rootC k t) := by
        simp only [gramL, List.map_cons, List.map_nil, List.sum_cons, List.sum_nil]
        have := Complex.normSq_nonneg (evalR (realOf f) (rootC k t))
        have := Complex.normSq_nonneg (evalR (realOf g) (rootC k t))
        linarith
      rw [Complex.norm_real, Real.norm_of_nonneg hpos]
      simp only [gramL, List.map_cons, List.map_nil, List.sum_cons, List.sum_nil, Complex.normSq_eq_norm_sq]
      linarith)
  rw [hn'] at f2 f3
  have hk10 : (k : ℝ) ≤ 10 := by exact_mod_cast h2
  rw [c1] at f1
  obtain ⟨rfl, hts⟩ := Prod.mk.inj (Go.ok.inj f1)
  match ts, hts, c1, c2, c3, c4 with
  | t0 :: ts, hts, c1, c2, c3, c4 =>
    simp only [List.map_cons, List.cons.injEq, Line.tree.injEq] at hts
    obtain ⟨rfl, -⟩ := hts
    refine ⟨B', T, v, z0, z1, rc, ts, ?_, ?_, (c4 T (List.mem_of_getLast? c3)).2.1, ?_, ?_⟩
    · unfold basisLines
      simp only [← eB, e0, e1, e2, Go.ok_bind, Go.pure_eq]
      erw [c1]
      rfl
    · simpa using c2
    · exact_mod_cast f2.mono (by linarith)
    · exact_mod_cast f3.mono (by linarith)

/-- What is printed after the trees. -/
theorem normalizeLines_ok {O : FloatOps} (T : FFTtree O) (sigma : O.F) (h : T.Leftchild.length = 2) :
    ∃ t, normalizeLines O (T.AllChild O) sigma = .ok (t, [.normalize sigma (T.AllChild O)]) := by
  match hT : T.Leftchild, h with
  | [a, b], _ =>
    unfold FFTtree.AllChild normalizeLines normalizeLeaf
    simp only [hT, List.length_cons, List.length_nil, idx, List.getElem?_cons_zero, Go.ok_bind, Go.pure_eq]
    exact ⟨_, rfl⟩

theorem DivZq_returns (k : Nat) (h1 : 1 ≤ k) (h2 : k ≤ 10) (f g : List Int16) (hf : f.length = 2 ^ k) (hg : g.length = 2 ^ k) :
    ∃ r, DivZq wrap64 g f = .ok r := by
  by_cases hu : ∃ u : Polynomial Zq, (Polynomial.X ^ 2 ^ k + 1 : Polynomial Zq) ∣ polyQ f * u - 1
  · obtain ⟨r, er, -⟩ := (C12_divzq k h1 h2 g f hg hf).1 hu
    exact ⟨_, er⟩
  · exact ⟨_, (C12_divzq k h1 h2 g f hg hf).2 hu⟩

theorem variant_C98_violated_import (va : Variant) (k : Nat) (h1 : 1 ≤ k) (h2 : k ≤ 10) (fuel : Nat) (hfu : 10 ≤ fuel) (n : UInt16) (hn : n.toNat = 2 ^ k)
    (f g F G : List Int16) (hf : f.length = 2 ^ k) (hg : g.length = 2 ^ k) (hF : F.length = 2 ^ k) (hG : G.length = 2 ^ k) (hN : keyNorm f g ≤ 16822) :
    ∃ (v rc : List (F64 × F64)) (z0 z1 : F64 × F64) (ls : List (Line va.ops)),
      FromPrivateKeyLines va.ops fuel n f g F G = .ok (.ok (none, none), .tree ⟨v, [z0, z1], rc⟩ :: ls) ∧ ls.length + 1 = 2 ^ k ∧
      CNear (1 / 50) z0 (keyNorm f g : ℂ) ∧ CNear (1 / 50) z1 (keyNorm f g : ℂ) := by
  obtain ⟨B, T, v, z0, z1, rc, ts, e, c, l, q0, q1⟩ := variant_basisLines va k h1 h2 fuel hfu f g F G hf hg hF hG hN
  obtain ⟨t, e1⟩ := normalizeLines_ok T (va.ops.lit (GetParamSet n).sigma) l
  obtain ⟨d, e2⟩ := DivZq_returns k h1 h2 f g hf hg
  refine ⟨v, rc, z0, z1, ts.map Line.tree ++ [.normalize (va.ops.lit (GetParamSet n).sigma) (T.AllChild va.ops)], ?_, by simp; omega, q0, q1⟩
  unfold FromPrivateKeyLines
  rw [if_neg (by simp [(isValidDegree_iff n).2 ⟨k, h1, h2, hn⟩]), isValidPolysLength_eq k h1 h2 n hn, Go.ok_bind,
    if_neg (by rw [hf, hg, hF, hG, hn]; simp; exact ⟨1, by ring⟩)]
  erw [e]
  simp only [Go.ok_bind]
  erw [e1]
  simp only [Go.ok_bind, e2]
  rfl

theorem variant_C98_violated_generated (va : Variant) (rand : Rand) (fuel : Nat) (hfu : 10 ≤ fuel) (n : UInt16) (pos : Nat) (key : PrivateKey) (pos' : Nat)
    (h : GeneratePrivateKey va.ops rand fuel n pos = .ok (.ok (key, pos'))) :
    ∃ (v rc : List (F64 × F64)) (z0 z1 : F64 × F64) (ls : List (Line va.ops)),
      NewKeyPairLines va.ops rand fuel n pos = .ok (.ok (some key, none), .tree ⟨v, [z0, z1], rc⟩ :: ls) ∧ ls.length + 1 = n.toNat ∧
      CNear (1 / 50) z0 (keyNorm key.f key.g : ℂ) ∧ CNear (1 / 50) z1 (keyNorm key.f key.g : ℂ) := by
  obtain ⟨⟨k, h1, h2, hn⟩, -, hq⟩ := GeneratePrivateKey_ok va.ops rand fuel n pos key pos' h
  obtain ⟨-, lf, lg, lF, lG, -⟩ := C42_mod16_partial va.ops rand fuel n pos key pos' h
  obtain ⟨fuel', F, G, norm, r, lf', lg', en, hlt, -⟩ := NtruGen_ok va.ops rand fuel n pos _ pos' hq
  rw [hn] at lf lg lF lG ⊢
  have s1 := (variant_C68_first va) k h2 _ _ lf lg norm en hlt
  rw [realI_int16, realI_int16, ← keyNorm_eq] at s1
  obtain ⟨B, T, v, z0, z1, rc, ts, e, c, l, q0, q1⟩ := variant_basisLines va k h1 h2 fuel hfu key.f key.g key.F key.G lf lg lF lG (by exact_mod_cast s1)
  obtain ⟨t, e1⟩ := normalizeLines_ok T (va.ops.lit (GetParamSet n).sigma) l
  obtain ⟨d, e2⟩ := DivZq_returns k h1 h2 key.f key.g lf lg
  refine ⟨v, rc, z0, z1, ts.map Line.tree ++ [.normalize (va.ops.lit (GetParamSet n).sigma) (T.AllChild va.ops)], ?_, by simp; omega, q0, q1⟩
  unfold NewKeyPairLines
  rw [h]
  simp only [Go.ok_bind]
  erw [e]
  simp only [Go.ok_bind]
  erw [e1]
  simp only [Go.ok_bind, e2]
  rfl

/-- Two numbers near different integers are different. -/
theorem near_ne (z z' : F64 × F64) (a b : Int) (h : CNear (1 / 50) z (a : ℂ)) (h' : CNear (1 / 50) z' (b : ℂ)) (hab : a ≠ b) : z ≠ z' := by
  rintro rfl
  have h1 : ‖((a - b : Int) : ℂ)‖ ≤ 1 / 25 := by
    have : ((a - b : Int) : ℂ) = (cval z - b) - (cval z - a) := by push_cast; ring
    rw [this]
    refine (norm_sub_le _ _).trans ?_
    linarith [h.2, h'.2]
  rw [Complex.norm_intCast] at h1
  have : (1 : ℝ) ≤ |((a - b : Int) : ℝ)| := by exact_mod_cast Int.one_le_abs (sub_ne_zero.2 hab)
  linarith

end Falcon
