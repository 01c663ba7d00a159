import Verif.Props.OutputKey
/-!
# C98: the output of key generation shows the private key
-/

namespace Falcon
open F64 Spec Polynomial

/-- A printed line with other representations of the numbers. -/
def lineMap {O P : FloatOps} (h : TreeHom O P) : Line O → Line P
  | .tree T => .tree (treeMap h.c T)
  | .normalize sigma t => .normalize (h.f sigma) (t.map (List.map h.c))

namespace TreeHom
variable {O P : FloatOps} (h : TreeHom O P)

theorem FfldlLines_eq (fuel : Nat) (T : FFTtree O) (G : List (List (List O.C))) :
    FfldlLines P fuel (treeMap h.c T) (G.map (List.map (List.map h.c))) =
      Go.map' (fun r => (treeMap h.c r.1, r.2.map (lineMap h))) (FfldlLines O fuel T G) := by
  induction fuel generalizing T G with
  | zero => rfl
  | succ fuel ih =>
    simp only [FfldlLines, idx2_hom, h.LdlFFT_eq, map'_bind, map'_of_bind, List.length_map]
    refine congrArg _ (funext fun g00 => congrArg _ (funext fun r => congrArg _ (funext fun l10 => congrArg _ (funext fun d0 => congrArg _ (funext fun d1 => ?_)))))
    split
    · rfl
    · simp only [h.SplitFFT_eq, map'_bind, map'_of_bind, h.AdjFFT_eq]
      refine congrArg _ (funext fun s0 => congrArg _ (funext fun s1 => ?_))
      have e0 := ih { T with Value := l10 } [[s0.1, s0.2], [AdjFFT O s0.2, s0.1]]
      have e1 := fun T => ih T [[s1.1, s1.2], [AdjFFT O s1.2, s1.1]]
      simp only [List.map_cons, List.map_nil] at e0 e1
      have e2 : ({ treeMap h.c T with Value := l10.map h.c } : FFTtree P) = treeMap h.c { T with Value := l10 } := rfl
      rw [e2, e0]
      simp only [map'_bind, e1, Go.pure_eq, map'_ok, List.map_append, List.map_cons, List.map_nil]
      rfl

theorem basisLines_eq (fuel : Nat) (f g F G : List Int16) : basisLines P fuel f g F G =
    Go.map' (fun r => ((r.1.1.map (List.map (List.map h.c)), treeMap h.c r.1.2), r.2.map (lineMap h))) (basisLines O fuel f g F G) := by
  have e := h.Gram_eq [[Int16ToFloat64 O g, Neg O (Int16ToFloat64 O f)], [Int16ToFloat64 O G, Neg O (Int16ToFloat64 O F)]]
  have e1 := h.fft3D_eq [[Int16ToFloat64 O g, Neg O (Int16ToFloat64 O f)], [Int16ToFloat64 O G, Neg O (Int16ToFloat64 O F)]]
  have e2 := fun G0 => h.FfldlLines_eq fuel ⟨[], [], []⟩ G0
  have e3 : treeMap h.c (⟨[], [], []⟩ : FFTtree O) = ⟨[], [], []⟩ := rfl
  rw [e3] at e2
  simp only [List.map_cons, List.map_nil] at e e1
  unfold basisLines
  simp only [h.Int16_eq, h.Neg_eq, e, e1, h.fft3D_eq, e2, map'_bind, map'_of_bind, Go.pure_eq, map'_ok]

theorem normalizeLines_eq (tree : List (List O.C)) (sigma : O.F) :
    normalizeLines P (tree.map (List.map h.c)) (h.f sigma) =
      Go.map' (fun r => (r.1.map (List.map h.c), r.2.map (lineMap h))) (normalizeLines O tree sigma) := by
  unfold normalizeLines
  simp only [List.length_map, idx_hom]
  split <;> simp only [h.leaf_eq, map'_bind, map'_of_bind, Go.pure_eq, map'_ok, List.map_set, List.map_cons, List.map_nil, lineMap]

theorem FromPrivateKeyLines_eq (fuel : Nat) (n : UInt16) (f g F G : List Int16) : FromPrivateKeyLines P fuel n f g F G =
    Go.map' (fun r => (r.1, r.2.map (lineMap h))) (FromPrivateKeyLines O fuel n f g F G) := by
  unfold FromPrivateKeyLines
  split
  · rfl
  · rw [map'_of_bind]
    refine congrArg _ (funext fun b => ?_)
    split
    · rfl
    · have e := fun T : FFTtree O => h.normalizeLines_eq (T.AllChild O) (O.lit (GetParamSet n).sigma)
      rw [h.basisLines_eq, map'_bind, map'_of_bind]
      refine congrArg _ (funext fun r => ?_)
      have e := e r.1.2
      rw [show (r.1.2.AllChild O).map (List.map h.c) = (treeMap h.c r.1.2).AllChild P from rfl, ← h.lit] at e
      simp only [e, map'_bind, map'_of_bind, Go.pure_eq, map'_ok, List.map_append]

theorem NewKeyPairLines_eq (rand : Rand) (fuel : Nat) (n : UInt16) (pos : Nat)
    (hg : GeneratePrivateKey P rand fuel n pos = GeneratePrivateKey O rand fuel n pos) : NewKeyPairLines P rand fuel n pos =
      Go.map' (fun r => (r.1, r.2.map (lineMap h))) (NewKeyPairLines O rand fuel n pos) := by
  unfold NewKeyPairLines
  rw [hg, map'_of_bind]
  refine congrArg _ (funext fun b => ?_)
  rcases b with b | ⟨key, p⟩
  · rfl
  · simp only
    rw [h.basisLines_eq, map'_bind, map'_of_bind]
    refine congrArg _ (funext fun r => ?_)
    have e := h.normalizeLines_eq (r.1.2.AllChild O) (O.lit (GetParamSet n).sigma)
    rw [show (r.1.2.AllChild O).map (List.map h.c) = (treeMap h.c r.1.2).AllChild P from rfl, ← h.lit] at e
    simp only [e, map'_bind, map'_of_bind, Go.pure_eq, map'_ok, List.map_append]

end TreeHom

theorem near_round (z : F64 × F64) (a : Int) (h : CNear (1 / 50) z (a : ℂ)) : |R z.1 - a| ≤ 1 / 50 ∧ round (R z.1) = a := by
  have h1 : |R z.1 - a| ≤ 1 / 50 := by
    have := (Complex.abs_re_le_norm _).trans h.2
    simpa [cval] using this
  refine ⟨h1, ?_⟩
  rw [abs_le] at h1
  rw [round_eq, Int.floor_eq_iff]
  constructor <;> push_cast <;> linarith [h1.1, h1.2]

theorem basisLines_ok {O : FloatOps} (k : Nat) (h1 : 1 ≤ k) (h2 : k ≤ 10) (fuel : Nat) (hfu : 10 ≤ fuel) (f g F G : List Int16)
    (hf : f.length = 2 ^ k) (hg : g.length = 2 ^ k) (hF : F.length = 2 ^ k) (hG : G.length = 2 ^ k) :
    ∃ (B : List (List (List O.C))) (T : FFTtree O) (ts : List (FFTtree O)), basisLines O fuel f g F G = .ok ((B, T), ts.map Line.tree) ∧
      ts.length + 1 = 2 ^ k ∧ ts.getLast? = some T ∧ T.Leftchild.length = 2 ∧ T.Rightchild.length = 2 := by
  have hB : Mat (2 ^ k) [[Int16ToFloat64 O g, Neg O (Int16ToFloat64 O f)], [Int16ToFloat64 O G, Neg O (Int16ToFloat64 O F)]] :=
    ⟨_, _, _, _, rfl, by simp [Int16ToFloat64, hg], by simp [Int16ToFloat64, Falcon.Neg, hf], by simp [Int16ToFloat64, hG],
      by simp [Int16ToFloat64, Falcon.Neg, hF]⟩
  obtain ⟨G0, e0, m0⟩ := Gram_ok (O := O) k h1 h2 _ hB
  obtain ⟨B', e1, -⟩ := fft3D_ok (O := O) k h1 h2 _ hB
  obtain ⟨M, e2, m2⟩ := fft3D_ok (O := O) k h1 h2 _ m0
  obtain ⟨T, ts, c1, c2, c3, c4⟩ := FfldlLines_count (O := O) k h1 h2 fuel (by omega) ⟨[], [], []⟩ M m2
  refine ⟨B', T, ts, ?_, c2, c3, (c4 T (List.mem_of_getLast? c3)).2⟩
  unfold basisLines
  simp only [e0, e1, e2, c1, Go.ok_bind, Go.pure_eq]

/-- C98: everything that is printed. `NewKeyPairFromPrivateKey` prints `n - 1` trees, then one line with the standard deviation of the degree and the
children of the last of these trees; an argument that is rejected prints nothing. Whatever the floating-point operations. -/
theorem C98_lines (O : FloatOps) (k : Nat) (h1 : 1 ≤ k) (h2 : k ≤ 10) (fuel : Nat) (hfu : 10 ≤ fuel) (n : UInt16) (hn : n.toNat = 2 ^ k)
    (f g F G : List Int16) (hf : f.length = 2 ^ k) (hg : g.length = 2 ^ k) (hF : F.length = 2 ^ k) (hG : G.length = 2 ^ k) :
    (∃ (ts : List (FFTtree O)) (T : FFTtree O), FromPrivateKeyLines O fuel n f g F G = .ok (.ok (none, none),
      ts.map Line.tree ++ [.normalize (O.lit (GetParamSet n).sigma) [T.Leftchild, T.Rightchild]]) ∧ ts.length + 1 = 2 ^ k ∧ ts.getLast? = some T) ∧
    ∀ n' f' g' F' G' e out, FromPrivateKeyLines O fuel n' f' g' F' G' = .ok (.error e, out) → out = [] := by
  constructor
  · obtain ⟨B, T, ts, e, c, l, l2, -⟩ := basisLines_ok (O := O) k h1 h2 fuel hfu f g F G hf hg hF hG
    obtain ⟨t, e1⟩ := normalizeLines_ok T (O.lit (GetParamSet n).sigma) l2
    obtain ⟨d, e2⟩ := DivZq_returns k h1 h2 f g hf hg
    refine ⟨ts, T, ?_, c, l⟩
    unfold FromPrivateKeyLines
    rw [if_neg (by simp [(isValidDegree_iff n).2 ⟨k, h1, h2, hn⟩]), isValidPolysLength_eq k h1 h2 n hn, Go.ok_bind,
      if_neg (by rw [hf, hg, hF, hG, hn]; simp; exact ⟨1, by ring⟩)]
    simp only [e, e1, e2, Go.ok_bind]
    rfl
  · intro n' f' g' F' G' e out h
    unfold FromPrivateKeyLines at h
    split at h
    · simp only [Go.pure_eq, Go.ok.injEq, Prod.mk.injEq] at h
      exact h.2.symm
    · obtain ⟨b, -, h⟩ := Go.bind_eq_ok.1 h
      split at h
      · simp only [Go.pure_eq, Go.ok.injEq, Prod.mk.injEq] at h
        exact h.2.symm
      · obtain ⟨r, -, h⟩ := Go.bind_eq_ok.1 h
        obtain ⟨r', -, h⟩ := Go.bind_eq_ok.1 h
        obtain ⟨r'', -, h⟩ := Go.bind_eq_ok.1 h
        simp at h

/-- C98: the same for every key generated by `NewKeyPair`. -/
theorem C98_lines_generated (O : FloatOps) (rand : Rand) (fuel : Nat) (hfu : 10 ≤ fuel) (n : UInt16) (pos : Nat) (key : PrivateKey) (pos' : Nat)
    (h : GeneratePrivateKey O rand fuel n pos = .ok (.ok (key, pos'))) :
    ∃ (ts : List (FFTtree O)) (T : FFTtree O), NewKeyPairLines O rand fuel n pos = .ok (.ok (some key, none),
      ts.map Line.tree ++ [.normalize (O.lit (GetParamSet n).sigma) [T.Leftchild, T.Rightchild]]) ∧ ts.length + 1 = n.toNat ∧ ts.getLast? = some T := by
  obtain ⟨⟨k, h1, h2, hn⟩, -, -⟩ := GeneratePrivateKey_ok O rand fuel n pos key pos' h
  obtain ⟨-, lf, lg, lF, lG, -⟩ := C42_mod16_partial O rand fuel n pos key pos' h
  rw [hn] at lf lg lF lG ⊢
  obtain ⟨B, T, ts, e, c, l, l2, -⟩ := basisLines_ok (O := O) k h1 h2 fuel hfu key.f key.g key.F key.G lf lg lF lG
  obtain ⟨t, e1⟩ := normalizeLines_ok T (O.lit (GetParamSet n).sigma) l2
  obtain ⟨d, e2⟩ := DivZq_returns k h1 h2 key.f key.g lf lg
  refine ⟨ts, T, ?_, c, l⟩
  unfold NewKeyPairLines
  rw [h]
  simp only [e, e1, e2, Go.ok_bind]
  rfl

/-- C98: a failure of `NewKeyPair` prints nothing. -/
theorem C98_lines_error (O : FloatOps) (rand : Rand) (fuel : Nat) (n : UInt16) (pos : Nat) (e : KeyErr) (out : List (Line O))
    (h : NewKeyPairLines O rand fuel n pos = .ok (.error e, out)) : out = [] := by
  unfold NewKeyPairLines at h
  obtain ⟨r, -, h⟩ := Go.bind_eq_ok.1 h
  rcases r with e' | ⟨k, p⟩
  · simp only [Go.pure_eq, Go.ok.injEq, Prod.mk.injEq] at h
    exact h.2.symm
  · obtain ⟨r, -, h⟩ := Go.bind_eq_ok.1 h
    obtain ⟨r', -, h⟩ := Go.bind_eq_ok.1 h
    obtain ⟨r'', -, h⟩ := Go.bind_eq_ok.1 h
    simp at h

example : NewKeyPairLines unitOps (fun _ => none) 10 3 0 = .ok (.error .invalidDegree, []) := rfl

/-- C98 is violated: the first number that `NewKeyPairFromPrivateKey` prints after the label of the left child, rounded to an integer, is the sum of the squares of
the coefficients of `f` and `g`. -/
theorem C98_violated_import (k : Nat) (h1 : 1 ≤ k) (h2 : k ≤ 10) (fuel : Nat) (hfu : 10 ≤ fuel) (n : UInt16) (hn : n.toNat = 2 ^ k)
    (f g F G : List Int16) (hf : f.length = 2 ^ k) (hg : g.length = 2 ^ k) (hF : F.length = 2 ^ k) (hG : G.length = 2 ^ k) (hN : keyNorm f g ≤ 16822) :
    ∃ (v rc : List (F64 × F64)) (z0 z1 : F64 × F64) (ls : List (Line ieeeOps)),
      FromPrivateKeyLines ieeeOps fuel n f g F G = .ok (.ok (none, none), .tree ⟨v, [z0, z1], rc⟩ :: ls) ∧ ls.length + 1 = 2 ^ k ∧
      z0.1.isFinite = true ∧ |R z0.1 - keyNorm f g| ≤ 1 / 50 ∧ round (R z0.1) = keyNorm f g := by
  obtain ⟨v, rc, z0, z1, ls, e, l, q, -⟩ := variant_C98_violated_import amd64V k h1 h2 fuel hfu n hn f g F G hf hg hF hG hN
  exact ⟨v, rc, z0, z1, ls, e, l, q.1.1, near_round _ _ q⟩

/-- C98: on every accurate platform. -/
theorem C98_violated_import_platform (P : Platform) (hP : P.Accurate) (k : Nat) (h1 : 1 ≤ k) (h2 : k ≤ 10) (fuel : Nat) (hfu : 10 ≤ fuel) (n : UInt16)
    (hn : n.toNat = 2 ^ k) (f g F G : List Int16) (hf : f.length = 2 ^ k) (hg : g.length = 2 ^ k) (hF : F.length = 2 ^ k) (hG : G.length = 2 ^ k)
    (hN : keyNorm f g ≤ 16822) :
    ∃ (v rc : List (Reg × Reg)) (z0 z1 : F64 × F64) (ls : List (Line P.ops)),
      FromPrivateKeyLines P.ops fuel n f g F G = .ok (.ok (none, none), .tree ⟨v, [memC z0, memC z1], rc⟩ :: ls) ∧ ls.length + 1 = 2 ^ k ∧
      z0.1.isFinite = true ∧ |R z0.1 - keyNorm f g| ≤ 1 / 50 ∧ round (R z0.1) = keyNorm f g := by
  obtain ⟨v, rc, z0, z1, ls, e, l, q, -⟩ := variant_C98_violated_import (P.variant hP) k h1 h2 fuel hfu n hn f g F G hf hg hF hG hN
  have t := (P.treeHom hP).FromPrivateKeyLines_eq fuel n f g F G
  rw [e] at t
  exact ⟨_, _, z0, z1, ls.map (lineMap (P.treeHom hP)), t, by simpa using l, q.1.1, near_round _ _ q⟩

/-- C98 is violated: every successful key generation prints the sum of the squares of the coefficients of `f` and `g`. -/
theorem C98_violated_generated (rand : Rand) (fuel : Nat) (hfu : 10 ≤ fuel) (n : UInt16) (pos : Nat) (key : PrivateKey) (pos' : Nat)
    (h : GeneratePrivateKey ieeeOps rand fuel n pos = .ok (.ok (key, pos'))) :
    ∃ (v rc : List (F64 × F64)) (z0 z1 : F64 × F64) (ls : List (Line ieeeOps)),
      NewKeyPairLines ieeeOps rand fuel n pos = .ok (.ok (some key, none), .tree ⟨v, [z0, z1], rc⟩ :: ls) ∧ ls.length + 1 = n.toNat ∧
      z0.1.isFinite = true ∧ |R z0.1 - keyNorm key.f key.g| ≤ 1 / 50 ∧ round (R z0.1) = keyNorm key.f key.g := by
  obtain ⟨v, rc, z0, z1, ls, e, l, q, -⟩ := variant_C98_violated_generated amd64V rand fuel hfu n pos key pos' h
  exact ⟨v, rc, z0, z1, ls, e, l, q.1.1, near_round _ _ q⟩

/-- C98: on every accurate platform. -/
theorem C98_violated_generated_platform (P : Platform) (hP : P.Accurate) (rand : Rand) (fuel : Nat) (hfu : 10 ≤ fuel) (n : UInt16) (pos : Nat)
    (key : PrivateKey) (pos' : Nat) (h : GeneratePrivateKey P.ops rand fuel n pos = .ok (.ok (key, pos'))) :
    ∃ (v rc : List (Reg × Reg)) (z0 z1 : F64 × F64) (ls : List (Line P.ops)),
      NewKeyPairLines P.ops rand fuel n pos = .ok (.ok (some key, none), .tree ⟨v, [memC z0, memC z1], rc⟩ :: ls) ∧ ls.length + 1 = n.toNat ∧
      z0.1.isFinite = true ∧ |R z0.1 - keyNorm key.f key.g| ≤ 1 / 50 ∧ round (R z0.1) = keyNorm key.f key.g := by
  have hg := P.generate_eq hP rand fuel n pos
  rw [hg] at h
  obtain ⟨v, rc, z0, z1, ls, e, l, q, -⟩ := variant_C98_violated_generated (P.variant hP) rand fuel hfu n pos key pos' h
  have t := (P.treeHom hP).NewKeyPairLines_eq rand fuel n pos hg
  rw [e] at t
  exact ⟨_, _, z0, z1, ls.map (lineMap (P.treeHom hP)), t, by simpa using l, q.1.1, near_round _ _ q⟩

/-- C98: private keys of the same degree whose norms differ print different lines, on every accurate platform. -/
theorem C98_violated_differs (P : Platform) (hP : P.Accurate) (k : Nat) (h1 : 1 ≤ k) (h2 : k ≤ 10) (fuel : Nat) (hfu : 10 ≤ fuel) (n : UInt16)
    (hn : n.toNat = 2 ^ k) (f g F G f' g' F' G' : List Int16) (hl : ∀ p ∈ [f, g, F, G, f', g', F', G'], p.length = 2 ^ k)
    (hN : keyNorm f g ≤ 16822) (hN' : keyNorm f' g' ≤ 16822) (hne : keyNorm f g ≠ keyNorm f' g') :
    ∃ out out', FromPrivateKeyLines P.ops fuel n f g F G = .ok (.ok (none, none), out) ∧
      FromPrivateKeyLines P.ops fuel n f' g' F' G' = .ok (.ok (none, none), out') ∧ out ≠ out' := by
  simp only [List.forall_mem_cons, List.not_mem_nil, false_imp_iff, implies_true, and_true] at hl
  obtain ⟨a1, a2, a3, a4, a5, a6, a7, a8⟩ := hl
  obtain ⟨v, rc, z0, z1, ls, e, -, -, -, q⟩ := C98_violated_import_platform P hP k h1 h2 fuel hfu n hn f g F G a1 a2 a3 a4 hN
  obtain ⟨v', rc', z0', z1', ls', e', -, -, -, q'⟩ := C98_violated_import_platform P hP k h1 h2 fuel hfu n hn f' g' F' G' a5 a6 a7 a8 hN'
  refine ⟨_, _, e, e', fun h => hne ?_⟩
  simp only [List.cons.injEq, Line.tree.injEq, FFTtree.mk.injEq, memC, Prod.mk.injEq, Reg.num.injEq] at h
  rw [← q, ← q', h.1.2.1.1.1]

/-- A constant polynomial of degree below `2^k`. -/
def constPoly (k : Nat) (c : Int16) : List Int16 := c :: List.replicate (2 ^ k - 1) 0

theorem constPoly_poly (k : Nat) (c : Int16) : polyZ (int16ToBigInt (constPoly k c)) = C c.toInt := by
  have h : ∀ m : Nat, polyZ (int16ToBigInt (List.replicate m 0)) = 0 := by
    intro m
    induction m with
    | zero => simp [int16ToBigInt, polyZ, poly]
    | succ m ih =>
      simp only [int16ToBigInt, polyZ, List.replicate_succ, List.map_cons, poly] at ih ⊢
      rw [ih]
      simp
  have := h (2 ^ k - 1)
  simp only [int16ToBigInt, polyZ, constPoly, List.map_cons, poly] at this ⊢
  rw [this]
  simp

theorem constPoly_norm (k : Nat) (a b : Int16) : keyNorm (constPoly k a) (constPoly k b) = a.toInt ^ 2 + b.toInt ^ 2 := by
  simp [keyNorm, constPoly]

/-- C98 is violated at every degree: two private keys that both satisfy the NTRU equation and print different lines. -/
theorem C98_violated (P : Platform) (hP : P.Accurate) (k : Nat) (h1 : 1 ≤ k) (h2 : k ≤ 10) (fuel : Nat) (hfu : 10 ≤ fuel) (n : UInt16)
    (hn : n.toNat = 2 ^ k) :
    ∃ (f g F G f' g' F' G' : List Int16), (∀ p ∈ [f, g, F, G, f', g', F', G'], p.length = 2 ^ k) ∧
      CongrZ (2 ^ k) (ntruDet (int16ToBigInt f) (int16ToBigInt g) (int16ToBigInt F) (int16ToBigInt G)) (C 12289) ∧
      CongrZ (2 ^ k) (ntruDet (int16ToBigInt f') (int16ToBigInt g') (int16ToBigInt F') (int16ToBigInt G')) (C 12289) ∧
      ∃ out out', FromPrivateKeyLines P.ops fuel n f g F G = .ok (.ok (none, none), out) ∧
        FromPrivateKeyLines P.ops fuel n f' g' F' G' = .ok (.ok (none, none), out') ∧ out ≠ out' := by
  have len : ∀ c, (constPoly k c).length = 2 ^ k := by
    intro c
    have : 1 ≤ 2 ^ k := Nat.one_le_two_pow
    simp [constPoly]
    omega
  have hl : ∀ p ∈ [constPoly k 1, constPoly k 0, constPoly k 0, constPoly k 12289, constPoly k 2, constPoly k 1, constPoly k 1, constPoly k 6145],
      p.length = 2 ^ k := by
    simp [len]
  refine ⟨_, _, _, _, _, _, _, _, hl, ?_, ?_, C98_violated_differs P hP k h1 h2 fuel hfu n hn _ _ _ _ _ _ _ _ hl ?_ ?_ ?_⟩
  · unfold CongrZ ntruDet
    simp only [constPoly_poly, ← C_mul, ← C_sub]
    rw [show (1 : Int16).toInt * (12289 : Int16).toInt - (0 : Int16).toInt * (0 : Int16).toInt - 12289 = 0 by decide]
    simp
  · unfold CongrZ ntruDet
    simp only [constPoly_poly, ← C_mul, ← C_sub]
    rw [show (2 : Int16).toInt * (6145 : Int16).toInt - (1 : Int16).toInt * (1 : Int16).toInt - 12289 = 0 by decide]
    simp
  · rw [constPoly_norm]; decide
  · rw [constPoly_norm]; decide
  · rw [constPoly_norm, constPoly_norm]; decide

/-- The key of `ieee_run_key` has norm 9770; importing it prints that number. -/
example : ∃ (v rc : List (F64 × F64)) (z0 z1 : F64 × F64) (ls : List (Line ieeeOps)),
    FromPrivateKeyLines ieeeOps 10 2 [72, 5] [60, 31] [-40, 31] [124, 0] = .ok (.ok (none, none), .tree ⟨v, [z0, z1], rc⟩ :: ls) ∧ ls.length = 1 ∧
      round (R z0.1) = 9770 := by
  obtain ⟨v, rc, z0, z1, ls, e, l, -, -, q⟩ := C98_violated_import 1 (by norm_num) (by norm_num) 10 (by norm_num) 2 (by decide) [72, 5] [60, 31] [-40, 31]
    [124, 0] rfl rfl rfl rfl (by decide)
  exact ⟨v, rc, z0, z1, ls, e, by omega, q.trans (by decide)⟩

/-- The generated key of `ieee_run_key`. -/
example : ∃ (v rc : List (F64 × F64)) (z0 z1 : F64 × F64) (ls : List (Line ieeeOps)) (r : _),
    NewKeyPairLines ieeeOps runRand 20 2 0 = .ok (r, .tree ⟨v, [z0, z1], rc⟩ :: ls) ∧ round (R z0.1) = 9770 := by
  obtain ⟨v, rc, z0, z1, ls, e, l, -, -, q⟩ := C98_violated_generated runRand 20 (by norm_num) 2 0 _ _ ieee_run_key
  exact ⟨v, rc, z0, z1, ls, _, e, q.trans (by decide)⟩

end Falcon
