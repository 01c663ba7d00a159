import Verif.Props.TreeKey
import Verif.Props.Platforms
/-!
# The tree of a key on platforms with fused multiply-add (C97)
-/

namespace Falcon
open F64

/-- The operations that `NumHom` leaves out and the tree uses. -/
structure TreeHom (O P : FloatOps) extends NumHom O P where
  neg : ∀ x, P.neg (f x) = f (O.neg x)
  cneg : ∀ x, P.cneg (c x) = c (O.cneg x)
  div : ∀ x y, P.div (f x) (f y) = f (O.div x y)
  sqrt : ∀ x, P.sqrt (f x) = f (O.sqrt x)

/-- A tree with another representation. -/
def treeMap {O P : FloatOps} (φ : O.C → P.C) (T : FFTtree O) : FFTtree P := ⟨T.Value.map φ, T.Leftchild.map φ, T.Rightchild.map φ⟩

theorem idx_hom {α β : Type} (φ : α → β) (l : List α) (i : Nat) : idx (l.map φ) i = Go.map' φ (idx l i) := by
  unfold idx
  rw [List.getElem?_map]
  cases l[i]? <;> rfl

theorem idx2_hom {α β : Type} (φ : α → β) (m : List (List α)) (i j : Nat) : idx2 (m.map (List.map φ)) i j = Go.map' φ (idx2 m i j) := by
  unfold idx2
  simp only [idx_hom, map'_bind, map'_of_bind]

theorem mapM_hom {α α' β β' : Type} (φ : α → α') (ψ : β → β') (k : α → Go β) (k' : α' → Go β') (h : ∀ a, k' (φ a) = Go.map' ψ (k a)) (l : List α) :
    (l.map φ).mapM k' = Go.map' (List.map ψ) (l.mapM k) := by
  induction l with
  | nil => rfl
  | cons a l ih => simp only [List.map_cons, List.mapM_cons, h, ih, map'_bind, map'_of_bind, Go.pure_eq, map'_ok]

namespace TreeHom

variable {O P : FloatOps} (h : TreeHom O P)
include h

theorem Neg_eq (l : List O.F) : Neg P (l.map h.f) = (Neg O l).map h.f := by
  unfold Neg
  rw [List.map_map, List.map_map]
  exact List.map_congr_left fun x _ => h.neg x

theorem SubFFT_eq (l m : List O.C) : SubFFT P (l.map h.c) (m.map h.c) = Go.map' (List.map h.c) (SubFFT O l m) := by
  unfold SubFFT
  rw [← h.AddFFT_eq]
  unfold NegFFT
  rw [List.map_map, List.map_map]
  congr 1
  exact List.map_congr_left fun x _ => h.cneg x

theorem gramCell_eq (B : List (List (List O.F))) (i j m k : Nat) (acc : List O.F) :
    gramCell P (B.map (List.map (List.map h.f))) i j m k (acc.map h.f) = Go.map' (List.map h.f) (gramCell O B i j m k acc) := by
  induction m generalizing k acc with
  | zero => rfl
  | succ m ih => simp only [gramCell, idx2_hom, h.Adj_eq, h.Mul_eq, h.Add_eq, ih, map'_bind, map'_of_bind]

theorem gramRow_eq (B : List (List (List O.F))) (nc deg i m j : Nat) :
    gramRow P (B.map (List.map (List.map h.f))) nc deg i m j = Go.map' (List.map (List.map h.f)) (gramRow O B nc deg i m j) := by
  induction m generalizing j with
  | zero => rfl
  | succ m ih =>
    have := h.gramCell_eq B i j nc 0 (List.replicate deg (O.lit 0))
    rw [List.map_replicate, ← h.lit] at this
    simp only [gramRow, this, ih, map'_bind, map'_of_bind, Go.pure_eq, map'_ok, List.map_cons]

theorem gramRows_eq (B : List (List (List O.F))) (nc deg m i : Nat) :
    gramRows P (B.map (List.map (List.map h.f))) nc deg m i = Go.map' (List.map (List.map (List.map h.f))) (gramRows O B nc deg m i) := by
  induction m generalizing i with
  | zero => rfl
  | succ m ih => simp only [gramRows, List.length_map, h.gramRow_eq, ih, map'_bind, map'_of_bind, Go.pure_eq, map'_ok, List.map_cons]

theorem Gram_eq (B : List (List (List O.F))) :
    Gram P (B.map (List.map (List.map h.f))) = Go.map' (List.map (List.map (List.map h.f))) (Gram O B) := by
  unfold Gram
  simp only [idx_hom, List.length_map, h.gramRows_eq, map'_bind, map'_of_bind]

theorem fft3D_eq (B : List (List (List O.F))) :
    fft3D P (B.map (List.map (List.map h.f))) = Go.map' (List.map (List.map (List.map h.c))) (fft3D O B) := by
  unfold fft3D
  exact mapM_hom _ _ _ _ (fun row => mapM_hom _ _ _ _ h.FFT_eq row) B

theorem LdlFFT_eq (G : List (List (List O.C))) : LdlFFT P (G.map (List.map (List.map h.c))) =
    Go.map' (fun r => (r.1.map (List.map (List.map h.c)), r.2.map (List.map (List.map h.c)))) (LdlFFT O G) := by
  unfold LdlFFT
  simp only [idx2_hom, idx_hom, List.length_map, map'_bind, map'_of_bind]
  refine congrArg _ (funext fun g00 => congrArg _ (funext fun g0 => ?_))
  split
  · rfl
  · simp only [h.DivFFT_eq, h.AdjFFT_eq, h.MulFFT_eq, h.SubFFT_eq, map'_bind, map'_of_bind, Go.pure_eq, map'_ok, List.map_cons, List.map_nil,
      List.map_replicate, h.lit, h.cplx]

theorem FfldlFFT_eq (fuel : Nat) (T : FFTtree O) (G : List (List (List O.C))) :
    FfldlFFT P fuel (treeMap h.c T) (G.map (List.map (List.map h.c))) = Go.map' (treeMap h.c) (FfldlFFT O fuel T G) := by
  induction fuel generalizing T G with
  | zero => rfl
  | succ fuel ih =>
    simp only [FfldlFFT, idx2_hom, h.LdlFFT_eq, map'_bind, map'_of_bind, List.length_map]
    refine congrArg _ (funext fun g00 => congrArg _ (funext fun r => congrArg _ (funext fun l10 => congrArg _ (funext fun d0 => congrArg _ (funext fun d1 => ?_)))))
    split
    · rfl
    · simp only [h.SplitFFT_eq, map'_bind, map'_of_bind, h.AdjFFT_eq]
      refine congrArg _ (funext fun s0 => congrArg _ (funext fun s1 => ?_))
      have e0 := ih { T with Value := l10 } [[s0.1, s0.2], [AdjFFT O s0.2, s0.1]]
      have e1 := fun T => ih T [[s1.1, s1.2], [AdjFFT O s1.2, s1.1]]
      simp only [List.map_cons, List.map_nil] at e0 e1
      have e2 : ({ treeMap h.c T with Value := l10.map h.c } : FFTtree P) = treeMap h.c { T with Value := l10 } := rfl
      rw [e2, e0]
      simp only [map'_bind, e1]

theorem basis_eq (fuel : Nat) (f g F G : List Int16) : basisAndMatrix P fuel f g F G =
    Go.map' (fun r => (r.1.map (List.map (List.map h.c)), treeMap h.c r.2)) (basisAndMatrix O fuel f g F G) := by
  have e := h.Gram_eq [[Int16ToFloat64 O g, Neg O (Int16ToFloat64 O f)], [Int16ToFloat64 O G, Neg O (Int16ToFloat64 O F)]]
  have e1 := h.fft3D_eq [[Int16ToFloat64 O g, Neg O (Int16ToFloat64 O f)], [Int16ToFloat64 O G, Neg O (Int16ToFloat64 O F)]]
  have e2 := fun G0 => h.FfldlFFT_eq fuel ⟨[], [], []⟩ G0
  have e3 : treeMap h.c (⟨[], [], []⟩ : FFTtree O) = ⟨[], [], []⟩ := rfl
  rw [e3] at e2
  simp only [List.map_cons, List.map_nil] at e e1
  unfold basisAndMatrix
  simp only [h.Int16_eq, h.Neg_eq, e, e1, h.fft3D_eq, e2, map'_bind, map'_of_bind, Go.pure_eq, map'_ok]

theorem leaf_eq (t0 : List O.C) (sigma : O.F) : normalizeLeaf P (t0.map h.c) (h.f sigma) = Go.map' (List.map h.c) (normalizeLeaf O t0 sigma) := by
  unfold normalizeLeaf
  simp only [idx_hom, map'_bind, map'_of_bind, Go.pure_eq, map'_ok, List.map_set, h.re, h.sqrt, h.div, h.lit, h.cplx]

theorem normalize_eq (tree : List (List O.C)) (sigma : O.F) :
    normalizeTree P (tree.map (List.map h.c)) (h.f sigma) = Go.map' (List.map (List.map h.c)) (normalizeTree O tree sigma) := by
  unfold normalizeTree
  simp only [List.length_map, idx_hom]
  split <;> simp only [h.leaf_eq, map'_bind, map'_of_bind, Go.pure_eq, map'_ok, List.map_set]

end TreeHom

/-- The operations of a platform on numbers in memory. -/
def Platform.treeHom (P : Platform) (h : P.Accurate) : TreeHom (P.variant h).ops P.ops where
  toNumHom := P.hom h
  neg _ := rfl
  cneg _ := rfl
  div _ _ := rfl
  sqrt _ := rfl

/-- A complex number in memory. -/
def memC (z : F64 × F64) : Reg × Reg := (.num z.1, .num z.2)

/-- C97: the tree and the normalised leaf of every generated key of degree 2, on every accurate platform. -/
theorem C97_platform_key (P : Platform) (hP : P.Accurate) (rand : Rand) (fuel pos : Nat) (key : PrivateKey) (pos' : Nat)
    (h : GeneratePrivateKey P.ops rand fuel 2 pos = .ok (.ok (key, pos'))) (m : Nat) :
    ∃ (d : ℝ) (B : List (List (List (Reg × Reg)))) (v0 v1 l0 l1 r0 r1 : F64 × F64) (x : F64),
      d = gramAt (int16ToBigInt key.f) (int16ToBigInt key.g) Complex.I ∧ 87 / 10 ≤ d ∧ d ≤ 16822 ∧
      basisAndMatrix P.ops (m + 1) key.f key.g key.F key.G = .ok (B, ⟨[memC v0, memC v1], [memC l0, memC l1], [memC r0, memC r1]⟩) ∧ cfin v0 ∧ cfin v1 ∧
      CNear (3 / 10 ^ 8) l0 (d : ℂ) ∧ CNear (3 / 10 ^ 8) l1 (d : ℂ) ∧
      CNear (2 / 10 ^ 2) r0 ((12289 ^ 2 / d : ℝ) : ℂ) ∧ CNear (2 / 10 ^ 2) r1 ((12289 ^ 2 / d : ℝ) : ℂ) ∧
      (0 < R l0.1 ∧ 0 < R l1.1 ∧ 0 < R r0.1 ∧ 0 < R r1.1) ∧
      normalizeTree P.ops (FFTtree.AllChild P.ops ⟨[memC v0, memC v1], [memC l0, memC l1], [memC r0, memC r1]⟩) (P.ops.lit (GetParamSet 2).sigma) =
        .ok [[memC (x, .zero false), memC (.zero false, .zero false)], [memC r0, memC r1]] ∧
      x.isFinite = true ∧ |R x - 144.81253976308423 / √d| ≤ 5 / 10 ^ 7 := by
  rw [P.generate_eq hP] at h
  obtain ⟨d, B, v0, v1, l0, l1, r0, r1, x, hd, h1, h2, e, c0, c1, a0, a1, b0, b1, hp, en, fx, hx⟩ :=
    variant_C97_key (P.variant hP) rand fuel pos key pos' h m
  have t1 := (P.treeHom hP).basis_eq (m + 1) key.f key.g key.F key.G
  rw [e] at t1
  have t2 := (P.treeHom hP).normalize_eq [[l0, l1], [r0, r1]] ((P.variant hP).ops.lit (GetParamSet 2).sigma)
  unfold FFTtree.AllChild at en
  rw [en] at t2
  exact ⟨d, _, v0, v1, l0, l1, r0, r1, x, hd, h1, h2, t1, c0, c1, a0, a1, b0, b1, hp, t2, fx, hx⟩

/-- C97: the divisors at the top level of the tree of a generated key of any degree, on every accurate platform. -/
theorem C97_platform_pivot (P : Platform) (hP : P.Accurate) (rand : Rand) (fuel : Nat) (n : UInt16) (pos : Nat) (key : PrivateKey) (pos' : Nat)
    (h : GeneratePrivateKey P.ops rand fuel n pos = .ok (.ok (key, pos')))
    (hd : ∀ w : ℂ, w ^ n.toNat = -1 → 1 / 10 ≤ gramAt (int16ToBigInt key.f) (int16ToBigInt key.g) w) (m : Nat) (hm : 10 ≤ m) :
    ∃ (k : Nat) (B : List (List (List (Reg × Reg)))) (T : FFTtree P.ops) (M : List (List (List (F64 × F64)))),
      n.toNat = 2 ^ k ∧ basisAndMatrix P.ops m key.f key.g key.F key.G = .ok (B, T) ∧ CFinite3 M ∧
      FfldlFFT P.ops m ⟨[], [], []⟩ (M.map (List.map (List.map memC))) = .ok T ∧
      ∀ t < 2 ^ k, ‖fslot M t 0 0 - (gramAt (int16ToBigInt key.f) (int16ToBigInt key.g) (rootC k t) : ℂ)‖ ≤ 72 / 10 ^ 4 ∧ 86 / 10 ≤ (fslot M t 0 0).re := by
  rw [P.generate_eq hP] at h
  obtain ⟨k, B, T, M, hk, e, -, hM, eT, hs⟩ := variant_C97_pivot (P.variant hP) rand fuel n pos key pos' h hd m hm
  have t1 := (P.treeHom hP).basis_eq m key.f key.g key.F key.G
  rw [e] at t1
  have t2 := (P.treeHom hP).FfldlFFT_eq m ⟨[], [], []⟩ M
  rw [eT] at t2
  exact ⟨k, _, _, M, hk, t1, hM, t2, hs⟩

/-- The run of `ieee_run_key` on amd64. -/
example : ∃ B v l r, basisAndMatrix Platform.amd64.ops 1 [72, 5] [60, 31] [-40, 31] [124, 0] = .ok (B, ⟨v, l, r⟩) := by
  obtain ⟨_, B, _, _, _, _, _, _, _, _, _, _, e, _⟩ := C97_platform_key Platform.amd64 Platform.amd64_accurate runRand 20 0 _ _
    ((C96_amd64 _ _ _ _).trans ieee_run_key) 0
  exact ⟨B, _, _, _, e⟩

end Falcon
