import Verif.Lemmas.LdlNear
import Verif.Props.Tree
import Verif.Props.GsFloat
/-!
# C97: the rounding error of the basis and the tree of a private key
-/

namespace Falcon
open F64 Spec ComplexConjugate Polynomial Matrix

/-- The real numbers of a matrix of float polynomials. -/
noncomputable def realM (B : List (List (List F64))) : List (List (List ℝ)) := B.map fun r => r.map fun p => p.map R

/-- Slot `j` of a matrix of transforms. -/
noncomputable def fslot (M : List (List (List (F64 × F64)))) (j : Nat) : Matrix (Fin 2) (Fin 2) ℂ :=
  fun a b => cval (((M.getD a []).getD b []).getD j (.zero false, .zero false))

/-- All the entries are finite. -/
def Finite3 (B : List (List (List F64))) : Prop := ∀ r ∈ B, ∀ p ∈ r, ∀ v ∈ p, v.isFinite = true

/-- All the entries of a matrix of transforms are finite. -/
def CFinite3 (B : List (List (List (F64 × F64)))) : Prop := ∀ r ∈ B, ∀ p ∈ r, ∀ v ∈ p, v.1.isFinite = true ∧ v.2.isFinite = true

/-- `S i` bounds the sums of the absolute values of the coefficients of both polynomials of row `i`, plus 1. -/
def RowBound (B : List (List (List ℝ))) (S : Fin 2 → ℝ) : Prop :=
  ∀ i j : Fin 2, l1 ((B.getD i []).getD j []) + 1 ≤ S i

/-- C97: the computed `Gram(B)` is within `344 10^-15 n S_i S_j` of `B B^*` at every root of `x^n+1`. -/
theorem variant_C97_gram (va : Variant) (k : Nat) (h1 : 1 ≤ k) (h2 : k ≤ 10) (B : List (List (List F64))) (hB : Mat (2 ^ k) B) (hf : Finite3 B)
    (S : Fin 2 → ℝ) (hS : RowBound (realM B) S) (hS2 : ∀ i, S i ≤ 10 ^ 10) :
    ∃ G, Gram va.ops B = .ok G ∧ Mat (2 ^ k) G ∧ Finite3 G ∧ (∀ i j : Fin 2, ∀ v ∈ (G.getD i []).getD j [], |R v| ≤ 2001 / 1000 * (S i * S j)) ∧
      ∀ w : ℂ, w ^ 2 ^ k + 1 = 0 → ∀ i j,
        ‖matAt (realM G) w i j - (matAt (realM B) w * (matAt (realM B) w)ᴴ) i j‖ ≤ 2 ^ k * (344 / 10 ^ 15 * (S i * S j)) := by
  obtain ⟨a, b, c, d, rfl, la, lb, lc, ld⟩ := hB
  simp only [Finite3, List.forall_mem_cons, List.not_mem_nil, false_imp_iff, implies_true, and_true] at hf
  obtain ⟨⟨fa, fb⟩, fc, fd⟩ := hf
  have sa : l1 (a.map R) + 1 ≤ S 0 := hS 0 0
  have sb : l1 (b.map R) + 1 ≤ S 0 := hS 0 1
  have sc : l1 (c.map R) + 1 ≤ S 1 := hS 1 0
  have sd : l1 (d.map R) + 1 ≤ S 1 := hS 1 1
  obtain ⟨w, ew, lw, fw, bw, vw⟩ := gram_cell_near va k h1 h2 [[a, b], [c, d]] 0 0 a b a b rfl rfl rfl rfl la lb la lb fa fb fa fb _ _ sa sb sa sb (hS2 0) (hS2 0)
  obtain ⟨x, ex, lx, fx, bx, vx⟩ := gram_cell_near va k h1 h2 [[a, b], [c, d]] 0 1 a b c d rfl rfl rfl rfl la lb lc ld fa fb fc fd _ _ sa sb sc sd (hS2 0) (hS2 1)
  obtain ⟨y, ey, ly, fy, bY, vy⟩ := gram_cell_near va k h1 h2 [[a, b], [c, d]] 1 0 c d a b rfl rfl rfl rfl lc ld la lb fc fd fa fb _ _ sc sd sa sb (hS2 1) (hS2 0)
  obtain ⟨z, ez, lz, fz, bz, vz⟩ := gram_cell_near va k h1 h2 [[a, b], [c, d]] 1 1 c d c d rfl rfl rfl rfl lc ld lc ld fc fd fc fd _ _ sc sd sc sd (hS2 1) (hS2 1)
  refine ⟨[[w, x], [y, z]], ?_, ⟨w, x, y, z, rfl, lw, lx, ly, lz⟩, ?_, ?_, ?_⟩
  · unfold Gram
    simp only [idx, List.getElem?_cons_zero, Go.ok_bind, List.length_cons, List.length_nil, la, gramRows, gramRow, Nat.zero_add, ew, ex,
      ey, ez, Go.pure_eq, Nat.reduceAdd]
  · simp only [Finite3, List.forall_mem_cons, List.not_mem_nil, false_imp_iff, implies_true, and_true]
    exact ⟨⟨fw, fx⟩, fy, fz⟩
  · intro i j
    fin_cases i <;> fin_cases j
    · exact bw
    · exact bx
    · exact bY
    · exact bz
  · intro t ht i j
    have hm : t ∈ rootsC k := (mem_rootsC k t).2 (by linear_combination ht)
    simp only [realM, List.map_cons, List.map_nil]
    rw [matAt_mk, matAt_mk]
    fin_cases i <;> fin_cases j <;> simp [Matrix.mul_apply, Fin.sum_univ_two]
    · exact vw t hm
    · exact vx t hm
    · exact vy t hm
    · exact vz t hm

/-- C97: every slot of the transform of a matrix of float polynomials is within `3 10^-14 l1` of the value of the polynomial at the root of that slot. -/
theorem variant_C97_fft3D (va : Variant) (k : Nat) (h1 : 1 ≤ k) (h2 : k ≤ 10) (B : List (List (List F64))) (hB : Mat (2 ^ k) B) (hf : Finite3 B)
    (hS : ∀ i j : Fin 2, l1 (((realM B).getD i []).getD j []) ≤ 10 ^ 90) :
    ∃ M, fft3D va.ops B = .ok M ∧ Mat (2 ^ k) M ∧ CFinite3 M ∧ ∀ t < 2 ^ k, ∀ i j,
      ‖fslot M t i j - matAt (realM B) (rootC k t) i j‖ ≤ 3 / 10 ^ 14 * l1 (((realM B).getD i []).getD j []) + 1 / 10 ^ 110 := by
  obtain ⟨a, b, c, d, rfl, la, lb, lc, ld⟩ := hB
  simp only [Finite3, List.forall_mem_cons, List.not_mem_nil, false_imp_iff, implies_true, and_true] at hf
  obtain ⟨⟨fa, fb⟩, fc, fd⟩ := hf
  obtain ⟨a', ea, la', va'⟩ := variant_C66_fft va k h1 h2 a la fa (hS 0 0)
  obtain ⟨b', eb, lb', vb'⟩ := variant_C66_fft va k h1 h2 b lb fb (hS 0 1)
  obtain ⟨c', ec, lc', vc'⟩ := variant_C66_fft va k h1 h2 c lc fc (hS 1 0)
  obtain ⟨d', ed, ld', vd'⟩ := variant_C66_fft va k h1 h2 d ld fd (hS 1 1)
  have hm : ∀ (l : List (F64 × F64)) (f : List F64), (∀ i (h : i < l.length), (l[i].1.isFinite = true ∧ l[i].2.isFinite = true) ∧
      ‖cval l[i] - evalR (f.map R) (rootC k i)‖ ≤ 3 / 10 ^ 14 * l1 (f.map R) + 1 / 10 ^ 110) → ∀ v ∈ l, v.1.isFinite = true ∧ v.2.isFinite = true := by
    intro l f h v hv
    obtain ⟨i, hi, rfl⟩ := List.getElem_of_mem hv
    exact (h i hi).1
  refine ⟨[[a', b'], [c', d']], ?_, ⟨_, _, _, _, rfl, la', lb', lc', ld'⟩, ?_, ?_⟩
  · simp only [fft3D, List.mapM_cons, List.mapM_nil, ea, eb, ec, ed, Go.ok_bind, Go.pure_eq]
  · simp only [CFinite3, List.forall_mem_cons, List.not_mem_nil, false_imp_iff, implies_true, and_true]
    exact ⟨⟨hm _ _ va', hm _ _ vb'⟩, hm _ _ vc', hm _ _ vd'⟩
  · intro t ht i j
    have key : ∀ (l : List (F64 × F64)) (hl : l.length = 2 ^ k), cval (l.getD t (.zero false, .zero false)) = cval (l[t]'(by omega)) := by
      intro l hl
      simp [hl, ht]
    fin_cases i <;> fin_cases j
    · exact (congrArg (fun z => ‖z - _‖) (key a' la')).trans_le (va' t (by omega)).2
    · exact (congrArg (fun z => ‖z - _‖) (key b' lb')).trans_le (vb' t (by omega)).2
    · exact (congrArg (fun z => ‖z - _‖) (key c' lc')).trans_le (vc' t (by omega)).2
    · exact (congrArg (fun z => ‖z - _‖) (key d' ld')).trans_le (vd' t (by omega)).2

/-- C97: every slot of `fft3D(Gram(B))` is within `405 10^-15 n S_i S_j` of the same entry of `B B^*`. -/
theorem variant_C97_gram_fft (va : Variant) (k : Nat) (h1 : 1 ≤ k) (h2 : k ≤ 10) (B : List (List (List F64))) (hB : Mat (2 ^ k) B) (hf : Finite3 B)
    (S : Fin 2 → ℝ) (hS : RowBound (realM B) S) (hS2 : ∀ i, S i ≤ 10 ^ 10) :
    ∃ G M, Gram va.ops B = .ok G ∧ fft3D va.ops G = .ok M ∧ Mat (2 ^ k) M ∧ CFinite3 M ∧ ∀ t < 2 ^ k, ∀ i j,
      ‖fslot M t i j - (matAt (realM B) (rootC k t) * (matAt (realM B) (rootC k t))ᴴ) i j‖ ≤ 2 ^ k * (405 / 10 ^ 15 * (S i * S j)) := by
  obtain ⟨G, eG, mG, fG, bG, vG⟩ := variant_C97_gram va k h1 h2 B hB hf S hS hS2
  have S1 : ∀ i, 1 ≤ S i := fun i => by
    have := hS i 0
    have := l1_nonneg (((realM B).getD i []).getD (0 : Fin 2) [])
    linarith
  have k1 : (1 : ℝ) ≤ 2 ^ k := one_le_pow₀ (by norm_num)
  have hk : (2 : ℝ) ^ k ≤ 1024 := (pow_le_pow_right₀ (by norm_num) h2).trans (by norm_num)
  have T1 : ∀ i j, 1 ≤ S i * S j := fun i j => one_le_mul_of_one_le_of_one_le (S1 i) (S1 j)
  have T2 : ∀ i j, S i * S j ≤ 10 ^ 20 := fun i j => (mul_le_mul (hS2 i) (hS2 j) (by linarith [S1 j]) (by norm_num)).trans (by norm_num)
  have bl : ∀ i j : Fin 2, l1 (((realM G).getD i []).getD j []) ≤ 2 ^ k * (2001 / 1000 * (S i * S j)) := by
    intro i j
    have e : ((realM G).getD i []).getD j [] = ((G.getD i []).getD j []).map R := by
      obtain ⟨a, b, c, d, rfl, -⟩ := mG
      fin_cases i <;> fin_cases j <;> rfl
    have l : ((G.getD i []).getD j []).length = 2 ^ k := by
      obtain ⟨a, b, c, d, rfl, la, lb, lc, ld⟩ := mG
      fin_cases i <;> fin_cases j
      · exact la
      · exact lb
      · exact lc
      · exact ld
    rw [e]
    have hg := bG i j
    generalize (G.getD i []).getD j [] = p at l hg
    have hh : ∀ q : List F64, (∀ v ∈ q, |R v| ≤ 2001 / 1000 * (S i * S j)) → l1 (q.map R) ≤ q.length * (2001 / 1000 * (S i * S j)) := by
      intro q
      induction q with
      | nil => simp [l1]
      | cons v q ih =>
        intro h
        simp only [List.forall_mem_cons] at h
        have := ih h.2
        have e : l1 ((v :: q).map R) = |R v| + l1 (q.map R) := by simp [l1]
        rw [e, List.length_cons]
        push_cast
        linarith [h.1]
    have := hh p hg
    rw [l] at this
    push_cast at this
    exact this
  obtain ⟨M, eM, mM, fM, vM⟩ := variant_C97_fft3D va k h1 h2 G mG fG (fun i j => (bl i j).trans (by
    have := mul_le_mul hk (T2 i j) (by linarith [T1 i j]) (by norm_num)
    norm_num at this ⊢
    linarith))
  refine ⟨G, M, eG, eM, mM, fM, fun t ht i j => ?_⟩
  have c1 := vM t ht i j
  have c2 := vG (rootC k t) (by rw [rootC_pow]; ring) i j
  have c3 := bl i j
  have c4 : 1 ≤ 2 ^ k * (S i * S j) := one_le_mul_of_one_le_of_one_le k1 (T1 i j)
  have t1 := norm_add_le (fslot M t i j - matAt (realM G) (rootC k t) i j) (matAt (realM G) (rootC k t) i j -
    (matAt (realM B) (rootC k t) * (matAt (realM B) (rootC k t))ᴴ) i j)
  rw [sub_add_sub_cancel] at t1
  linarith

theorem getD_zip {α : Type} (op : α → α → α) (a b : List α) (z : α) (j : Nat) (h : j < a.length) (h' : j < b.length) :
    (List.zipWith op a b).getD j z = op (a.getD j z) (b.getD j z) := by
  simp [h, h']

/-- What `LdlFFT` computes in each slot. -/
theorem ldl_slots (va : Variant) (n : Nat) (a b c d : List (F64 × F64)) (la : a.length = n) (lc : c.length = n) (ld : d.length = n) (lb : b.length = n) :
    ∃ l e, l.length = n ∧ e.length = n ∧ LdlFFT va.ops [[a, b], [c, d]] =
        .ok ([[List.replicate n (va.ops.cplx (va.ops.lit 1) (va.ops.lit 0)), List.replicate n (va.ops.cplx (va.ops.lit 0) (va.ops.lit 0))],
          [l, List.replicate n (va.ops.cplx (va.ops.lit 1) (va.ops.lit 0))]],
        [[a, List.replicate n (va.ops.cplx (va.ops.lit 0) (va.ops.lit 0))], [List.replicate n (va.ops.cplx (va.ops.lit 0) (va.ops.lit 0)), e]]) ∧
      ∀ t < n, ∀ z, l.getD t z = va.ops.cdiv (c.getD t z) (a.getD t z) ∧
        e.getD t z = va.ops.cadd (d.getD t z) (va.ops.cneg (va.ops.cmul (va.ops.cmul (va.ops.cdiv (c.getD t z) (a.getD t z))
          (va.ops.conj (va.ops.cdiv (c.getD t z) (a.getD t z)))) (a.getD t z))) := by
  obtain ⟨g00, g01, g10, g11, l10, d11, p, p', hE, l1, l2, l3, e1, e2, e3, e4, e⟩ := LdlFFT_ok (O := va.ops) n [[a, b], [c, d]] ⟨a, b, c, d, rfl, la, lb, lc, ld⟩
  simp only [List.cons.injEq, and_true] at hE
  obtain ⟨⟨rfl, rfl⟩, rfl, rfl⟩ := hE
  refine ⟨l10, d11, l2, l3, e, fun t ht z => ?_⟩
  unfold DivFFT at e1
  rw [if_neg (by omega), Go.ok.injEq] at e1
  unfold MulFFT at e2 e3
  rw [if_neg (by rw [AdjFFT_length]; simp), Go.ok.injEq] at e2
  have lp : p.length = n := by rw [← e2]; simp [AdjFFT, l2]
  rw [if_neg (by omega), Go.ok.injEq] at e3
  have lp' : p'.length = n := by rw [← e3]; simp [lp, l1]
  have v1 : l10.getD t z = va.ops.cdiv (c.getD t z) (a.getD t z) := by
    rw [← e1]; exact getD_zip _ _ _ _ _ (by omega) (by omega)
  have v2 : p.getD t z = va.ops.cmul (l10.getD t z) (va.ops.conj (l10.getD t z)) := by
    rw [← e2]
    refine (getD_zip _ _ _ _ _ (by omega) (by rw [AdjFFT_length]; omega)).trans ?_
    congr 1
    simp [AdjFFT, l2, ht]
  have v3 : p'.getD t z = va.ops.cmul (p.getD t z) (a.getD t z) := by
    rw [← e3]; exact getD_zip _ _ _ _ _ (by omega) (by omega)
  refine ⟨v1, ?_⟩
  unfold SubFFT AddFFT at e4
  rw [if_neg (by simp [NegFFT]; omega), Go.ok.injEq] at e4
  rw [← e4]
  refine (getD_zip _ _ _ _ _ (by omega) (by simp [NegFFT]; omega)).trans ?_
  have v4 : (NegFFT va.ops p').getD t z = va.ops.cneg (p'.getD t z) := by simp [NegFFT, lp', ht]
  rw [v4, v3, v2, v1]

theorem fslot_mk (a b c d : List (F64 × F64)) (t : Nat) : fslot [[a, b], [c, d]] t =
    !![cval (a.getD t (.zero false, .zero false)), cval (b.getD t (.zero false, .zero false));
      cval (c.getD t (.zero false, .zero false)), cval (d.getD t (.zero false, .zero false))] := by
  ext i j
  fin_cases i <;> fin_cases j <;> rfl

theorem cval_consts (va : Variant) (n t : Nat) (h : t < n) (z : F64 × F64) :
    cval ((List.replicate n (va.ops.cplx (va.ops.lit 1) (va.ops.lit 0)) : List (F64 × F64)).getD t z) = 1 ∧
    cval ((List.replicate n (va.ops.cplx (va.ops.lit 0) (va.ops.lit 0)) : List (F64 × F64)).getD t z) = 0 := by
  have r1 : R (ieeeOps.lit 1 : F64) = 1 := by
    unfold R
    have h : (ieeeOps.lit 1 : F64).val = 1 := by decide +kernel
    rw [h]; simp
  have r0 : R (ieeeOps.lit 0 : F64) = 0 := by
    unfold R
    have h : (ieeeOps.lit 0 : F64).val = 0 := by decide +kernel
    rw [h]; simp
  have g : ∀ c : F64 × F64, (List.replicate n c).getD t z = c := fun c => by simp [h]
  constructor
  · refine (congrArg cval (g _)).trans ?_
    exact Complex.ext r1 r0
  · refine (congrArg cval (g _)).trans ?_
    exact Complex.ext r0 r0

/-- C97: one `LdlFFT` step on finite transforms: where the upper left entry is between `10^-7` and `10^30` and `V` bounds the quotient of the first
column, the computed quotient is within `32 10^-15 V` of the exact one and the computed lower right pivot within
`8 10^-14 (|g11| + V^2 |g00|)` of `g11 - |g10/g00|^2 g00`. -/
theorem variant_C97_ldl (va : Variant) (n : Nat) (G : List (List (List (F64 × F64)))) (hG : Mat n G) (hf : CFinite3 G) (V : Nat → ℝ)
    (h0 : ∀ t < n, 1 / 10 ^ 7 ≤ ‖fslot G t 0 0‖ ∧ ‖fslot G t 0 0‖ ≤ 10 ^ 30) (h1 : ∀ t < n, ‖fslot G t 1 1‖ ≤ 10 ^ 80)
    (hV : ∀ t < n, 1 / 10 ^ 20 ≤ V t ∧ V t ≤ 10 ^ 20 ∧ ‖fslot G t 1 0‖ ≤ V t * ‖fslot G t 0 0‖) :
    ∃ L D, LdlFFT va.ops G = .ok (L, D) ∧ Mat n L ∧ Mat n D ∧ ∀ t < n,
      fslot L t 0 0 = 1 ∧ fslot L t 0 1 = 0 ∧ fslot L t 1 1 = 1 ∧ fslot D t 0 1 = 0 ∧ fslot D t 1 0 = 0 ∧ fslot D t 0 0 = fslot G t 0 0 ∧
      ‖fslot L t 1 0 - fslot G t 1 0 / fslot G t 0 0‖ ≤ 32 / 10 ^ 15 * V t ∧
      ‖fslot D t 1 1 - (fslot G t 1 1 - fslot G t 1 0 / fslot G t 0 0 * conj (fslot G t 1 0 / fslot G t 0 0) * fslot G t 0 0)‖ ≤
        8 / 10 ^ 14 * (‖fslot G t 1 1‖ + V t ^ 2 * ‖fslot G t 0 0‖) := by
  obtain ⟨a, b, c, d, rfl, la, lb, lc, ld⟩ := hG
  obtain ⟨l, e, ll, le, eq, hs⟩ := ldl_slots va n a b c d la lc ld lb
  simp only [CFinite3, List.forall_mem_cons, List.not_mem_nil, false_imp_iff, implies_true, and_true] at hf
  obtain ⟨⟨fa, fb⟩, fc, fd⟩ := hf
  refine ⟨_, _, eq, ⟨_, _, _, _, rfl, by simp, by simp, ll, by simp⟩, ⟨_, _, _, _, rfl, la, by simp, by simp, le⟩, fun t ht => ?_⟩
  obtain ⟨c1, c0⟩ := cval_consts va n t ht (.zero false, .zero false)
  obtain ⟨s1, s2⟩ := hs t ht (.zero false, .zero false)
  have m0 := h0 t ht
  have m1 := h1 t ht
  obtain ⟨v1, v2, v3⟩ := hV t ht
  have key : ∀ (x : List (F64 × F64)), x.length = n → (∀ v ∈ x, v.1.isFinite = true ∧ v.2.isFinite = true) →
      cfin (x.getD t (.zero false, .zero false)) := by
    intro x hx h
    have : x.getD t (.zero false, .zero false) = x[t]'(by omega) := by simp [hx, ht]
    rw [this]
    exact h _ (List.getElem_mem _)
  have ka := key a la fa
  have kc := key c lc fc
  have kd := key d ld fd
  simp only [fslot_mk, Matrix.of_apply, Matrix.cons_val', Matrix.cons_val_zero, Matrix.cons_val_one, Matrix.cons_val_fin_one] at m0 m1 v3 ⊢
  obtain ⟨n1, n2⟩ := ldl_slot_near va _ _ _ _ _ _ (1 / 10 ^ 14) (V t) _ le_rfl (by norm_num) (CNear.mono ⟨ka, by simp; exact le_rfl⟩ (by positivity))
    (CNear.mono ⟨kc, by simp; exact le_rfl⟩ (by positivity)) (CNear.mono ⟨kd, by simp; exact le_rfl⟩ (by positivity)) m0.1 m0.2 v3 v1 v2 le_rfl m1
  refine ⟨c1, c0, c1, c0, c0, trivial, ?_, ?_⟩
  · rw [s1]
    exact n1.2.trans_eq (by ring)
  · rw [s2]
    exact n2.2.trans_eq (by ring)

theorem float_basis (va : Variant) (k : Nat) (f g F G : List Int16) (hf : f.length = 2 ^ k) (hg : g.length = 2 ^ k) (hF : F.length = 2 ^ k) (hG : G.length = 2 ^ k) :
    ∃ B, B = [[Int16ToFloat64 va.ops g, Neg va.ops (Int16ToFloat64 va.ops f)], [Int16ToFloat64 va.ops G, Neg va.ops (Int16ToFloat64 va.ops F)]] ∧
      Mat (2 ^ k) B ∧ Finite3 B ∧ realM B = basisOf f g F G := by
  have key : ∀ f : List Int16, (∀ v ∈ Int16ToFloat64 va.ops f, v.isFinite = true) ∧ (∀ v ∈ Neg va.ops (Int16ToFloat64 va.ops f), v.isFinite = true) ∧
      (Int16ToFloat64 va.ops f).map R = f.map (fun x => (x.toInt : ℝ)) ∧
      (Neg va.ops (Int16ToFloat64 va.ops f)).map R = f.map (fun x => -(x.toInt : ℝ)) := by
    intro f
    obtain ⟨f1, f2, -⟩ := int16_ieee_variant va f
    have e : realI (int16ToBigInt f) = f.map (fun x => (x.toInt : ℝ)) := by
      unfold realI int16ToBigInt
      rw [List.map_map]
      rfl
    rw [e] at f2
    have hn : ∀ l : List F64, (∀ v ∈ l, v.isFinite = true) → (∀ v ∈ Neg va.ops l, v.isFinite = true) ∧ (Neg va.ops l).map R = (l.map R).map Neg.neg := by
      intro l hl
      constructor
      · intro v hv
        obtain ⟨x, hx, rfl⟩ := List.mem_map.1 hv
        exact (neg_fin x (hl x hx)).1
      · unfold Falcon.Neg
        rw [List.map_map, List.map_map]
        exact List.map_congr_left fun x hx => (neg_fin x (hl x hx)).2
    obtain ⟨n1, n2⟩ := hn _ f1
    refine ⟨f1, n1, f2, ?_⟩
    rw [n2, f2, List.map_map]
    rfl
  obtain ⟨a1, a2, a3, a4⟩ := key f
  obtain ⟨b1, b2, b3, b4⟩ := key g
  obtain ⟨c1, c2, c3, c4⟩ := key F
  obtain ⟨d1, d2, d3, d4⟩ := key G
  refine ⟨_, rfl, ⟨_, _, _, _, rfl, by simp [Int16ToFloat64, hg], by simp [Int16ToFloat64, Falcon.Neg, hf], by simp [Int16ToFloat64, hG],
    by simp [Int16ToFloat64, Falcon.Neg, hF]⟩, ?_, ?_⟩
  · simp only [Finite3, List.forall_mem_cons, List.not_mem_nil, false_imp_iff, implies_true, and_true]
    exact ⟨⟨b1, a2⟩, d1, c2⟩
  · simp only [realM, List.map_cons, List.map_nil, basisOf, a4, b3, c4, d3]

/-- C97: the basis of a private key. The first result of `basisAndMatrix` is within `3 10^-14 S_i` of the values of `[[g, -f], [G, -F]]` at the roots of
`x^n+1`; the matrix `M` it hands to `FfldlFFT` is within `405 10^-15 n S_i S_j` of the Gram matrix of these values. -/
theorem variant_C97_basis (va : Variant) (k : Nat) (h1 : 1 ≤ k) (h2 : k ≤ 10) (fuel : Nat) (hfu : k ≤ fuel) (f g F G : List Int16)
    (hf : f.length = 2 ^ k) (hg : g.length = 2 ^ k) (hF : F.length = 2 ^ k) (hG : G.length = 2 ^ k)
    (S : Fin 2 → ℝ) (hS : RowBound (basisOf f g F G) S) (hS2 : ∀ i, S i ≤ 10 ^ 10) :
    ∃ B T M, basisAndMatrix va.ops fuel f g F G = .ok (B, T) ∧ Mat (2 ^ k) B ∧ CFinite3 B ∧
      (∀ t < 2 ^ k, ∀ i j, ‖fslot B t i j - matAt (basisOf f g F G) (rootC k t) i j‖ ≤ 3 / 10 ^ 14 * S i) ∧ Mat (2 ^ k) M ∧ CFinite3 M ∧
      (∀ t < 2 ^ k, ∀ i j, ‖fslot M t i j - (matAt (basisOf f g F G) (rootC k t) * (matAt (basisOf f g F G) (rootC k t))ᴴ) i j‖ ≤
        2 ^ k * (405 / 10 ^ 15 * (S i * S j))) ∧
      FfldlFFT va.ops fuel ⟨[], [], []⟩ M = .ok T := by
  obtain ⟨B, eB, mB, fB, rB⟩ := float_basis va k f g F G hf hg hF hG
  obtain ⟨G0, M, e0, e1, mM, fM, vM⟩ := variant_C97_gram_fft va k h1 h2 B mB fB S (by rw [rB]; exact hS) hS2
  have hl : ∀ i j : Fin 2, l1 (((realM B).getD i []).getD j []) + 1 ≤ S i := by rw [rB]; exact hS
  obtain ⟨B', e2, mB', fB', vB'⟩ := variant_C97_fft3D va k h1 h2 B mB fB (fun i j => by
    have := hl i j
    have := hS2 i
    norm_num at *
    linarith)
  obtain ⟨T, e3, -⟩ := FfldlFFT_ok (O := va.ops) k h1 h2 fuel hfu ⟨[], [], []⟩ M mM
  refine ⟨B', T, M, ?_, mB', fB', fun t ht i j => ?_, mM, fM, ?_, e3⟩
  · unfold basisAndMatrix
    simp only [← eB, e0, e1, e2, Go.ok_bind, e3, Go.pure_eq]
  · have c1 := vB' t ht i j
    have c2 := hl i j
    rw [rB] at c1 c2
    linarith
  · rw [rB] at vM
    exact vM

end Falcon
