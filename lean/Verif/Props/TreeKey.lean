import Verif.Props.TreeFloat
import Verif.Lemmas.SqrtNear
import Verif.Props.KeySize
import Verif.Props.EquationSmall
/-!
# C97: the tree of a private key of degree 2
-/

namespace Falcon
open F64 Spec ComplexConjugate Polynomial Matrix

theorem det_at (n : Nat) (f g F G : List Int) (h : CongrZ n (ntruDet f g F G) (C 12289)) (w : ℂ) (hw : w ^ n = -1) :
    evalR (realI f) w * evalR (realI G) w - evalR (realI g) w * evalR (realI F) w = 12289 := by
  obtain ⟨c, hc⟩ := h
  have e := congrArg (eval₂ (Int.castRingHom ℂ) w) hc
  have key : ∀ l : List Int, eval₂ (Int.castRingHom ℂ) w (polyZ l) = evalR (realI l) w := by
    intro l
    rw [evalR_eq, poly_realI, eval₂_map]
    rfl
  unfold ntruDet at e
  simp only [eval₂_sub, eval₂_mul, eval₂_add, eval₂_pow, eval₂_X, eval₂_one, eval₂_C, key, hw] at e
  have e2 : evalR (realI f) w * evalR (realI G) w - evalR (realI g) w * evalR (realI F) w - 12289 = 0 := by
    simpa using e
  linear_combination e2

/-- The entries of the Gram matrix of the basis at a root. -/
theorem gram_entries (f g F G : List Int16) (w : ℂ) :
    let M := matAt (basisOf f g F G) w * (matAt (basisOf f g F G) w)ᴴ
    M 0 0 = (gramAt (int16ToBigInt f) (int16ToBigInt g) w : ℂ) ∧ M 1 1 = (gramAt (int16ToBigInt F) (int16ToBigInt G) w : ℂ) ∧
    M 1 0 = evalR (realI (int16ToBigInt G)) w * conj (evalR (realI (int16ToBigInt g)) w) +
      evalR (realI (int16ToBigInt F)) w * conj (evalR (realI (int16ToBigInt f)) w) := by
  have e : ∀ l : List Int16, l.map (fun x => (x.toInt : ℝ)) = realI (int16ToBigInt l) := fun l => by simp [realI, int16ToBigInt]
  have e' : ∀ l : List Int16, evalR (l.map (fun x => -(x.toInt : ℝ))) w = -evalR (realI (int16ToBigInt l)) w := by
    intro l
    rw [← e]
    induction l with
    | nil => simp [evalR]
    | cons a l ih =>
      simp only [List.map_cons, evalR_cons, ih]
      push_cast
      ring
  intro M
  refine ⟨?_, ?_, ?_⟩ <;> simp only [M, basisOf, matAt_mk, Matrix.mul_apply, Fin.sum_univ_two, Matrix.conjTranspose_apply, Matrix.of_apply, Matrix.cons_val',
    Matrix.cons_val_zero, Matrix.cons_val_one, Matrix.cons_val_fin_one, e', e, gramAt, RCLike.star_def, map_neg, neg_mul_neg, Complex.mul_conj,
    Complex.ofReal_add]
  · rw [add_comm, Complex.normSq_neg]
  · rw [add_comm, Complex.normSq_neg]

/-- C97: the tree of a private key of degree 2. With `d = |f(w)|^2 + |g(w)|^2` at the root `w` of slot `t`, all parts are finite, the left child is within
`3 10^-8` of `d`, the right child within `2 10^-2` of `q^2/d`, and the value within `2 10^-6` of the quotient `(G g* + F f*) / d`. -/
theorem variant_C97_degree2 (va : Variant) (fuel : Nat) (f g F G : List Int16) (hf : f.length = 2) (hg : g.length = 2) (hF : F.length = 2) (hG : G.length = 2)
    (hn : sqNorm (realI (int16ToBigInt f)) + sqNorm (realI (int16ToBigInt g)) ≤ 16822)
    (hd : ∀ w : ℂ, w ^ 2 = -1 → 87 / 10 ≤ gramAt (int16ToBigInt f) (int16ToBigInt g) w) (hb : ∀ v ∈ F ++ G, |(v.toInt : ℝ)| ≤ 222)
    (hdet : CongrZ 2 (ntruDet (int16ToBigInt f) (int16ToBigInt g) (int16ToBigInt F) (int16ToBigInt G)) (C 12289)) :
    ∃ B v l r, basisAndMatrix va.ops (fuel + 1) f g F G = .ok (B, ⟨v, l, r⟩) ∧ v.length = 2 ∧ l.length = 2 ∧ r.length = 2 ∧ ∀ t < 2, ∀ z,
      let w := rootC 1 t
      let d := gramAt (int16ToBigInt f) (int16ToBigInt g) w
      CNear (3 / 10 ^ 8) (l.getD t z) (d : ℂ) ∧ CNear (2 / 10 ^ 2) (r.getD t z) ((12289 ^ 2 / d : ℝ) : ℂ) ∧
      CNear (2 / 10 ^ 6) (v.getD t z) ((evalR (realI (int16ToBigInt G)) w * conj (evalR (realI (int16ToBigInt g)) w) +
        evalR (realI (int16ToBigInt F)) w * conj (evalR (realI (int16ToBigInt f)) w)) / (d : ℂ)) := by
  have gt : ∀ (l m : List Int16), l.length = 2 → m.length = 2 → ∀ w : ℂ, w ^ 2 = -1 →
      gramAt (int16ToBigInt l) (int16ToBigInt m) w = sqNorm (realI (int16ToBigInt l)) + sqNorm (realI (int16ToBigInt m)) := by
    intro l m hl hm w hw
    match l, hl, m, hm with
    | [a, b], _, [c, d], _ =>
      refine (gramAt_two a.toInt b.toInt c.toInt d.toInt w hw).trans ?_
      simp only [sqNorm, realI, int16ToBigInt, List.map_cons, List.map_nil, List.sum_cons, List.sum_nil]
      push_cast
      ring
  have lr : ∀ l : List Int16, (realI (int16ToBigInt l)).length = l.length := fun l => by simp [realI, int16ToBigInt]
  have lneg : ∀ l : List Int16, l1 (l.map (fun x => -(x.toInt : ℝ))) = l1 (realI (int16ToBigInt l)) := by
    intro l
    simp [l1, realI, int16ToBigInt, Function.comp_def]
  have lpos : ∀ l : List Int16, l1 (l.map (fun x => (x.toInt : ℝ))) = l1 (realI (int16ToBigInt l)) := by
    intro l
    simp [l1, realI, int16ToBigInt, Function.comp_def]
  have nf := sqNorm_nonneg (realI (int16ToBigInt f))
  have ng := sqNorm_nonneg (realI (int16ToBigInt g))
  have small : ∀ l : List Int16, l.length = 2 → sqNorm (realI (int16ToBigInt l)) ≤ 16822 → l1 (realI (int16ToBigInt l)) ≤ 184 := by
    intro l hl h
    have := l1_sq_le (realI (int16ToBigInt l))
    rw [lr, hl] at this
    push_cast at this
    exact (abs_le_of_sq_le_sq' (by linarith : l1 (realI (int16ToBigInt l)) ^ 2 ≤ 184 ^ 2) (by norm_num)).2
  have big : ∀ l : List Int16, l.length = 2 → (∀ v ∈ l, |(v.toInt : ℝ)| ≤ 222) →
      l1 (realI (int16ToBigInt l)) ≤ 444 ∧ sqNorm (realI (int16ToBigInt l)) ≤ 98568 := by
    intro l hl h
    match l, hl with
    | [a, b], _ =>
      simp only [List.forall_mem_cons, List.not_mem_nil, false_imp_iff, implies_true, and_true] at h
      have h1 := pow_le_pow_left₀ (abs_nonneg _) h.1 2
      have h2 := pow_le_pow_left₀ (abs_nonneg _) h.2 2
      rw [sq_abs] at h1 h2
      constructor
      · simp only [l1, realI, int16ToBigInt, List.map_cons, List.map_nil, List.sum_cons, List.sum_nil]
        linarith [h.1, h.2]
      · simp only [sqNorm, realI, int16ToBigInt, List.map_cons, List.map_nil, List.sum_cons, List.sum_nil]
        linarith
  have bF := big F hF fun v hv => hb v (List.mem_append_left _ hv)
  have bG := big G hG fun v hv => hb v (List.mem_append_right _ hv)
  obtain ⟨B, T, M, e1, -, -, -, mM, fM, vM, e2⟩ := variant_C97_basis va 1 (by decide) (by decide) (fuel + 1) (by omega) f g F G hf hg hF hG
    (fun i => if i = 0 then 185 else 445) (by
      intro i j
      fin_cases i <;> fin_cases j
      · show l1 (g.map fun x => (x.toInt : ℝ)) + 1 ≤ 185
        rw [lpos]; linarith [small g hg (by linarith)]
      · show l1 (f.map fun x => -(x.toInt : ℝ)) + 1 ≤ 185
        rw [lneg]; linarith [small f hf (by linarith)]
      · show l1 (G.map fun x => (x.toInt : ℝ)) + 1 ≤ 445
        rw [lpos]; linarith [bG.1]
      · show l1 (F.map fun x => -(x.toInt : ℝ)) + 1 ≤ 445
        rw [lneg]; linarith [bF.1]) (by intro i; split <;> norm_num)
  obtain ⟨a, b, c, d, rfl, la, lb, lc, ld⟩ := mM
  obtain ⟨l, e, ll, le, eq, hs⟩ := ldl_slots va 2 a b c d la lc ld lb
  have eT : T = ⟨l, a, e⟩ := by
    rw [FfldlFFT] at e2
    simp only [idx2, idx, List.getElem?_cons_zero, Go.ok_bind, eq, List.getElem?_cons_succ, la] at e2
    exact (Go.ok.injEq _ _ ▸ e2 : _ = T).symm
  subst eT
  refine ⟨B, l, a, e, e1, ll, la, le, fun t ht z => ?_⟩
  intro w dd
  have hw : w ^ 2 = -1 := rootC_pow 1 t
  obtain ⟨s1, s2⟩ := hs t ht z
  simp only [CFinite3, List.forall_mem_cons, List.not_mem_nil, false_imp_iff, implies_true, and_true] at fM
  obtain ⟨⟨fa, -⟩, fc, fd⟩ := fM
  have key : ∀ (x : List (F64 × F64)), x.length = 2 → (∀ v ∈ x, v.1.isFinite = true ∧ v.2.isFinite = true) →
      x.getD t (.zero false, .zero false) = x.getD t z ∧ cfin (x.getD t z) := by
    intro x hx h
    have e1 : x.getD t (.zero false, .zero false) = x[t]'(by omega) := by simp [hx, ht]
    have e2 : x.getD t z = x[t]'(by omega) := by simp [hx, ht]
    rw [e1, e2]
    exact ⟨rfl, h _ (List.getElem_mem _)⟩
  obtain ⟨za, ka⟩ := key a la fa
  obtain ⟨zc, kc⟩ := key c lc fc
  obtain ⟨zd, kd⟩ := key d ld fd
  obtain ⟨g0, g1, g2⟩ := gram_entries f g F G w
  have m0 := vM t ht 0 0
  have m1 := vM t ht 1 1
  have m2 := vM t ht 1 0
  change ‖_ - (matAt (basisOf f g F G) w * (matAt (basisOf f g F G) w)ᴴ) 0 0‖ ≤ _ at m0
  change ‖_ - (matAt (basisOf f g F G) w * (matAt (basisOf f g F G) w)ᴴ) 1 1‖ ≤ _ at m1
  change ‖_ - (matAt (basisOf f g F G) w * (matAt (basisOf f g F G) w)ᴴ) 1 0‖ ≤ _ at m2
  rw [g0] at m0
  rw [g1] at m1
  rw [g2] at m2
  simp only [fslot_mk, Matrix.of_apply, Matrix.cons_val', Matrix.cons_val_zero, Matrix.cons_val_one, Matrix.cons_val_fin_one, za, zc, zd, if_true,
    one_ne_zero, if_false] at m0 m1 m2
  have d1 := hd w hw
  have d2 : gramAt (int16ToBigInt f) (int16ToBigInt g) w ≤ 16822 := by rw [gt f g hf hg w hw]; exact hn
  have c2 : gramAt (int16ToBigInt F) (int16ToBigInt G) w ≤ 197136 := by rw [gt F G hF hG w hw]; linarith [bF.2, bG.2]
  have hdd := det_at 2 _ _ _ _ hdet w hw
  set gf := evalR (realI (int16ToBigInt f)) w with hgf
  set gg := evalR (realI (int16ToBigInt g)) w with hgg
  set gF := evalR (realI (int16ToBigInt F)) w with hgF
  set gG := evalR (realI (int16ToBigInt G)) w with hgG
  set N := gramAt (int16ToBigInt F) (int16ToBigInt G) w with hN
  have hde : (dd : ℂ) = gf * conj gf + gg * conj gg := by
    show ((gramAt (int16ToBigInt f) (int16ToBigInt g) w : ℝ) : ℂ) = _
    rw [gramAt, Complex.mul_conj, Complex.mul_conj]
    push_cast; rfl
  have hNe : (N : ℂ) = gF * conj gF + gG * conj gG := by
    rw [hN, gramAt, Complex.mul_conj, Complex.mul_conj]
    push_cast; rfl
  change ‖cval (a.getD t z) - (dd : ℂ)‖ ≤ _ at m0
  change (87 : ℝ) / 10 ≤ dd at d1
  change dd ≤ 16822 at d2
  clear_value dd
  set P := gG * conj gg + gF * conj gf with hP
  have hcon : conj gf * conj gG - conj gg * conj gF = 12289 := by
    have := congrArg conj hdd
    rw [map_ofNat] at this
    simpa only [map_sub, map_mul] using this
  have hid : (dd : ℂ) * N - P * conj P = 12289 ^ 2 := by
    rw [hde, hNe, hP]
    simp only [map_add, map_mul, Complex.conj_conj]
    linear_combination (gf * gG - gg * gF) * hcon + 12289 * hdd
  have hidr : dd * N - ‖P‖ ^ 2 = 12289 ^ 2 := by
    have h3 : P * conj P = ((‖P‖ ^ 2 : ℝ) : ℂ) := by rw [Complex.mul_conj, Complex.normSq_eq_norm_sq]
    rw [h3] at hid
    exact_mod_cast hid
  have dpos : 0 < dd := by linarith
  have hPn : ‖P‖ ^ 2 ≤ dd * N := by linarith
  have N1 : 12289 ^ 2 ≤ dd * N := by nlinarith [sq_nonneg ‖P‖]
  have N0 : 8000 ≤ N := by
    by_contra hc
    push Not at hc
    nlinarith
  have nd : ‖(dd : ℂ)‖ = dd := by rw [Complex.norm_real, Real.norm_eq_abs, abs_of_pos dpos]
  have nN : ‖(N : ℂ)‖ = N := by rw [Complex.norm_real, Real.norm_eq_abs, abs_of_pos (by linarith)]
  obtain ⟨V, hV⟩ : ∃ V, V = √(N / dd) := ⟨_, rfl⟩
  have V0 : 0 ≤ V := hV ▸ Real.sqrt_nonneg _
  have Vsq : V ^ 2 * dd = N := by rw [hV, Real.sq_sqrt (by positivity)]; field_simp
  have Vd : (V * dd) ^ 2 = dd * N := by rw [mul_pow, pow_two dd, ← mul_assoc, Vsq]; ring
  have Vd1 : 12289 ≤ V * dd := (abs_le_of_sq_le_sq' (by rw [Vd]; exact N1) (by positivity)).2
  have PV : ‖P‖ ≤ V * dd := (abs_le_of_sq_le_sq' (by rw [Vd]; exact hPn) (by positivity)).2
  have V2 : V ≤ 151 := by
    by_contra hc
    push Not at hc
    nlinarith
  have V1 : 7 / 10 ≤ V := by
    by_contra hc
    push Not at hc
    nlinarith
  obtain ⟨r1, r2⟩ := ldl_slot_near va (a.getD t z) (c.getD t z) (d.getD t z) (dd : ℂ) P (N : ℂ) (4 / 10 ^ 9) V N (by norm_num) (by norm_num)
    ⟨ka, m0.trans (by rw [nd]; norm_num; linarith)⟩ ⟨kc, m2.trans (by rw [nd]; norm_num; linarith)⟩ ⟨kd, m1.trans (by norm_num; linarith)⟩
    (by rw [nd]; norm_num; linarith) (by rw [nd]; norm_num; linarith) (by rw [nd]; exact PV) (by norm_num; linarith) (by norm_num; linarith) nN.le
    (by norm_num; linarith)
  rw [nd, Vsq] at r2
  refine ⟨⟨ka, m0.trans (by norm_num)⟩, ?_, ?_⟩
  · rw [s2]
    have hx : (N : ℂ) - P / dd * conj (P / dd) * dd = ((12289 ^ 2 / dd : ℝ) : ℂ) := by
      have hne : (dd : ℂ) ≠ 0 := by exact_mod_cast dpos.ne'
      rw [map_div₀, Complex.conj_ofReal]
      push_cast
      field_simp
      linear_combination hid
    rw [← hx]
    exact r2.mono (by norm_num; linarith)
  · rw [s1]
    exact r1.mono (by norm_num; linarith)

/-- What key generation of degree 2 guarantees about the key, in the arithmetic of every variant. -/
theorem degree2_key (va : Variant) (rand : Rand) (fuel pos : Nat) (key : PrivateKey) (pos' : Nat)
    (h : GeneratePrivateKey va.ops rand fuel 2 pos = .ok (.ok (key, pos'))) :
    key.f.length = 2 ∧ key.g.length = 2 ∧ key.F.length = 2 ∧ key.G.length = 2 ∧
    sqNorm (realI (int16ToBigInt key.f)) + sqNorm (realI (int16ToBigInt key.g)) ≤ 16822 ∧
    (∀ w : ℂ, w ^ 2 = -1 → 87 / 10 ≤ gramAt (int16ToBigInt key.f) (int16ToBigInt key.g) w) ∧ (∀ v ∈ key.F ++ key.G, |(v.toInt : ℝ)| ≤ 222) ∧
    CongrZ 2 (ntruDet (int16ToBigInt key.f) (int16ToBigInt key.g) (int16ToBigInt key.F) (int16ToBigInt key.G)) (C 12289) := by
  obtain ⟨-, l1, l2, l3, l4, -⟩ := C42_mod16_partial va.ops rand fuel 2 pos key pos' h
  obtain ⟨⟨u, c, hc⟩, -⟩ := C43_public_key va.ops rand fuel 2 pos key pos' h
  have hd : ∀ w : ℂ, w ^ 2 = -1 → 1 / 10 ≤ gramAt (int16ToBigInt key.f) (int16ToBigInt key.g) w := by
    intro w hw
    obtain ⟨n, f, g, F, G⟩ := key
    simp only at *
    match f, l1, g, l2 with
    | [a, b], _, [a', b'], _ =>
      have e : gramAt (int16ToBigInt [a, b]) (int16ToBigInt [a', b']) w = _ := gramAt_two a.toInt b.toInt a'.toInt b'.toInt w hw
      rw [e]
      have h0 : a.toInt ≠ 0 ∨ b.toInt ≠ 0 := by
        by_contra hn
        push Not at hn
        have z : polyQ [a, b] = 0 := by simp [polyQ, zq, hn.1, hn.2]
        rw [z, zero_mul, zero_sub] at hc
        have hd : (X ^ (2 : UInt16).toNat + 1 : Zq[X]) ∣ 1 := ⟨-c, by linear_combination -hc⟩
        have h3 := natDegree_eq_zero_of_isUnit (isUnit_of_dvd_one hd)
        have h4 : (X ^ (2 : UInt16).toNat + 1 : Zq[X]).natDegree = 2 := natDegree_X_pow_add_C (n := 2) (r := (1 : Zq))
        omega
      have h1 := sq_ne a.toInt b.toInt h0
      rw [← pow_two, ← pow_two] at h1
      have n0 : 0 ≤ a.toInt ^ 2 := sq_nonneg _
      have n1 : 0 ≤ b.toInt ^ 2 := sq_nonneg _
      have n2 : 0 ≤ a'.toInt ^ 2 := sq_nonneg _
      have n3 : 0 ≤ b'.toInt ^ 2 := sq_nonneg _
      have h5 : 1 ≤ a.toInt ^ 2 + b.toInt ^ 2 + a'.toInt ^ 2 + b'.toInt ^ 2 := by omega
      have h6 : (1 : ℝ) ≤ ((a.toInt ^ 2 + b.toInt ^ 2 + a'.toInt ^ 2 + b'.toInt ^ 2 : Int) : ℝ) := by exact_mod_cast h5
      linarith
  obtain ⟨s1, s2, -⟩ := variant_C68_generated va rand fuel 2 pos key pos' h hd
  rw [← realI_int16, ← realI_int16] at s1
  have hg : ∀ Nf Ng, IsNorm 2 (polyZ (int16ToBigInt key.f)) Nf → IsNorm 2 (polyZ (int16ToBigInt key.g)) Ng → Int.gcd Nf Ng ≤ 2 ^ 64 :=
    fun Nf Ng nf ng => gcd_small 1 (by decide) (by decide) _ _ (by simp [int16ToBigInt, l1]) (by simp [int16ToBigInt, l2]) (s1.trans (by norm_num)) Nf Ng nf ng
  refine ⟨l1, l2, l3, l4, s1, s2, fun v hv => ?_, (variant_C67_generated va rand fuel 2 pos key pos' h hd hg).1⟩
  have hs := variant_C67_key_size va rand fuel 2 pos key pos' h hd hg v hv
  have h2 : √((2 : UInt16).toNat : ℝ) ≤ 1415 / 1000 := by
    show √((2 : ℕ) : ℝ) ≤ _
    rw [Real.sqrt_le_left (by norm_num)]
    norm_num
  linarith

/-- Division by a computed square root. -/
theorem leaf_near (sig x : F64) (fs : sig.isFinite = true) (fx : x.isFinite = true) (σ d : ℝ) (s0 : 0 ≤ σ) (s1 : σ ≤ 200)
    (hs : |R sig - σ| ≤ 1 / 10 ^ 12) (d0 : 87 / 10 ≤ d) (d1 : d ≤ 10 ^ 10) (hx : |R x - d| ≤ 3 / 10 ^ 8) :
    (F64.div sig (F64.sqrt x)).isFinite = true ∧ |R (F64.div sig (F64.sqrt x)) - σ / √d| ≤ 5 / 10 ^ 7 := by
  have big := Big_ge'
  have u0 := uu_pos
  have u1 := uu_le
  have t0 := et_pos
  have t1 := et_le_uu
  rw [abs_le] at hx
  have x0 : 86 / 10 ≤ R x := by linarith
  have x1 : R x ≤ 10 ^ 11 := by linarith
  obtain ⟨f1, v1⟩ := sqrt_near x fx (by linarith) (x1.trans (by norm_num))
  have q1 : 29 / 10 ≤ √(R x) := Real.le_sqrt_of_sq_le (by linarith)
  have q2 : 29 / 10 ≤ √d := Real.le_sqrt_of_sq_le (by linarith)
  have q3 : √(R x) ≤ 10 ^ 6 := by rw [Real.sqrt_le_left (by norm_num)]; linarith
  have e1 : (√(R x) - √d) * (√(R x) + √d) = R x - d := by
    have := Real.sq_sqrt (show 0 ≤ R x by linarith)
    have := Real.sq_sqrt (show 0 ≤ d by linarith)
    nlinarith
  have e2 : |√(R x) - √d| ≤ 1 / 10 ^ 8 := by
    rw [abs_le]
    constructor <;> nlinarith
  have e3 : |R (F64.sqrt x) - √d| ≤ 11 / 10 ^ 9 := by
    have := abs_sub_le (R (F64.sqrt x)) (√(R x)) (√d)
    have : uu * √(R x) ≤ 1 / 9 / 10 ^ 15 * 10 ^ 6 := mul_le_mul u1 q3 (by positivity) (by norm_num)
    linarith
  have y0 : 28 / 10 ≤ R (F64.sqrt x) := by rw [abs_le] at e3; linarith
  rw [abs_le] at hs
  have q4 : |R sig / R (F64.sqrt x)| ≤ 100 := by
    rw [abs_div, abs_of_pos (show 0 < R (F64.sqrt x) by linarith), div_le_iff₀ (by linarith), abs_le]
    constructor <;> linarith
  obtain ⟨f2, v2⟩ := div_near sig (F64.sqrt x) fs f1 (by linarith) (q4.trans (by linarith))
  refine ⟨f2, ?_⟩
  have e4 : R sig / R (F64.sqrt x) - σ / √d = (R sig - σ) / R (F64.sqrt x) + σ * (√d - R (F64.sqrt x)) / (√d * R (F64.sqrt x)) := by
    have h1 : R (F64.sqrt x) ≠ 0 := by linarith
    have h2 : √d ≠ 0 := by linarith
    field_simp
    ring
  have e5 : |(R sig - σ) / R (F64.sqrt x)| ≤ 1 / 10 ^ 12 := by
    rw [abs_div, abs_of_pos (show 0 < R (F64.sqrt x) by linarith), div_le_iff₀ (by linarith), abs_le]
    constructor <;> linarith
  have e6 : |σ * (√d - R (F64.sqrt x)) / (√d * R (F64.sqrt x))| ≤ 4 / 10 ^ 7 := by
    have h1 : 8 ≤ √d * R (F64.sqrt x) := by nlinarith
    rw [abs_div, abs_of_pos (show 0 < √d * R (F64.sqrt x) by linarith), div_le_iff₀ (by linarith), abs_mul, abs_of_nonneg s0, abs_sub_comm]
    have := mul_le_mul s1 e3 (abs_nonneg _) (by norm_num)
    linarith
  have t2 := abs_sub_le (R (F64.div sig (F64.sqrt x))) (R sig / R (F64.sqrt x)) (σ / √d)
  rw [e4] at t2
  have t3 := abs_add_le ((R sig - σ) / R (F64.sqrt x)) (σ * (√d - R (F64.sqrt x)) / (√d * R (F64.sqrt x)))
  have t4 := mul_le_mul u1 q4 (abs_nonneg _) (by norm_num)
  linarith

/-- C97: key generation of degree 2. With `d = |f(i)|^2 + |g(i)|^2`, the tree of every generated key is finite; its left child is within `3 10^-8` of `d`
and its right child within `2 10^-2` of `q^2/d`, so that both are positive; and `normalizeTree` writes a leaf within `5 10^-7` of `sigma / sqrt d`. -/
theorem variant_C97_key (va : Variant) (rand : Rand) (fuel pos : Nat) (key : PrivateKey) (pos' : Nat)
    (h : GeneratePrivateKey va.ops rand fuel 2 pos = .ok (.ok (key, pos'))) (m : Nat) :
    ∃ (d : ℝ) (B : List (List (List (F64 × F64)))) (v0 v1 l0 l1 r0 r1 : F64 × F64) (x : F64),
      d = gramAt (int16ToBigInt key.f) (int16ToBigInt key.g) Complex.I ∧ 87 / 10 ≤ d ∧ d ≤ 16822 ∧
      basisAndMatrix va.ops (m + 1) key.f key.g key.F key.G = .ok (B, ⟨[v0, v1], [l0, l1], [r0, r1]⟩) ∧ cfin v0 ∧ cfin v1 ∧
      CNear (3 / 10 ^ 8) l0 (d : ℂ) ∧ CNear (3 / 10 ^ 8) l1 (d : ℂ) ∧
      CNear (2 / 10 ^ 2) r0 ((12289 ^ 2 / d : ℝ) : ℂ) ∧ CNear (2 / 10 ^ 2) r1 ((12289 ^ 2 / d : ℝ) : ℂ) ∧
      (0 < R l0.1 ∧ 0 < R l1.1 ∧ 0 < R r0.1 ∧ 0 < R r1.1) ∧
      normalizeTree va.ops (FFTtree.AllChild va.ops ⟨[v0, v1], [l0, l1], [r0, r1]⟩) (va.ops.lit (GetParamSet 2).sigma) =
        .ok [[(x, .zero false), (.zero false, .zero false)], [r0, r1]] ∧
      x.isFinite = true ∧ |R x - 144.81253976308423 / √d| ≤ 5 / 10 ^ 7 := by
  obtain ⟨lf, lg, lF, lG, hn, hd, hb, hdet⟩ := degree2_key va rand fuel pos key pos' h
  obtain ⟨B, v, l, r, e, lv, ll, lr, ht⟩ := variant_C97_degree2 va m key.f key.g key.F key.G lf lg lF lG hn hd hb hdet
  have gi : ∀ w : ℂ, w ^ 2 = -1 → gramAt (int16ToBigInt key.f) (int16ToBigInt key.g) w = gramAt (int16ToBigInt key.f) (int16ToBigInt key.g) Complex.I ∧
      gramAt (int16ToBigInt key.f) (int16ToBigInt key.g) w ≤ 16822 := by
    intro w hw
    generalize key.f = f at *
    generalize key.g = g at *
    match f, lf, g, lg with
    | [a, b], _, [c, d], _ =>
      have e1 : gramAt (int16ToBigInt [a, b]) (int16ToBigInt [c, d]) w = _ := gramAt_two a.toInt b.toInt c.toInt d.toInt w hw
      have e2 : gramAt (int16ToBigInt [a, b]) (int16ToBigInt [c, d]) Complex.I = _ := gramAt_two a.toInt b.toInt c.toInt d.toInt _ Complex.I_sq
      refine ⟨e1.trans e2.symm, ?_⟩
      rw [e1]
      refine le_trans (le_of_eq ?_) hn
      simp only [sqNorm, realI, int16ToBigInt, List.map_cons, List.map_nil, List.sum_cons, List.sum_nil]
      push_cast
      ring
  have d0 := hd _ Complex.I_sq
  have d1 := (gi _ Complex.I_sq).2
  match v, lv, l, ll, r, lr with
  | [v0, v1], _, [l0, l1], _, [r0, r1], _ =>
    obtain ⟨a0, a1, a2⟩ := ht 0 (by norm_num) (.zero false, .zero false)
    obtain ⟨b0, b1, b2⟩ := ht 1 (by norm_num) (.zero false, .zero false)
    rw [(gi _ (rootC_pow 1 0)).1] at a0 a1
    rw [(gi _ (rootC_pow 1 1)).1] at b0 b1
    simp only [List.getD_cons_zero, List.getD_cons_succ] at a0 a1 a2 b0 b1 b2
    generalize hdd : gramAt (int16ToBigInt key.f) (int16ToBigInt key.g) Complex.I = d at *
    have re : ∀ (e : ℝ) (c : F64 × F64) (x : ℝ), CNear e c (x : ℂ) → |R c.1 - x| ≤ e := by
      intro e c x hc
      refine le_trans ?_ hc.2
      have := Complex.abs_re_le_norm (cval c - (x : ℂ))
      simpa [cval] using this
    have p0 := re _ _ _ a0
    have p1 := re _ _ _ b0
    have p2 := re _ _ _ a1
    have p3 := re _ _ _ b1
    have qd : 1 ≤ 12289 ^ 2 / d := by rw [le_div_iff₀ (by linarith)]; linarith
    have sg : (va.ops.lit (GetParamSet 2).sigma : F64).isFinite = true ∧
        |R (va.ops.lit (GetParamSet 2).sigma : F64) - 144.81253976308423| ≤ 1 / 10 ^ 12 := by
      have e1 : (GetParamSet 2).sigma = 144.81253976308423 := by decide +kernel
      obtain ⟨s1, s2⟩ := rnd_near' (144.81253976308423 : ℚ) (by have := Big_ge'; norm_num at *; linarith)
      have e2 : (va.ops.lit (GetParamSet 2).sigma : F64) = F64.rnd (144.81253976308423 : ℚ) := by
        rw [e1]
        show (ieeeOps.lit _ : F64) = _
        decide +kernel
      rw [e2]
      refine ⟨s1, ?_⟩
      have u1 := uu_le
      have t1 := et_le_uu
      have t0 := uu_pos
      norm_num at s2 ⊢
      linarith
    obtain ⟨f1, f2⟩ := leaf_near _ l0.1 sg.1 a0.1.1 144.81253976308423 d (by norm_num) (by norm_num) sg.2 d0 (by linarith) p0
    refine ⟨d, B, v0, v1, l0, l1, r0, r1, _, rfl, d0, d1, e, a2.1, b2.1, a0, b0, a1, b1, ?_, ?_, f1, f2⟩
    · rw [abs_le] at p0 p1 p2 p3
      refine ⟨?_, ?_, ?_, ?_⟩ <;> linarith
    · have z0 : (ieeeOps.lit 0 : F64) = .zero false := by decide +kernel
      have z1 : (va.ops.lit 0 : F64) = .zero false := z0
      unfold normalizeTree normalizeLeaf FFTtree.AllChild
      simp only [idx, List.length_cons, List.length_nil, List.getElem?_cons_zero, List.getElem?_cons_succ, Go.ok_bind, Go.pure_eq, List.set_cons_zero,
        List.set_cons_succ, z1]
      rfl

/-- The sum of the absolute values of 16-bit coefficients. -/
theorem l1_int16 (l : List Int16) : l1 (realOf l) ≤ l.length * 32768 := by
  induction l with
  | nil => simp [realOf, l1]
  | cons a l ih =>
    have h1 := a.toInt_le
    have h2 := a.le_toInt
    have h3 : |(a.toInt : ℝ)| ≤ 32768 := by
      rw [abs_le]
      constructor
      · have : (-2 ^ 15 : Int) ≤ a.toInt := h2
        have : ((-2 ^ 15 : Int) : ℝ) ≤ a.toInt := by exact_mod_cast this
        push_cast at this
        linarith
      · have : a.toInt ≤ (2 ^ 15 : Int) := h1.trans (by decide)
        have : (a.toInt : ℝ) ≤ ((2 ^ 15 : Int) : ℝ) := by exact_mod_cast this
        push_cast at this
        linarith
    simp only [realOf, l1, List.map_cons, List.sum_cons, List.length_cons] at ih ⊢
    push_cast
    linarith

/-- C97: at every degree and for a Gram matrix that is not below 1/10 at any root, the entries by which `LdlFFT` divides at the top level of the tree of a
generated key are finite and within `72 10^-4` of `|f|^2 + |g|^2` at the roots, hence above `86/10`. -/
theorem variant_C97_pivot (va : Variant) (rand : Rand) (fuel : Nat) (n : UInt16) (pos : Nat) (key : PrivateKey) (pos' : Nat)
    (h : GeneratePrivateKey va.ops rand fuel n pos = .ok (.ok (key, pos')))
    (hd : ∀ w : ℂ, w ^ n.toNat = -1 → 1 / 10 ≤ gramAt (int16ToBigInt key.f) (int16ToBigInt key.g) w) (m : Nat) (hm : 10 ≤ m) :
    ∃ (k : Nat) (B : List (List (List (F64 × F64)))) (T : FFTtree va.ops) (M : List (List (List (F64 × F64)))),
      n.toNat = 2 ^ k ∧ basisAndMatrix va.ops m key.f key.g key.F key.G = .ok (B, T) ∧ CFinite3 B ∧ CFinite3 M ∧
      FfldlFFT va.ops m ⟨[], [], []⟩ M = .ok T ∧
      ∀ t < 2 ^ k, ‖fslot M t 0 0 - (gramAt (int16ToBigInt key.f) (int16ToBigInt key.g) (rootC k t) : ℂ)‖ ≤ 72 / 10 ^ 4 ∧ 86 / 10 ≤ (fslot M t 0 0).re := by
  obtain ⟨⟨k, h1, h2, hk⟩, -, -⟩ := GeneratePrivateKey_ok va.ops rand fuel n pos key pos' h
  obtain ⟨-, lf, lg, lF, lG, -⟩ := C42_mod16_partial va.ops rand fuel n pos key pos' h
  obtain ⟨s1, s2, -⟩ := variant_C68_generated va rand fuel n pos key pos' h hd
  rw [hk] at lf lg lF lG s2
  have p2 : (2 : ℝ) ^ k ≤ 1024 := (pow_le_pow_right₀ (by norm_num) h2).trans (by norm_num)
  have p0 : (0 : ℝ) < 2 ^ k := by positivity
  have nn : ∀ l : List ℝ, 0 ≤ sqNorm l := fun l => List.sum_nonneg (by simp only [List.mem_map]; rintro _ ⟨a, -, rfl⟩; positivity)
  have small : ∀ l : List Int16, l.length = 2 ^ k → sqNorm (realOf l) ≤ 16822 → l1 (realOf l) ≤ 4151 := by
    intro l hl h
    have := l1_sq_le (realOf l)
    rw [realOf, List.length_map, hl] at this
    push_cast at this
    have := this.trans (mul_le_mul p2 h (nn _) (by norm_num))
    exact (abs_le_of_sq_le_sq' (this.trans (by norm_num : (1024 : ℝ) * 16822 ≤ 4151 ^ 2)) (by norm_num)).2
  have large : ∀ l : List Int16, l.length = 2 ^ k → l1 (realOf l) ≤ 10 ^ 9 := by
    intro l hl
    have := l1_int16 l
    rw [hl] at this
    push_cast at this
    linarith
  have neg : ∀ l : List Int16, l1 (l.map fun x => -(x.toInt : ℝ)) = l1 (realOf l) := by
    intro l
    simp [l1, realOf, Function.comp_def]
  have bf := small _ lf (by linarith [nn (realOf key.g)])
  have bg := small _ lg (by linarith [nn (realOf key.f)])
  have bF := large _ lF
  have bG := large _ lG
  obtain ⟨B, T, M, e, -, hB, -, -, hM, hs, eT⟩ := variant_C97_basis va k h1 h2 m (h2.trans hm) key.f key.g key.F key.G lf lg lF lG ![4152, 10 ^ 10] (by
    intro i j
    fin_cases i <;> fin_cases j
    · show l1 (realOf key.g) + 1 ≤ 4152
      linarith
    · show l1 (key.f.map fun x => -(x.toInt : ℝ)) + 1 ≤ 4152
      rw [neg]; linarith
    · show l1 (realOf key.G) + 1 ≤ 10 ^ 10
      linarith
    · show l1 (key.F.map fun x => -(x.toInt : ℝ)) + 1 ≤ 10 ^ 10
      rw [neg]; linarith) (by intro i; fin_cases i <;> norm_num)
  refine ⟨k, B, T, M, hk, e, hB, hM, eT, fun t ht => ?_⟩
  have e1 := hs t ht 0 0
  rw [(gram_entries key.f key.g key.F key.G (rootC k t)).1] at e1
  have e2 : ‖fslot M t 0 0 - (gramAt (int16ToBigInt key.f) (int16ToBigInt key.g) (rootC k t) : ℂ)‖ ≤ 72 / 10 ^ 4 := by
    refine e1.trans ?_
    have : (![4152, 10 ^ 10] : Fin 2 → ℝ) 0 = 4152 := rfl
    rw [this]
    linarith
  refine ⟨e2, ?_⟩
  have e3 := (Complex.abs_re_le_norm _).trans e2
  rw [Complex.sub_re, Complex.ofReal_re, abs_le] at e3
  have := s2 _ (rootC_pow k t)
  linarith

/-- C97: the FFT of the basis and the Gram matrix from which the tree is computed, in binary64: slot `t` of the basis is within `3 10^-14 S_i` of the basis at
the root of slot `t`, and slot `t` of the Gram matrix within `405 10^-15 2^k S_i S_j` of the Hermitian product of the rows. -/
theorem C97_basis (k : Nat) (h1 : 1 ≤ k) (h2 : k ≤ 10) (fuel : Nat) (hfu : k ≤ fuel) (f g F G : List Int16)
    (hf : f.length = 2 ^ k) (hg : g.length = 2 ^ k) (hF : F.length = 2 ^ k) (hG : G.length = 2 ^ k)
    (S : Fin 2 → ℝ) (hS : RowBound (basisOf f g F G) S) (hS2 : ∀ i, S i ≤ 10 ^ 10) :
    ∃ (B : List (List (List (F64 × F64)))) (T : FFTtree ieeeOps) (M : List (List (List (F64 × F64)))),
      basisAndMatrix ieeeOps fuel f g F G = .ok (B, T) ∧ Mat (2 ^ k) B ∧ CFinite3 B ∧
      (∀ t < 2 ^ k, ∀ i j, ‖fslot B t i j - matAt (basisOf f g F G) (rootC k t) i j‖ ≤ 3 / 10 ^ 14 * S i) ∧ Mat (2 ^ k) M ∧ CFinite3 M ∧
      (∀ t < 2 ^ k, ∀ i j, ‖fslot M t i j - (matAt (basisOf f g F G) (rootC k t) * (matAt (basisOf f g F G) (rootC k t))ᴴ) i j‖ ≤
        2 ^ k * (405 / 10 ^ 15 * (S i * S j))) ∧
      FfldlFFT ieeeOps fuel ⟨[], [], []⟩ M = .ok T :=
  variant_C97_basis amd64V k h1 h2 fuel hfu f g F G hf hg hF hG S hS hS2

/-- C97: `LdlFFT` in binary64, relative to the exact decomposition of its input. -/
theorem C97_ldl (n : Nat) (G : List (List (List (F64 × F64)))) (hG : Mat n G) (hf : CFinite3 G) (V : Nat → ℝ)
    (h0 : ∀ t < n, 1 / 10 ^ 7 ≤ ‖fslot G t 0 0‖ ∧ ‖fslot G t 0 0‖ ≤ 10 ^ 30) (h1 : ∀ t < n, ‖fslot G t 1 1‖ ≤ 10 ^ 80)
    (hV : ∀ t < n, 1 / 10 ^ 20 ≤ V t ∧ V t ≤ 10 ^ 20 ∧ ‖fslot G t 1 0‖ ≤ V t * ‖fslot G t 0 0‖) :
    ∃ (L D : List (List (List (F64 × F64)))), LdlFFT ieeeOps G = .ok (L, D) ∧ Mat n L ∧ Mat n D ∧ ∀ t < n,
      fslot L t 0 0 = 1 ∧ fslot L t 0 1 = 0 ∧ fslot L t 1 1 = 1 ∧ fslot D t 0 1 = 0 ∧ fslot D t 1 0 = 0 ∧ fslot D t 0 0 = fslot G t 0 0 ∧
      ‖fslot L t 1 0 - fslot G t 1 0 / fslot G t 0 0‖ ≤ 32 / 10 ^ 15 * V t ∧
      ‖fslot D t 1 1 - (fslot G t 1 1 - fslot G t 1 0 / fslot G t 0 0 * conj (fslot G t 1 0 / fslot G t 0 0) * fslot G t 0 0)‖ ≤
        8 / 10 ^ 14 * (‖fslot G t 1 1‖ + V t ^ 2 * ‖fslot G t 0 0‖) :=
  variant_C97_ldl amd64V n G hG hf V h0 h1 hV

/-- C97: the tree and the normalised leaf of every generated key of degree 2, in binary64. -/
theorem C97_key (rand : Rand) (fuel pos : Nat) (key : PrivateKey) (pos' : Nat)
    (h : GeneratePrivateKey ieeeOps rand fuel 2 pos = .ok (.ok (key, pos'))) (m : Nat) :
    ∃ (d : ℝ) (B : List (List (List (F64 × F64)))) (v0 v1 l0 l1 r0 r1 : F64 × F64) (x : F64),
      d = gramAt (int16ToBigInt key.f) (int16ToBigInt key.g) Complex.I ∧ 87 / 10 ≤ d ∧ d ≤ 16822 ∧
      basisAndMatrix ieeeOps (m + 1) key.f key.g key.F key.G = .ok (B, ⟨[v0, v1], [l0, l1], [r0, r1]⟩) ∧ cfin v0 ∧ cfin v1 ∧
      CNear (3 / 10 ^ 8) l0 (d : ℂ) ∧ CNear (3 / 10 ^ 8) l1 (d : ℂ) ∧
      CNear (2 / 10 ^ 2) r0 ((12289 ^ 2 / d : ℝ) : ℂ) ∧ CNear (2 / 10 ^ 2) r1 ((12289 ^ 2 / d : ℝ) : ℂ) ∧
      (0 < R l0.1 ∧ 0 < R l1.1 ∧ 0 < R r0.1 ∧ 0 < R r1.1) ∧
      normalizeTree ieeeOps (FFTtree.AllChild ieeeOps ⟨[v0, v1], [l0, l1], [r0, r1]⟩) (ieeeOps.lit (GetParamSet 2).sigma) =
        .ok [[(x, .zero false), (.zero false, .zero false)], [r0, r1]] ∧
      x.isFinite = true ∧ |R x - 144.81253976308423 / √d| ≤ 5 / 10 ^ 7 :=
  variant_C97_key amd64V rand fuel pos key pos' h m

/-- C97: the divisors at the top level of the tree of a generated key of any degree, in binary64. -/
theorem C97_pivot (rand : Rand) (fuel : Nat) (n : UInt16) (pos : Nat) (key : PrivateKey) (pos' : Nat)
    (h : GeneratePrivateKey ieeeOps rand fuel n pos = .ok (.ok (key, pos')))
    (hd : ∀ w : ℂ, w ^ n.toNat = -1 → 1 / 10 ≤ gramAt (int16ToBigInt key.f) (int16ToBigInt key.g) w) (m : Nat) (hm : 10 ≤ m) :
    ∃ (k : Nat) (B : List (List (List (F64 × F64)))) (T : FFTtree ieeeOps) (M : List (List (List (F64 × F64)))),
      n.toNat = 2 ^ k ∧ basisAndMatrix ieeeOps m key.f key.g key.F key.G = .ok (B, T) ∧ CFinite3 B ∧ CFinite3 M ∧
      FfldlFFT ieeeOps m ⟨[], [], []⟩ M = .ok T ∧
      ∀ t < 2 ^ k, ‖fslot M t 0 0 - (gramAt (int16ToBigInt key.f) (int16ToBigInt key.g) (rootC k t) : ℂ)‖ ≤ 72 / 10 ^ 4 ∧ 86 / 10 ≤ (fslot M t 0 0).re :=
  variant_C97_pivot amd64V rand fuel n pos key pos' h hd m hm

example : ∃ B T, basisAndMatrix ieeeOps 10 [72, 5] [60, 31] [-40, 31] [124, 0] = .ok (B, T) ∧ CFinite3 B := by
  obtain ⟨k, B, T, M, -, e, hB, -⟩ := C97_pivot runRand 20 2 0 _ _ ieee_run_key ieee_run_gram 10 (by norm_num)
  exact ⟨B, T, e, hB⟩

/-- The decomposition of `[[4, 2], [2, 3]]`: the quotient is `1/2` and the second pivot is 2. -/
example : ∃ (L D : List (List (List (F64 × F64)))), LdlFFT ieeeOps [[[(F64.rnd 4, .zero false)], [(F64.rnd 2, .zero false)]],
      [[(F64.rnd 2, .zero false)], [(F64.rnd 3, .zero false)]]] = .ok (L, D) ∧ ‖fslot L 0 1 0 - 1 / 2‖ ≤ 1 / 10 ^ 12 ∧ ‖fslot D 0 1 1 - 2‖ ≤ 1 / 10 ^ 12 := by
  have r4 : R (F64.rnd 4) = 4 := by unfold R; rw [show (F64.rnd 4).val = 4 by decide +kernel]; norm_num
  have r2 : R (F64.rnd 2) = 2 := by unfold R; rw [show (F64.rnd 2).val = 2 by decide +kernel]; norm_num
  have r3 : R (F64.rnd 3) = 3 := by unfold R; rw [show (F64.rnd 3).val = 3 by decide +kernel]; norm_num
  have r0 : R (F64.zero false) = 0 := by unfold R; rw [show (F64.zero false).val = 0 by decide +kernel]; norm_num
  generalize hG : ([[[(F64.rnd 4, F64.zero false)], [(F64.rnd 2, F64.zero false)]], [[(F64.rnd 2, F64.zero false)], [(F64.rnd 3, F64.zero false)]]] :
    List (List (List (F64 × F64)))) = G
  have s00 : fslot G 0 0 0 = 4 := by subst hG; show cval (F64.rnd 4, F64.zero false) = 4; simp only [cval, r4, r0]; rfl
  have s01 : fslot G 0 0 1 = 2 := by subst hG; show cval (F64.rnd 2, F64.zero false) = 2; simp only [cval, r2, r0]; rfl
  have s10 : fslot G 0 1 0 = 2 := by subst hG; show cval (F64.rnd 2, F64.zero false) = 2; simp only [cval, r2, r0]; rfl
  have s11 : fslot G 0 1 1 = 3 := by subst hG; show cval (F64.rnd 3, F64.zero false) = 3; simp only [cval, r3, r0]; rfl
  have n4 : ‖(4 : ℂ)‖ = 4 := by simp
  have n2 : ‖(2 : ℂ)‖ = 2 := by simp
  have n3 : ‖(3 : ℂ)‖ = 3 := by simp
  obtain ⟨L, D, e, -, -, hs⟩ := C97_ldl 1 G (by subst hG; exact ⟨_, _, _, _, rfl, rfl, rfl, rfl, rfl⟩) (by
    subst hG
    simp only [CFinite3, List.forall_mem_cons, List.not_mem_nil, false_imp_iff, implies_true, and_true]
    decide +kernel) (fun _ => 1)
    (fun t ht => by obtain rfl : t = 0 := by omega
                    rw [s00, n4]; norm_num)
    (fun t ht => by obtain rfl : t = 0 := by omega
                    rw [s11, n3]; norm_num)
    (fun t ht => by obtain rfl : t = 0 := by omega
                    rw [s00, s10, n4, n2]; norm_num)
  obtain ⟨-, -, -, -, -, -, a, b⟩ := hs 0 (by norm_num)
  rw [s00, s10] at a b
  rw [s11, n3, n4] at b
  refine ⟨L, D, e, ?_, ?_⟩
  · rw [show (1 / 2 : ℂ) = 2 / 4 by norm_num]
    exact a.trans (by norm_num)
  · have : (3 : ℂ) - 2 / 4 * conj (2 / 4 : ℂ) * 4 = 2 := by
      rw [map_div₀, map_ofNat, map_ofNat]
      norm_num
    rw [this] at b
    exact b.trans (by norm_num)

/-- The run of `ieee_run_key`: `d = 72^2 + 5^2 + 60^2 + 31^2 = 9770`, and the leaf is `1.465...`. -/
example : ∃ (B : List (List (List (F64 × F64)))) (v0 v1 l0 l1 r0 r1 : F64 × F64) (x : F64),
    basisAndMatrix ieeeOps 1 [72, 5] [60, 31] [-40, 31] [124, 0] = .ok (B, ⟨[v0, v1], [l0, l1], [r0, r1]⟩) ∧ |R l0.1 - 9770| ≤ 3 / 10 ^ 8 ∧
      normalizeTree ieeeOps (FFTtree.AllChild ieeeOps ⟨[v0, v1], [l0, l1], [r0, r1]⟩) (ieeeOps.lit (GetParamSet 2).sigma) =
        .ok [[(x, .zero false), (.zero false, .zero false)], [r0, r1]] ∧ 1465 / 1000 ≤ R x ∧ R x ≤ 1466 / 1000 := by
  obtain ⟨d, B, v0, v1, l0, l1, r0, r1, x, hd, -, -, e, -, -, a, -, -, -, -, en, -, hx⟩ := C97_key runRand 20 0 _ _ ieee_run_key 0
  have d1 : d = 9770 := by
    rw [hd]
    have := gramAt_two 72 5 60 31 _ Complex.I_sq
    refine Eq.trans this ?_
    norm_num
  subst d1
  have s0 : √(9770 : ℝ) ≤ 98844 / 1000 := by rw [Real.sqrt_le_left (by norm_num)]; norm_num
  have s1 : 98843 / 1000 ≤ √(9770 : ℝ) := Real.le_sqrt_of_sq_le (by norm_num)
  have q0 : (144.81253976308423 : ℝ) / √9770 ≤ 14651 / 10000 := by rw [div_le_iff₀ (by linarith)]; norm_num at *; linarith
  have q1 : (14650 / 10000 : ℝ) + 1 / 10 ^ 6 ≤ 144.81253976308423 / √9770 := by rw [le_div_iff₀ (by linarith)]; norm_num at *; linarith
  refine ⟨B, v0, v1, l0, l1, r0, r1, x, e, ?_, en, ?_, ?_⟩
  · refine le_trans ?_ a.2
    have := Complex.abs_re_le_norm (cval l0 - ((9770 : ℝ) : ℂ))
    simpa [cval] using this
  · rw [abs_le] at hx; linarith
  · rw [abs_le] at hx; linarith

/-- The basis of that key has row sums 168 and 195. -/
example : ∃ (B : List (List (List (F64 × F64)))) (T : FFTtree ieeeOps), basisAndMatrix ieeeOps 5 [72, 5] [60, 31] [-40, 31] [124, 0] = .ok (B, T) ∧ CFinite3 B ∧
    ‖fslot B 0 0 0 - matAt (basisOf [72, 5] [60, 31] [-40, 31] [124, 0]) (rootC 1 0) 0 0‖ ≤ 6 / 10 ^ 12 := by
  obtain ⟨B, T, M, e, -, hB, hb, -⟩ := C97_basis 1 (by norm_num) (by norm_num) 5 (by norm_num) [72, 5] [60, 31] [-40, 31] [124, 0] rfl rfl rfl rfl
    ![200, 200] (by
      intro i j
      fin_cases i <;> fin_cases j <;> norm_num [basisOf, l1, realI, int16ToBigInt, realM, realOf, show Int16.toInt 60 = 60 by decide, show Int16.toInt 31 = 31 by decide,
        show Int16.toInt 72 = 72 by decide, show Int16.toInt 5 = 5 by decide, show Int16.toInt 124 = 124 by decide, show Int16.toInt 0 = 0 by decide,
        show (-Int16.toInt 40).bmod 65536 = -40 by decide]) (by intro i; fin_cases i <;> norm_num)
  refine ⟨B, T, e, hB, (hb 0 (by norm_num) 0 0).trans (by norm_num)⟩

end Falcon
