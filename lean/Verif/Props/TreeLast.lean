import Verif.Props.OutputKey
/-!
# C63: the tree that is left, in exact arithmetic

Of the tree of a private key only the last leaf remains (`C63_violated_collapse`). Along the right children `LdlFFT` takes the harmonic mean of the values at pairs of
roots; the values at the top are `q^2/(|f|^2+|g|^2)`, so the right child of the last leaf is `q^2` divided by the sum of the squares of the coefficients of `f`, `g`.
-/

namespace Falcon
open Spec Polynomial
open scoped ComplexConjugate

/-- The second pivot of `LdlFFT` in exact arithmetic. -/
theorem ldl_slot_exact (n : Nat) (g00 g01 g10 g11 : List ℂ) (h00 : g00.length = n) (h01 : g01.length = n) (h10 : g10.length = n) (h11 : g11.length = n) :
    ∃ L D d11, LdlFFT exactOps [[g00, g01], [g10, g11]] = .ok (L, D) ∧ (D.getD 1 []).getD 1 [] = d11 ∧ d11.length = n ∧ ∀ j < n,
      d11.getD j 0 = g11.getD j 0 - g10.getD j 0 / g00.getD j 0 * conj (g10.getD j 0 / g00.getD j 0) * g00.getD j 0 := by
  obtain ⟨a, b, c, d, l10, d11, p, p', hE, l1, l2, l3, e1, e2, e3, e4, e⟩ :=
    LdlFFT_ok (O := exactOps) n [[g00, g01], [g10, g11]] ⟨_, _, _, _, rfl, h00, h01, h10, h11⟩
  simp only [List.cons.injEq, and_true] at hE
  obtain ⟨⟨rfl, rfl⟩, rfl, rfl⟩ := hE
  refine ⟨_, _, d11, e, rfl, l3, fun j hj => ?_⟩
  unfold DivFFT at e1
  rw [if_neg (by omega), Go.ok.injEq] at e1
  unfold MulFFT at e2 e3
  rw [if_neg (by rw [AdjFFT_length]; simp), Go.ok.injEq] at e2
  have lp : p.length = n := by rw [← e2]; simp [AdjFFT, l2]
  rw [if_neg (by omega), Go.ok.injEq] at e3
  have lp' : p'.length = n := by rw [← e3]; simp [lp, l1]
  have v1 : l10.getD j 0 = g10.getD j 0 / g00.getD j 0 := by
    rw [← e1]; exact getD_zipWith _ _ _ (by omega) (by omega)
  have v2 : p.getD j 0 = l10.getD j 0 * conj (l10.getD j 0) := by
    rw [← e2]
    refine (getD_zipWith _ _ _ (by omega) (by rw [AdjFFT_length]; omega)).trans ?_
    congr 1
    simp [AdjFFT, l2, hj]
  have v3 : p'.getD j 0 = p.getD j 0 * g00.getD j 0 := by
    rw [← e3]; exact getD_zipWith _ _ _ (by omega) (by omega)
  have v4 : d11.getD j 0 = g11.getD j 0 - p'.getD j 0 := by
    unfold SubFFT AddFFT at e4
    rw [if_neg (by simp [NegFFT]; omega), Go.ok.injEq] at e4
    rw [← e4]
    refine (getD_zipWith _ _ _ (by omega) (by simp [NegFFT]; omega)).trans ?_
    have : (NegFFT exactOps p').getD j 0 = -p'.getD j 0 := by simp [NegFFT, lp', hj]
    rw [this, sub_eq_add_neg]
  rw [v4, v3, v2, v1]

theorem ext_getD (n : Nat) (l : List ℂ) (h : l.length = n) (F : Nat → ℂ) (hF : ∀ j < n, l.getD j 0 = F j) : l = (List.range n).map F := by
  apply List.ext_getElem
  · simp [h]
  · intro j h1 h2
    have := hF j (by omega)
    simp only [List.getElem_map, List.getElem_range, ← this]
    simp [h1]

theorem gramL_real (ps : List (List ℝ)) (h : ∀ p ∈ ps, 2 ∣ p.length) (w : ℂ) (hw : w * conj w = 1) :
    w * oddPart ps (w ^ 2) = ((gramL ps w - gramL (halves ps) (w ^ 2) : ℝ) : ℂ) ∧ gramL ps w + gramL ps (-w) = 2 * gramL (halves ps) (w ^ 2) := by
  have e1 := gramL_split ps h w hw
  have e2 := gramL_split ps h (-w) (by simpa using hw)
  rw [neg_sq] at e2
  refine ⟨by push_cast; linear_combination -e1, ?_⟩
  have : ((gramL ps w + gramL ps (-w) : ℝ) : ℂ) = ((2 * gramL (halves ps) (w ^ 2) : ℝ) : ℂ) := by
    push_cast
    linear_combination e1 + e2
  exact_mod_cast this

/-- The right child of the tree that is left: if the second pivots at the top are `c/(sum |p|^2)` at the roots, it is `c` divided by the sum of the squares of all
coefficients. -/
theorem FfldlFFT_last (k : Nat) (h1 : 1 ≤ k) (h2 : k ≤ 10) (fuel : Nat) (hfu : k ≤ fuel) (ps : List (List ℝ)) (hp : ∀ p ∈ ps, p.length = 2 ^ k) (c : ℝ) (hc : c ≠ 0)
    (hpos : ∀ w : ℂ, w ^ 2 ^ k = -1 → 0 < gramL ps w) (T : FFTtree exactOps) (G : List (List (List ℂ))) (hG : Mat (2 ^ k) G)
    (hD : ∀ L D, LdlFFT exactOps G = .ok (L, D) → (D.getD 1 []).getD 1 [] = (List.range (2 ^ k)).map fun t => ((c / gramL ps (rootC k t) : ℝ) : ℂ)) :
    ∃ T' : FFTtree exactOps, FfldlFFT exactOps fuel T G = .ok T' ∧ T'.Rightchild = [((c / normL ps : ℝ) : ℂ), ((c / normL ps : ℝ) : ℂ)] := by
  induction k, h1 using Nat.le_induction generalizing T G fuel ps with
  | base =>
    obtain ⟨m, rfl⟩ : ∃ m, fuel = m + 1 := ⟨fuel - 1, by omega⟩
    obtain ⟨g00, g01, g10, g11, l10, d11, p, p', rfl, a1, a2, a3, -, -, -, -, e⟩ := LdlFFT_ok (O := exactOps) _ G hG
    have := hD _ _ e
    have hv : ∀ t, gramL ps (rootC 1 t) = normL ps := by
      intro t
      rw [gramL_two ps (by simpa using hp) _ (by simpa using rootC_pow 1 t)]
    refine ⟨⟨l10, g00, d11⟩, ?_, ?_⟩
    · rw [FfldlFFT]
      simp only [idx2, idx, List.getElem?_cons_zero, Go.ok_bind, e, List.getElem?_cons_succ, a1]
      rfl
    · simp only [hv] at this
      exact this
  | succ k h1 ih =>
    obtain ⟨m, rfl⟩ : ∃ m, fuel = m + 1 := ⟨fuel - 1, by omega⟩
    obtain ⟨L, D, s, eL, es, eT⟩ := C63_violated_collapse (O := exactOps) k h1 h2 m (by omega) T T G hG
    have h2p : ∀ p ∈ ps, 2 ∣ p.length := fun p h => by rw [hp p h, pow_succ]; exact ⟨2 ^ k, by ring⟩
    rw [hD L D eL] at es
    have hq : ∀ u : ℂ, u ^ 2 ^ k = -1 → ∃ w : ℂ, w ^ 2 = u ∧ w ^ 2 ^ (k + 1) = -1 ∧ w * conj w = 1 := by
      intro u hu
      obtain ⟨t, ht, rfl⟩ := List.mem_map.1 ((mem_rootsC k u).2 hu)
      refine ⟨rootC (k + 1) (2 * t), by rw [rootC_sq]; congr 1; omega, rootC_pow _ _, rootC_conj _ _⟩
    have ppos : ∀ u : ℂ, u ^ 2 ^ k = -1 → 0 < gramL (halves ps) u := by
      intro u hu
      obtain ⟨w, rfl, hw, hc⟩ := hq u hu
      have := (gramL_real ps h2p w hc).2
      have := hpos w hw
      have := hpos (-w) (by rw [Even.neg_pow ⟨2 ^ k, by ring⟩]; exact hw)
      linarith
    -- the halves of the second pivot
    set A : ℂ → ℂ := fun u => c * gramL (halves ps) u / ((gramL (halves ps) u) ^ 2 - u * oddPart ps u ^ 2) with hA
    set B : ℂ → ℂ := fun u => -(c * oddPart ps u) / ((gramL (halves ps) u) ^ 2 - u * oddPart ps u ^ 2) with hB
    have hprod : ∀ w : ℂ, w * conj w = 1 → ((gramL (halves ps) (w ^ 2) : ℂ)) ^ 2 - w ^ 2 * oddPart ps (w ^ 2) ^ 2 = (gramL ps w : ℂ) * (gramL ps (-w) : ℂ) := by
      intro w hw
      have e1 := gramL_split ps h2p w hw
      have e2 := gramL_split ps h2p (-w) (by simpa using hw)
      rw [neg_sq] at e2
      rw [e1, e2]
      ring
    have hAB : ∀ w : ℂ, w * conj w = 1 → w ^ 2 ^ (k + 1) = -1 → ((c / gramL ps w : ℝ) : ℂ) = A (w ^ 2) + w * B (w ^ 2) := by
      intro w hw hr
      have g1 : (gramL ps w : ℂ) ≠ 0 := by exact_mod_cast (hpos w hr).ne'
      have g2 : (gramL ps (-w) : ℂ) ≠ 0 := by exact_mod_cast (hpos (-w) (by rw [Even.neg_pow ⟨2 ^ k, by ring⟩]; exact hr)).ne'
      have e2 := gramL_split ps h2p (-w) (by simpa using hw)
      rw [neg_sq] at e2
      simp only [hA, hB, hprod w hw]
      push_cast
      field_simp
      linear_combination (c : ℂ) * e2
    have hfun : ((List.range (2 ^ (k + 1))).map fun t => ((c / gramL ps (rootC (k + 1) t) : ℝ) : ℂ)) =
        (List.range' (2 * 0) (2 * 2 ^ k)).map fun j => A (rootC (k + 1) j ^ 2) + rootC (k + 1) j * B (rootC (k + 1) j ^ 2) := by
      rw [List.range_eq_range', pow_succ, mul_comm (2 ^ k) 2, Nat.mul_zero]
      exact List.map_congr_left fun t _ => hAB _ (rootC_conj _ _) (rootC_pow _ _)
    have es' : splitFFTLoop exactOps (2 ^ (k + 1)) 0 ((List.range (2 ^ (k + 1))).map fun t => ((c / gramL ps (rootC (k + 1) t) : ℝ) : ℂ)) = .ok s := by
      unfold SplitFFT at es
      simpa using es
    rw [hfun, split_exact k h2 A B (2 ^ k) 0 (by omega)] at es'
    obtain rfl := Go.ok.inj es'
    simp only [← List.range_eq_range'] at eT
    have mG : Mat (2 ^ k) [[(List.range (2 ^ k)).map fun j => A (rootC k j), (List.range (2 ^ k)).map fun j => B (rootC k j)],
        [AdjFFT exactOps ((List.range (2 ^ k)).map fun j => B (rootC k j)), (List.range (2 ^ k)).map fun j => A (rootC k j)]] :=
      ⟨_, _, _, _, rfl, by simp, by simp, by simp [AdjFFT], by simp⟩
    obtain ⟨T', e', r'⟩ := ih (by omega) m (by omega) (halves ps) (by
        intro p h
        simp only [halves, List.mem_flatMap] at h
        obtain ⟨q, hq, h⟩ := h
        have l := splitPolys_len q
        rw [hp q hq, pow_succ, Nat.mul_div_cancel _ (by norm_num)] at l
        simp only [List.mem_cons, List.not_mem_nil, or_false] at h
        rcases h with rfl | rfl
        · exact l.1
        · exact l.2) ppos T _ mG (by
      intro L' D' eD
      obtain ⟨L2, D2, d11, e2, ed, ld, hs⟩ := ldl_slot_exact (2 ^ k) _ ((List.range (2 ^ k)).map fun j => B (rootC k j)) _
        ((List.range (2 ^ k)).map fun j => A (rootC k j)) (by simp : ((List.range (2 ^ k)).map fun j => A (rootC k j)).length = 2 ^ k) (by simp)
        (by simp [AdjFFT] : (AdjFFT exactOps ((List.range (2 ^ k)).map fun j => B (rootC k j))).length = 2 ^ k) (by simp)
      rw [eD] at e2
      obtain ⟨rfl, rfl⟩ := Prod.mk.inj (Go.ok.inj e2)
      rw [ed]
      refine ext_getD _ _ ld _ fun j hj => ?_
      rw [hs j hj]
      obtain ⟨w, hw2, hw, hw1⟩ := hq _ (rootC_pow k j)
      have a1 : ((List.range (2 ^ k)).map fun j => A (rootC k j)).getD j 0 = A (w ^ 2) := by simp [hj, hw2]
      have a2 : (AdjFFT exactOps ((List.range (2 ^ k)).map fun j => B (rootC k j))).getD j 0 = conj (B (w ^ 2)) := by
        simp [AdjFFT, hj, hw2]
      rw [a1, a2, ← hw2]
      obtain ⟨r1, r2⟩ := gramL_real ps h2p w hw1
      have g1 := hpos w hw
      have g2 := hpos (-w) (by rw [Even.neg_pow ⟨2 ^ k, by ring⟩]; exact hw)
      have hu : (w ^ 2) ^ 2 ^ k = -1 := by rw [← pow_mul, mul_comm, ← pow_succ]; exact hw
      have g3 := ppos _ hu
      have w0 : w ≠ 0 := by rintro rfl; simp at hw1
      -- real values
      have vA : A (w ^ 2) = ((c * gramL (halves ps) (w ^ 2) / (gramL ps w * gramL ps (-w)) : ℝ) : ℂ) := by
        simp only [hA, hprod w hw1]
        push_cast
        rfl
      have vB : B (w ^ 2) = conj w * ((-(c * (gramL ps w - gramL (halves ps) (w ^ 2))) / (gramL ps w * gramL ps (-w)) : ℝ) : ℂ) := by
        simp only [hB, hprod w hw1]
        have : oddPart ps (w ^ 2) = conj w * ((gramL ps w - gramL (halves ps) (w ^ 2) : ℝ) : ℂ) := by
          rw [← r1]
          linear_combination -(oddPart ps (w ^ 2)) * hw1
        rw [this]
        push_cast
        ring
      rw [vA, vB]
      have e3 : gramL ps (-w) = 2 * gramL (halves ps) (w ^ 2) - gramL ps w := by linarith
      rw [e3] at g2 ⊢
      generalize gramL ps w = x at *
      generalize gramL (halves ps) (w ^ 2) = y at *
      simp only [map_mul, map_div₀, Complex.conj_conj, Complex.conj_ofReal]
      have x0 : (x : ℂ) ≠ 0 := by exact_mod_cast g1.ne'
      have y0 : (y : ℂ) ≠ 0 := by exact_mod_cast g3.ne'
      have z0 : (2 * y - x : ℂ) ≠ 0 := by exact_mod_cast g2.ne'
      have c0 : (c : ℂ) ≠ 0 := by exact_mod_cast hc
      push_cast
      have key : ∀ p q r : ℂ, (w * p) / q * (conj w * p / q) * r = p * p / (q * q) * r := by
        intro p q r
        linear_combination (p * p / (q * q) * r) * hw1
      rw [key]
      have z1 : (y * 2 - x : ℂ) ≠ 0 := by rw [mul_comm]; exact z0
      field_simp
      ring)
    rw [halves_norm ps h2p] at r'
    exact ⟨T', by rw [eT]; exact e', r'⟩

/-- C63, exact arithmetic: the tree of a private key at every degree. The right child of the tree that `basisAndMatrix` returns is `q^2/(|f|^2+|g|^2)`, with the sum of
the squares of the coefficients, in both slots. -/
theorem C63_last (k : Nat) (h1 : 1 ≤ k) (h2 : k ≤ 10) (fuel : Nat) (hfu : k ≤ fuel) (f g F G : List Int16)
    (hf : f.length = 2 ^ k) (hg : g.length = 2 ^ k) (hF : F.length = 2 ^ k) (hG : G.length = 2 ^ k)
    (hdet : CongrZ (2 ^ k) (ntruDet (int16ToBigInt f) (int16ToBigInt g) (int16ToBigInt F) (int16ToBigInt G)) (C 12289)) :
    ∃ B, ∃ T : FFTtree exactOps, basisAndMatrix exactOps fuel f g F G = .ok (B, T) ∧
      T.Rightchild = [((12289 ^ 2 / keyNorm f g : ℝ) : ℂ), ((12289 ^ 2 / keyNorm f g : ℝ) : ℂ)] := by
  obtain ⟨B, T, M, e, -, -, mM, vM, eT⟩ := C63_basis k h1 h2 fuel hfu f g F G hf hg hF hG
  have hg' : ∀ w, gramL [realOf f, realOf g] w = gramAt (int16ToBigInt f) (int16ToBigInt g) w := by
    intro w
    rw [gramAt, realI_int16, realI_int16]
    simp [gramL]
  have hn' : normL [realOf f, realOf g] = keyNorm f g := by
    rw [keyNorm_eq]
    simp [normL]
  have hpos : ∀ w : ℂ, w ^ 2 ^ k = -1 → 0 < gramL [realOf f, realOf g] w := by
    intro w hw
    have d := det_at _ _ _ _ _ hdet w hw
    rw [hg', gramAt]
    rcases eq_or_ne (evalR (realI (int16ToBigInt f)) w) 0 with h0 | h0
    · rcases eq_or_ne (evalR (realI (int16ToBigInt g)) w) 0 with h0' | h0'
      · rw [h0, h0'] at d
        norm_num at d
      · exact add_pos_of_nonneg_of_pos (Complex.normSq_nonneg _) (Complex.normSq_pos.2 h0')
    · exact add_pos_of_pos_of_nonneg (Complex.normSq_pos.2 h0) (Complex.normSq_nonneg _)
  obtain ⟨T', e', r⟩ := FfldlFFT_last k h1 h2 fuel hfu [realOf f, realOf g] (by simp [realOf, hf, hg]) (12289 ^ 2) (by norm_num) hpos ⟨[], [], []⟩ M mM (by
    intro L D eL
    obtain ⟨a, b, c, d, rfl, la, lb, lc, ld⟩ := mM
    obtain ⟨L2, D2, d11, e2, ed, ld', hs⟩ := ldl_slot_exact (2 ^ k) a b c d la lb lc ld
    rw [eL] at e2
    obtain ⟨rfl, rfl⟩ := Prod.mk.inj (Go.ok.inj e2)
    rw [ed]
    refine ext_getD _ _ ld' _ fun j hj => ?_
    have v := vM j hj
    have hw := rootC_pow k j
    obtain ⟨q1, q2, q3⟩ := gram_entries f g F G (rootC k j)
    rw [← v] at q1 q2 q3
    rw [slot_mk] at q1 q2 q3
    simp only [Matrix.of_apply, Matrix.cons_val', Matrix.cons_val_zero, Matrix.cons_val_one, Matrix.cons_val_fin_one] at q1 q2 q3
    have dd := det_at _ _ _ _ _ hdet _ hw
    have p0 := hpos _ hw
    rw [hs j hj, q1, q2, q3, hg']
    rw [hg'] at p0
    have p0' : (gramAt (int16ToBigInt f) (int16ToBigInt g) (rootC k j) : ℂ) ≠ 0 := by exact_mod_cast p0.ne'
    have dc := congrArg conj dd
    simp only [map_sub, map_mul, map_ofNat] at dc
    simp only [map_div₀, map_add, map_mul, Complex.conj_conj, Complex.conj_ofReal]
    push_cast
    field_simp
    simp only [gramAt, Complex.ofReal_add, ← Complex.mul_conj]
    generalize evalR (realI (int16ToBigInt f)) (rootC k j) = x at *
    generalize evalR (realI (int16ToBigInt g)) (rootC k j) = y at *
    generalize evalR (realI (int16ToBigInt F)) (rootC k j) = z at *
    generalize evalR (realI (int16ToBigInt G)) (rootC k j) = t at *
    linear_combination 12289 * dd + (x * t - y * z) * dc)
  rw [eT] at e'
  obtain rfl := Go.ok.inj e'
  rw [hn'] at r
  exact ⟨B, T, e, r⟩

/-- The key of `ieee_run_key`, of squared norm 9770. -/
example : ∃ B, ∃ T : FFTtree exactOps, basisAndMatrix exactOps 1 [72, 5] [60, 31] [-40, 31] [124, 0] = .ok (B, T) ∧
    T.Rightchild = [((12289 ^ 2 / 9770 : ℝ) : ℂ), ((12289 ^ 2 / 9770 : ℝ) : ℂ)] := by
  have hn : keyNorm [72, 5] [60, 31] = 9770 := by decide
  obtain ⟨B, T, e, r⟩ := C63_last 1 le_rfl (by norm_num) 1 le_rfl [72, 5] [60, 31] [-40, 31] [124, 0] rfl rfl rfl rfl (by
    refine ⟨C (-961), ?_⟩
    have t : ∀ a b : Int16, int16ToBigInt [a, b] = [a.toInt, b.toInt] := fun _ _ => rfl
    simp only [ntruDet, t, polyZ, poly, show (72 : Int16).toInt = 72 by decide, show (5 : Int16).toInt = 5 by decide, show (60 : Int16).toInt = 60 by decide,
      show (31 : Int16).toInt = 31 by decide, show (-40 : Int16).toInt = -40 by decide, show (124 : Int16).toInt = 124 by decide, show (0 : Int16).toInt = 0 by decide]
    simp only [map_ofNat, map_zero, map_neg]
    ring)
  rw [hn, Int.cast_ofNat] at r
  exact ⟨B, T, e, r⟩

end Falcon
