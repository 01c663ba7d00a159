import Verif.Props.ReducedKey
/-!
# Key generation of degree 2 is the same in IEEE and in exact arithmetic (C95)
-/

namespace Falcon
open Spec Polynomial ComplexConjugate F64

/-- The candidate `(f, g)` is rejected by the quality check, in the arithmetic `O`. -/
abbrev rejects (O : FloatOps) (norm : O.F) : Bool := O.lt (O.mul (O.pow2 (O.lit 1.17)) (O.ofInt Q)) norm

/-- If two arithmetics draw the same candidates, agree on the quality check and on the outcome of `NtruSolve` on the candidates that pass, they
agree on the outcome of `NtruGen`. -/
theorem NtruGen_transfer {O P : FloatOps} (kO : KeyArith O) (kP : KeyArith P) (j : Nat) (h1 : 1 ≤ j) (hj : j ≤ 10) (n : UInt16) (hn : n.toNat = 2 ^ j)
    (hag : ∀ f g : List Int16, f.length = 2 ^ j → g.length = 2 ^ j → ∀ no np t, GsNorm O (Int16ToFloat64 O f) (Int16ToFloat64 O g) (O.ofInt Q) = .ok no →
      GsNorm P (Int16ToFloat64 P f) (Int16ToFloat64 P g) (P.ofInt Q) = .ok np → NTT wrap64 f = .ok t → anyZeroes t = false →
      rejects O no = rejects P np ∧ (rejects O no = false → ∀ fuel, NtruSolve O fuel (int16ToBigInt f) (int16ToBigInt g) ≠ .diverge →
        ∃ fuel', NtruSolve P fuel' (int16ToBigInt f) (int16ToBigInt g) = NtruSolve O fuel (int16ToBigInt f) (int16ToBigInt g)))
    (rand : Rand) (fuel pos : Nat) (h : NtruGen O rand fuel n pos ≠ .diverge) : ∃ fuel', NtruGen P rand fuel' n pos = NtruGen O rand fuel n pos := by
  have hn4 : n.toNat ≤ 4096 := by
    rw [hn]
    exact (Nat.pow_le_pow_right (by decide) hj).trans (by decide)
  induction fuel generalizing pos with
  | zero => exact absurd rfl h
  | succ fuel ih =>
    rcases e1 : GenPoly O rand (fuel + 1) n pos with ⟨f, p1⟩ | _ | _
    · rcases e2 : GenPoly O rand (fuel + 1) n p1 with ⟨g, p2⟩ | _ | _
      · have lf : f.length = 2 ^ j := by
          rw [← hn]
          exact GenPoly_length O rand _ n _ f p1 e1
        have lg : g.length = 2 ^ j := by
          rw [← hn]
          exact GenPoly_length O rand _ n _ g p2 e2
        obtain ⟨no, hno⟩ := GsNorm_ok O j h1 hj (Int16ToFloat64 O f) (Int16ToFloat64 O g) (O.ofInt Q)
          (by rw [← lf]; simp [Int16ToFloat64]) (by rw [← lg]; simp [Int16ToFloat64])
        obtain ⟨np, hnp⟩ := GsNorm_ok P j h1 hj (Int16ToFloat64 P f) (Int16ToFloat64 P g) (P.ofInt Q)
          (by rw [← lf]; simp [Int16ToFloat64]) (by rw [← lg]; simp [Int16ToFloat64])
        obtain ⟨t, ht, -⟩ := NTT_spec wrap64_good j h1 hj f lf
        have sO := NtruGen_step O rand fuel n pos p1 p2 f g no t e1 e2 hno ht
        have sP : ∀ m, fuel ≤ m → NtruGen P rand (m + 1) n pos =
            if rejects P np then NtruGen P rand m n p2
            else if anyZeroes t then NtruGen P rand m n p2
            else (do
              match ← NtruSolve P (m + 1) (int16ToBigInt f) (int16ToBigInt g) with
              | none => NtruGen P rand m n p2
              | some (F, G) => pure (⟨f, g, bigIntToInt16 F, bigIntToInt16 G⟩, p2)) := by
          intro m hm
          have mono : ∀ p, GenPoly O rand (fuel + 1) n p ≠ .diverge → GenPoly P rand (m + 1) n p = GenPoly O rand (fuel + 1) n p := by
            intro p hp
            rw [C94_candidates kP kO]
            exact (mono_of_succ (F := fun k => GenPoly O rand k n p) (fun k => GenPoly_succ ..) (by omega : fuel + 1 ≤ m + 1)).outcome hp
          exact NtruGen_step P rand m n pos p1 p2 f g np t (by rw [mono pos (by rw [e1]; simp), e1]) (by rw [mono p1 (by rw [e2]; simp), e2]) hnp ht
        have next : NtruGen O rand fuel n p2 ≠ .diverge → ∃ a, ∀ m, a ≤ m → NtruGen P rand m n p2 = NtruGen O rand fuel n p2 := by
          intro hd
          obtain ⟨a, ha⟩ := ih p2 hd
          refine ⟨a, fun m hm => ?_⟩
          rw [← ha]
          exact (mono_of_succ (F := fun k => NtruGen P rand k n p2) (fun k => NtruGen_succ ..) hm).outcome (by rw [ha]; exact hd)
        change _ = (if rejects O no then _ else _) at sO
        rw [sO] at h ⊢
        by_cases hz : anyZeroes t = true
        · rw [if_pos hz, ite_self] at h ⊢
          obtain ⟨a, ha⟩ := next h
          refine ⟨a + fuel + 1, ?_⟩
          rw [sP _ (by omega), if_pos hz, ite_self, ha _ (by omega)]
        · obtain ⟨a1, a2⟩ := hag f g lf lg no np t hno hnp ht (by simpa using hz)
          by_cases hr : rejects O no = true
          · rw [if_pos hr] at h ⊢
            obtain ⟨a, ha⟩ := next h
            refine ⟨a + fuel + 1, ?_⟩
            rw [sP _ (by omega), if_pos (by rw [← a1, hr]), ha _ (by omega)]
          · rw [if_neg hr, if_neg hz] at h ⊢
            have hs : NtruSolve O (fuel + 1) (int16ToBigInt f) (int16ToBigInt g) ≠ .diverge := by
              intro hc
              rw [hc] at h
              exact h rfl
            obtain ⟨b, hb⟩ := a2 (by simpa using hr) _ hs
            have hb' : ∀ m, b ≤ m → NtruSolve P m (int16ToBigInt f) (int16ToBigInt g) = NtruSolve O (fuel + 1) (int16ToBigInt f) (int16ToBigInt g) := by
              intro m hm
              rw [← hb]
              exact (C72_outcome P b m hm).2.2.2.2.1 _ _ (by rw [hb]; exact hs)
            rcases e3 : NtruSolve O (fuel + 1) (int16ToBigInt f) (int16ToBigInt g) with r | _ | _
            · rw [e3] at hb' h
              match r with
              | none =>
                obtain ⟨a, ha⟩ := next h
                refine ⟨a + b + fuel + 1, ?_⟩
                rw [sP _ (by omega), if_neg (by rw [← a1]; exact hr), if_neg hz, hb' _ (by omega)]
                exact ha _ (by omega)
              | some (F, G) =>
                refine ⟨b + fuel + 1, ?_⟩
                rw [sP _ (by omega), if_neg (by rw [← a1]; exact hr), if_neg hz, hb' _ (by omega)]
                rfl
            · rw [e3] at hb'
              refine ⟨b + fuel + 1, ?_⟩
              rw [sP _ (by omega), if_neg (by rw [← a1]; exact hr), if_neg hz, hb' _ (by omega)]
              rfl
            · exact absurd e3 hs
      · refine ⟨fuel + 1, ?_⟩
        rw [NtruGen_fails O rand fuel n pos p1 f e1 e2, NtruGen_fails P rand fuel n pos p1 f (by rw [C94_candidates kP kO, e1]) (by rw [C94_candidates kP kO, e2])]
      · exfalso
        apply h
        rw [NtruGen, e1, Go.ok_bind]
        simp only
        rw [e2]
        rfl
    · refine ⟨fuel + 1, ?_⟩
      rw [NtruGen, NtruGen, C94_candidates kP kO, e1]
      rfl
    · exfalso
      apply h
      rw [NtruGen, e1]
      rfl

/-! ### The quality check at degree 2 -/

theorem near_sq (x y e : ℝ) (h : |x - y| ≤ e) : |x ^ 2 - y ^ 2| ≤ e * (2 * |y| + e) := by
  have e0 : 0 ≤ e := (abs_nonneg _).trans h
  rw [show x ^ 2 - y ^ 2 = (x - y) * (x - y + 2 * y) by ring, abs_mul]
  have h2 : |x - y + 2 * y| ≤ e + 2 * |y| := (abs_add_le _ _).trans (by rw [abs_mul, abs_two]; linarith)
  calc _ ≤ e * (e + 2 * |y|) := mul_le_mul h h2 (abs_nonneg _) e0
    _ = _ := by ring

/-- The norm of a vector computed at degree 2. -/
theorem slot_norm (κ : List ℝ) (lκ : κ.length = 2 ^ 1) (z : ℂ → ℂ) (nf N : ℝ) (n0 : 0 ≤ nf) (hN : 8900 ≤ N) (hle : nf ≤ 16900)
    (hz : ∀ w ∈ rootsC 1, ‖z w‖ = Real.sqrt nf / N)
    (hv : ∀ w ∈ rootsC 1, ‖evalR κ w - z w‖ ≤ 33 / 10 ^ 4 * (Real.sqrt nf / N) / N + 33 / 10 ^ 8 / N) :
    |sqNorm κ - nf / N ^ 2| ≤ 3 / 10 ^ 10 := by
  have N0 : (0 : ℝ) < N := by linarith
  have hs : Real.sqrt nf / N ≤ 147 / 10 ^ 4 := by
    rw [div_le_iff₀ N0]
    have : Real.sqrt nf ≤ 130 := by
      rw [Real.sqrt_le_left (by norm_num)]
      norm_num
      exact hle
    linarith
  have s0 : 0 ≤ Real.sqrt nf / N := by positivity
  have hsq : (Real.sqrt nf / N) ^ 2 = nf / N ^ 2 := by rw [div_pow, Real.sq_sqrt n0]
  have one : ∀ w ∈ rootsC 1, |Complex.normSq (evalR κ w) - nf / N ^ 2| ≤ 3 / 10 ^ 10 := by
    intro w hw
    have h1 := hv w hw
    have h2 := hz w hw
    rw [Complex.normSq_eq_norm_sq, ← hsq, ← h2]
    have h3 : |‖evalR κ w‖ - ‖z w‖| ≤ 6 / 10 ^ 9 := by
      refine (abs_norm_sub_norm_le _ _).trans (h1.trans ?_)
      have a1 : 33 / 10 ^ 4 * (Real.sqrt nf / N) / N ≤ 33 / 10 ^ 4 * (147 / 10 ^ 4) / 8900 := by gcongr
      have a2 : (33 : ℝ) / 10 ^ 8 / N ≤ 33 / 10 ^ 8 / 8900 := by gcongr
      norm_num at a1 a2 ⊢
      linarith
    refine (near_sq _ _ _ h3).trans ?_
    rw [abs_of_nonneg (norm_nonneg _), h2]
    norm_num at hs ⊢
    linarith
  have hp := parseval 1 κ lκ
  have m0 : rootC 1 0 ∈ rootsC 1 := List.mem_map.2 ⟨0, by simp, rfl⟩
  have m1 : rootC 1 1 ∈ rootsC 1 := List.mem_map.2 ⟨1, by simp, rfl⟩
  have o0 := one _ m0
  have o1 := one _ m1
  rw [show (2 : Nat) ^ 1 = 2 from rfl, Finset.sum_range_succ, Finset.sum_range_one] at hp
  rw [abs_le] at o0 o1 ⊢
  rw [pow_one] at hp
  constructor <;> linarith [o0.1, o0.2, o1.1, o1.2]

/-- The norm of a rounded vector of degree 2. -/
theorem coef_norm (r : List F64) (κ : List ℝ) (lκ : κ.length = 2 ^ 1) (hr : List.Forall₂ (RNear (7 / 10 ^ 7 * (1 / 10) ^ 3)) r κ) (hb : sqNorm κ ≤ 4 / 10 ^ 4) :
    |sqNorm (r.map R) - sqNorm κ| ≤ 1 / 10 ^ 10 := by
  obtain ⟨x, y, rfl⟩ : ∃ x y, κ = [x, y] := by
    match κ, lκ with
    | [x, y], _ => exact ⟨x, y, rfl⟩
  cases hr with | @cons a _ r _ h1 hr =>
  cases hr with | @cons b _ r _ h2 hr =>
  cases hr with | nil =>
    simp only [sqNorm, List.map_cons, List.map_nil, List.sum_cons, List.sum_nil] at hb ⊢
    have e1 := near_sq _ _ _ h1.2
    have e2 := near_sq _ _ _ h2.2
    have b1 : |x| ≤ 2 / 100 := by
      apply abs_le_of_sq_le_sq _ (by norm_num)
      nlinarith [sq_nonneg y]
    have b2 : |y| ≤ 2 / 100 := by
      apply abs_le_of_sq_le_sq _ (by norm_num)
      nlinarith [sq_nonneg x]
    have c1 : |R a ^ 2 - x ^ 2| ≤ 5 / 10 ^ 11 := e1.trans (by norm_num at b1 ⊢; linarith)
    have c2 : |R b ^ 2 - y ^ 2| ≤ 5 / 10 ^ 11 := e2.trans (by norm_num at b2 ⊢; linarith)
    rw [abs_le] at c1 c2 ⊢
    constructor <;> linarith [c1.1, c1.2, c2.1, c2.2]

theorem normSq_two (a b : Int) (w : ℂ) (hw : w ^ 2 = -1) : ‖evalR (realI [a, b]) w‖ = Real.sqrt ((a * a + b * b : Int) : ℝ) := by
  have h := gramAt_two a b 0 0 w hw
  rw [gramAt, show evalR (realI [0, 0]) w = 0 by simp [evalR, realI, poly], map_zero, add_zero, Complex.normSq_eq_norm_sq] at h
  rw [eq_comm, Real.sqrt_eq_iff_mul_self_eq (by exact_mod_cast add_nonneg (mul_self_nonneg a) (mul_self_nonneg b)) (norm_nonneg _), ← pow_two ‖_‖, h]
  push_cast
  ring

/-- The computed second norm at degree 2: `q^2/N` up to 2/10. -/
theorem second_two_variant (va : Variant) (f g : List Int16) (a b c d : Int) (hf : int16ToBigInt f = [a, b]) (hg : int16ToBigInt g = [c, d]) (N : Int)
    (hN : N = a * a + b * b + c * c + d * d) (h1 : 8900 ≤ N) (h2 : N ≤ 16822) :
    ∃ x y : F64, GsNorm va.ops (Int16ToFloat64 va.ops f) (Int16ToFloat64 va.ops g) (va.ops.ofInt Q) = .ok (if F64.lt x y then y else x) ∧
      x.isFinite = true ∧ y.isFinite = true ∧ |R x - N| ≤ 1 / 1000 ∧ |R y - 151019521 / N| ≤ 2 / 10 := by
  have lf : f.length = 2 ^ 1 := by simpa [int16ToBigInt] using congrArg List.length hf
  have lg : g.length = 2 ^ 1 := by simpa [int16ToBigInt] using congrArg List.length hg
  have n1 : 0 ≤ a * a + b * b := add_nonneg (mul_self_nonneg _) (mul_self_nonneg _)
  have n2 : 0 ≤ c * c + d * d := add_nonneg (mul_self_nonneg _) (mul_self_nonneg _)
  have hN1 : (8900 : ℝ) ≤ N := by exact_mod_cast h1
  have hN2 : (N : ℝ) ≤ 16822 := by exact_mod_cast h2
  have gr : ∀ w ∈ rootsC 1, gramAt (int16ToBigInt f) (int16ToBigInt g) w = N := by
    intro w hw
    rw [hf, hg, gramAt_two a b c d w (by simpa using rootsC_root 1 w hw), hN]
    push_cast
    ring
  have sn : sqNorm (realI (int16ToBigInt f)) + sqNorm (realI (int16ToBigInt g)) = N := by
    rw [hf, hg, hN]
    simp only [sqNorm, realI, List.map_cons, List.map_nil, List.sum_cons, List.sum_nil]
    push_cast
    ring
  obtain ⟨κf, κg, rf, rg, x, y, lκf, lκg, ⟨e, fx, fy, hx, hy⟩, nf, ng, hv⟩ := (gs_calc_variant va) 1 le_rfl (by decide) f g lf lg (by rw [sn]; exact hN2) (1 / 10)
    (by norm_num) (by norm_num) (by
      intro v hv
      rw [gr v hv]
      norm_num
      linarith)
  refine ⟨x, y, e, fx, fy, by rw [← sn]; exact hx, ?_⟩
  have slot : ∀ (p q : Int) (κ : List ℝ), κ.length = 2 ^ 1 → p * p + q * q ≤ 16900 →
      (∀ w ∈ rootsC 1, ∀ d, d = gramAt (int16ToBigInt f) (int16ToBigInt g) w → ∀ t, t = ‖evalR (realI [p, q]) w‖ / d →
        ‖evalR κ w - conj (evalR (realI [p, q]) w) / (d : ℂ)‖ ≤ 33 / 10 ^ 4 * t / d + 33 / 10 ^ 8 / d) →
      |sqNorm κ - ((p * p + q * q : Int) : ℝ) / (N : ℝ) ^ 2| ≤ 3 / 10 ^ 10 := by
    intro p q κ lκ hpq hv
    refine slot_norm κ lκ (fun w => conj (evalR (realI [p, q]) w) / ((N : ℝ) : ℂ)) _ N
      (by exact_mod_cast add_nonneg (mul_self_nonneg p) (mul_self_nonneg q)) hN1 (by exact_mod_cast hpq) ?_ ?_
    · intro w hw
      rw [norm_div, Complex.norm_conj, normSq_two p q w (by simpa using rootsC_root 1 w hw), Complex.norm_real, Real.norm_eq_abs, abs_of_pos (by linarith)]
    · intro w hw
      have := hv w hw N (gr w hw).symm _ rfl
      rw [normSq_two p q w (by simpa using rootsC_root 1 w hw)] at this
      exact this
  have sf := slot a b κf lκf (by omega) (by
    intro w hw d hd
    have := (hv w hw d hd).1
    rw [hf] at this
    exact this)
  have sg := slot c d κg lκg (by omega) (by
    intro w hw d hd
    have := (hv w hw d hd).2
    rw [hg] at this
    exact this)
  have N0 : (0 : ℝ) < N := by linarith
  have q1 : ((a * a + b * b : Int) : ℝ) / (N : ℝ) ^ 2 + ((c * c + d * d : Int) : ℝ) / (N : ℝ) ^ 2 = 1 / N := by
    rw [← add_div, div_eq_div_iff (by positivity) N0.ne']
    have : ((a * a + b * b : Int) : ℝ) + ((c * c + d * d : Int) : ℝ) = N := by
      rw [hN]
      push_cast
      ring
    rw [this]
    ring
  have q2 : (0 : ℝ) ≤ ((a * a + b * b : Int) : ℝ) / (N : ℝ) ^ 2 := div_nonneg (by exact_mod_cast n1) (by positivity)
  have q3 : (0 : ℝ) ≤ ((c * c + d * d : Int) : ℝ) / (N : ℝ) ^ 2 := div_nonneg (by exact_mod_cast n2) (by positivity)
  have q4 : 1 / (N : ℝ) ≤ 1 / 8900 := by gcongr
  have q5 : 151019521 / (N : ℝ) = 151019521 * (1 / N) := by ring
  rw [abs_le] at sf sg
  have cf := coef_norm rf κf lκf nf (by norm_num at *; linarith [sf.2])
  have cg := coef_norm rg κg lκg ng (by norm_num at *; linarith [sg.2])
  rw [abs_le] at cf cg hy ⊢
  obtain ⟨y1, y2⟩ := hy
  obtain ⟨f1, f2⟩ := cf
  obtain ⟨g1, g2⟩ := cg
  obtain ⟨s1, s2⟩ := sf
  obtain ⟨t1, t2⟩ := sg
  rw [q5]
  generalize R y = y at *
  generalize sqNorm (rf.map R) = A at *
  generalize sqNorm (rg.map R) = B at *
  generalize sqNorm κf = A' at *
  generalize sqNorm κg = B' at *
  generalize ((a * a + b * b : Int) : ℝ) / (N : ℝ) ^ 2 = P at *
  generalize ((c * c + d * d : Int) : ℝ) / (N : ℝ) ^ 2 = P' at *
  generalize 1 / (N : ℝ) = u at *
  clear * - y1 y2 f1 f2 g1 g2 s1 s2 t1 t2 q1 q4
  norm_num at *
  constructor <;> linarith

theorem second_two (f g : List Int16) (a b c d : Int) (hf : int16ToBigInt f = [a, b]) (hg : int16ToBigInt g = [c, d]) (N : Int)
    (hN : N = a * a + b * b + c * c + d * d) (h1 : 8900 ≤ N) (h2 : N ≤ 16822) :
    ∃ x y : F64, GsNorm ieeeOps (Int16ToFloat64 ieeeOps f) (Int16ToFloat64 ieeeOps g) (ieeeOps.ofInt Q) = .ok (if F64.lt x y then y else x) ∧
      x.isFinite = true ∧ y.isFinite = true ∧ |R x - N| ≤ 1 / 1000 ∧ |R y - 151019521 / N| ≤ 2 / 10 :=
  second_two_variant amd64V f g a b c d hf hg N hN h1 h2

/-- The second vector of degree 2 has squared norm `1/N`. -/
theorem second_norm (a b c d : Int) (N : Int) (hN : N = a * a + b * b + c * c + d * d) (h0 : a ≠ 0 ∨ b ≠ 0) (Ft Gt : List ℝ) (lFt : Ft.length = 2 ^ 1)
    (lGt : Gt.length = 2 ^ 1)
    (dF : (X ^ 2 ^ 1 + 1 : ℝ[X]) ∣ poly Ft * gramPoly (realI [a, b]) (realI [c, d]) - poly (adjList (realI [a, b])))
    (dG : (X ^ 2 ^ 1 + 1 : ℝ[X]) ∣ poly Gt * gramPoly (realI [a, b]) (realI [c, d]) - poly (adjList (realI [c, d]))) :
    sqNorm Ft + sqNorm Gt = 1 / N := by
  have hp : 0 < N := by
    have := sq_ne a b h0
    have n1 : 0 ≤ a * a + b * b := add_nonneg (mul_self_nonneg _) (mul_self_nonneg _)
    have n2 : 0 ≤ c * c := mul_self_nonneg _
    have n3 : 0 ≤ d * d := mul_self_nonneg _
    omega
  have hpr : (0 : ℝ) < N := by exact_mod_cast hp
  have hc : IsCoprime (X ^ 2 ^ 1 + 1 : ℝ[X]) (gramPoly (realI [a, b]) (realI [c, d])) := by
    refine gram_coprime 1 _ _ rfl rfl fun w hw => Or.inl ?_
    intro hz
    have := normSq_two a b w (by simpa using rootsC_root 1 w hw)
    rw [hz, norm_zero, eq_comm, Real.sqrt_eq_zero (by exact_mod_cast add_nonneg (mul_self_nonneg a) (mul_self_nonneg b))] at this
    exact sq_ne a b h0 (by exact_mod_cast this)
  have q1 := quot2 a b c d 1 0 0 0 N hN hp
  have q2 := quot2 a b c d 0 0 1 0 N hN hp
  have e1 := quot_unique 1 _ _ _ _ _ _ hc (⟨lFt, by simpa using dF⟩ : IsQuot 1 (realI [a, b]) (realI [c, d]) [1, 0] [0, 0] Ft) q1
  have e2 := quot_unique 1 _ _ _ _ _ _ hc (⟨lGt, by simpa using dG⟩ : IsQuot 1 (realI [a, b]) (realI [c, d]) [0, 0] [1, 0] Gt) q2
  have hN' : (N : ℝ) = a * a + b * b + c * c + d * d := by rw [hN]; push_cast; ring
  rw [e1, e2]
  simp only [sqNorm, List.map_cons, List.map_nil, List.sum_cons, List.sum_nil]
  rw [eq_div_iff hpr.ne']
  field_simp
  rw [hN']
  ring

/-- `C95_check_ieee` for every variant of the arithmetic. -/
theorem variant_C95_check_ieee (va : Variant) (f g : List Int16) (a b c d : Int) (hf : int16ToBigInt f = [a, b]) (hg : int16ToBigInt g = [c, d]) (h0 : a ≠ 0 ∨ b ≠ 0) (norm : F64)
    (h : GsNorm va.ops (Int16ToFloat64 va.ops f) (Int16ToFloat64 va.ops g) (va.ops.ofInt Q) = .ok norm) :
    rejects va.ops norm = false ↔ 8978 ≤ a * a + b * b + c * c + d * d ∧ a * a + b * b + c * c + d * d ≤ 16822 := by
  have lf : f.length = 2 ^ 1 := by simpa [int16ToBigInt] using congrArg List.length hf
  have lg : g.length = 2 ^ 1 := by simpa [int16ToBigInt] using congrArg List.length hg
  obtain ⟨N, hN⟩ : ∃ N, N = a * a + b * b + c * c + d * d := ⟨_, rfl⟩
  have gr : ∀ w ∈ rootsC 1, gramAt (int16ToBigInt f) (int16ToBigInt g) w = N := by
    intro w hw
    rw [hf, hg, gramAt_two a b c d w (by simpa using rootsC_root 1 w hw), hN]
    push_cast
    ring
  constructor
  · intro hr
    obtain ⟨b1, b2⟩ := (variant_C68_degree2 va) f g a b c d hf hg h0 norm h hr
    rw [← hN] at b1 b2 ⊢
    refine ⟨?_, b2⟩
    have b1r : (9 : ℝ) ≤ N := by exact_mod_cast b1
    obtain ⟨Ft, Gt, lFt, lGt, dF, dG, hs⟩ := (variant_C68_second va) 1 le_rfl (by decide) f g lf lg norm h hr (fun w hw => by rw [gr w hw]; linarith)
    rw [hf, hg] at dF dG
    rw [second_norm a b c d N hN h0 Ft Gt lFt lGt dF dG] at hs
    have b3 : (8900 : ℝ) ≤ N := by
      by_contra hc
      push Not at hc
      have : 1 / 8900 ≤ 1 / (N : ℝ) := one_div_le_one_div_of_le (by linarith) hc.le
      norm_num at hs this
      linarith
    obtain ⟨x, y, e, fx, fy, hx, hy⟩ := (second_two_variant va) f g a b c d hf hg N hN (by exact_mod_cast b3) b2
    rw [h, Go.ok.injEq] at e
    rw [e] at hr
    have h3 := (accept_second _ _ _ bound_ieee.1 fx fy hr).trans bound_ieee.2
    by_contra hc
    have hc2 : (N : ℝ) ≤ 8977 := by exact_mod_cast (by omega : N ≤ 8977)
    have h4 : 151019521 / 8977 ≤ 151019521 / (N : ℝ) := div_le_div_of_nonneg_left (by norm_num) (by linarith) hc2
    rw [abs_le] at hy
    norm_num at *
    linarith [hy.1]
  · rintro ⟨b1, b2⟩
    rw [← hN] at b1 b2
    obtain ⟨x, y, e, fx, fy, hx, hy⟩ := (second_two_variant va) f g a b c d hf hg N hN (by omega) b2
    rw [h, Go.ok.injEq] at e
    rw [e]
    have b2r : (N : ℝ) ≤ 16822 := by exact_mod_cast b2
    have b1r : (8978 : ℝ) ≤ N := by exact_mod_cast b1
    have h4 : 151019521 / (N : ℝ) ≤ 151019521 / 8978 := div_le_div_of_nonneg_left (by norm_num) (by norm_num) b1r
    have hb := bound_ieee_ge
    rw [abs_le] at hx hy
    exact accept_both _ _ _ bound_ieee.1 fx fy (le_trans (by norm_num at *; linarith [hx.2]) hb) (le_trans (by norm_num at *; linarith [hy.2]) hb)

/-- C95, the quality check of degree 2 in IEEE arithmetic: accepted are exactly the pairs of squared norm between 8978 and 16822. -/
theorem C95_check_ieee (f g : List Int16) (a b c d : Int) (hf : int16ToBigInt f = [a, b]) (hg : int16ToBigInt g = [c, d]) (h0 : a ≠ 0 ∨ b ≠ 0) (norm : F64)
    (h : GsNorm ieeeOps (Int16ToFloat64 ieeeOps f) (Int16ToFloat64 ieeeOps g) (ieeeOps.ofInt Q) = .ok norm) :
    rejects ieeeOps norm = false ↔ 8978 ≤ a * a + b * b + c * c + d * d ∧ a * a + b * b + c * c + d * d ≤ 16822 :=
  variant_C95_check_ieee amd64V f g a b c d hf hg h0 norm h

/-- C95, the quality check of degree 2 in exact arithmetic: the same pairs are accepted. -/
theorem C95_check_exact (f g : List Int16) (a b c d : Int) (hf : int16ToBigInt f = [a, b]) (hg : int16ToBigInt g = [c, d]) (h0 : a ≠ 0 ∨ b ≠ 0) (norm : ℝ)
    (h : GsNorm exactOps (Int16ToFloat64 exactOps f) (Int16ToFloat64 exactOps g) (exactOps.ofInt Q) = .ok norm) :
    rejects exactOps norm = false ↔ 8978 ≤ a * a + b * b + c * c + d * d ∧ a * a + b * b + c * c + d * d ≤ 16822 := by
  obtain ⟨N, hN⟩ : ∃ N, N = a * a + b * b + c * c + d * d := ⟨_, rfl⟩
  have hp : 0 < N := by
    have := sq_ne a b h0
    have n1 : 0 ≤ a * a + b * b := add_nonneg (mul_self_nonneg _) (mul_self_nonneg _)
    have n2 : 0 ≤ c * c := mul_self_nonneg _
    have n3 : 0 ≤ d * d := mul_self_nonneg _
    omega
  have hpr : (0 : ℝ) < N := by exact_mod_cast hp
  have ef : realOf f = realI [a, b] := by rw [← hf, realI_int16]
  have eg : realOf g = realI [c, d] := by rw [← hg, realI_int16]
  obtain ⟨Ft, Gt, l1, l2, d1, d2, e⟩ := C56_gsnorm 1 le_rfl (by decide) (realOf f) (realOf g) (by rw [ef]; rfl) (by rw [eg]; rfl) 12289 (by
    intro w hw
    left
    have := int_eval_ne_zero 1 [a, b] rfl (by
      rcases h0 with h | h
      · exact ⟨a, by simp, h⟩
      · exact ⟨b, by simp, h⟩) w hw
    rw [ef, realI, List.map_map]
    convert this using 4
    funext x
    simp)
  have en' : GsNorm exactOps (realOf f) (realOf g) 12289 = .ok norm := by
    have hq0 : ((Q : Int) : ℝ) = 12289 := by
      unfold Q
      norm_num
    have en2 : GsNorm exactOps (realOf f) (realOf g) ((Q : Int) : ℝ) = .ok norm := h
    rw [hq0] at en2
    exact en2
  rw [e, Go.ok.injEq] at en'
  have hq2 : (((1.17 : ℚ) : ℝ)) ^ 2 * ((Q : Int) : ℝ) = 168224121 / 10000 := by
    unfold Q
    norm_num
  have key : rejects exactOps norm = false ↔ norm ≤ 168224121 / 10000 := by
    rw [← hq2]
    have : rejects exactOps norm = decide ((((1.17 : ℚ) : ℝ)) ^ 2 * ((Q : Int) : ℝ) < norm) := rfl
    rw [this, decide_eq_false_iff_not, not_lt]
  rw [ef, eg] at d1 d2 en'
  rw [second_norm a b c d N hN h0 Ft Gt l1 l2 d1 d2] at en'
  have sn : sqNorm (realI [a, b]) + sqNorm (realI [c, d]) = N := by
    rw [hN]
    simp only [sqNorm, realI, List.map_cons, List.map_nil, List.sum_cons, List.sum_nil]
    push_cast
    ring
  rw [sn] at en'
  rw [key, ← en', max_le_iff, ← hN]
  have e3 : (12289 : ℝ) ^ 2 * (1 / N) = 151019521 / N := by ring
  rw [e3, div_le_iff₀ hpr]
  constructor
  · rintro ⟨u1, u2⟩
    constructor
    · by_contra hc
      have : (N : ℝ) ≤ 8977 := by exact_mod_cast (by omega : N ≤ 8977)
      linarith
    · by_contra hc
      have : (16823 : ℝ) ≤ N := by exact_mod_cast (by omega : 16823 ≤ N)
      linarith
  · rintro ⟨u1, u2⟩
    have v1 : (8978 : ℝ) ≤ N := by exact_mod_cast u1
    have v2 : (N : ℝ) ≤ 16822 := by exact_mod_cast u2
    constructor <;> linarith

/-- `C95_solve2` for every variant of the arithmetic. -/
theorem variant_C95_solve2 (va : Variant) (a b c d : Int) (h0 : a ≠ 0 ∨ b ≠ 0) (hge : 8 ≤ a * a + b * b + c * c + d * d) (hle : a * a + b * b + c * c + d * d ≤ 16822) :
    ∃ r fuel0, ∀ fuel, fuel0 ≤ fuel → NtruSolve va.ops fuel [a, b] [c, d] = .ok r ∧ NtruSolve exactOps fuel [a, b] [c, d] = .ok r := by
  obtain ⟨N, hN⟩ : ∃ N, N = a * a + b * b + c * c + d * d := ⟨_, rfl⟩
  have hpos := sq_ne a b h0
  have n1 : 0 ≤ a * a + b * b := add_nonneg (mul_self_nonneg _) (mul_self_nonneg _)
  have n2 : 0 ≤ c * c + d * d := add_nonneg (mul_self_nonneg _) (mul_self_nonneg _)
  obtain ⟨f1, r1, h1⟩ := (variant_C70_degree2_ieee va) a b c d h0 hge hle
  obtain ⟨f2, r2, h2⟩ := (C70_degree2_exact a b c d h0 hle).2 (by omega)
  have m1 : ∀ m, f1 ≤ m → NtruSolve va.ops m [a, b] [c, d] = .ok r1 := fun m hm => by
    rw [← h1]
    exact (C72_outcome va.ops f1 m hm).2.2.2.2.1 _ _ (by rw [h1]; simp)
  have m2 : ∀ m, f2 ≤ m → NtruSolve exactOps m [a, b] [c, d] = .ok r2 := fun m hm => by
    rw [← h2]
    exact (C72_outcome exactOps f2 m hm).2.2.2.2.1 _ _ (by rw [h2]; simp)
  have hr : r2 = r1 := by
    rcases solve_two a b c d (by omega) hpos with ⟨-, h⟩ | ⟨u, v, hb, h⟩
    · have e1 := (h va.ops (f1 + f2)).symm.trans (m1 _ (by omega))
      have e2 := (h exactOps (f1 + f2)).symm.trans (m2 _ (by omega))
      rw [Go.ok.injEq] at e1 e2
      rw [← e1, ← e2]
    · obtain ⟨hd, t1, t2⟩ := two_facts a b c d u v _ rfl (by omega) hle (by omega) hb
      have e1 := (h va.ops (f1 + f2)).symm.trans (m1 _ (by omega))
      have e2 := (h exactOps (f1 + f2)).symm.trans (m2 _ (by omega))
      obtain ⟨s1, g1, e1⟩ := Go.bind_eq_ok.1 e1
      obtain ⟨s2, g2, e2⟩ := Go.bind_eq_ok.1 e2
      have hq := quot2 a b c d ((-12289 * v * c : Int) : ℝ) ((-(-12289 * v * d) : Int) : ℝ) ((12289 * u * a : Int) : ℝ) ((-(12289 * u * b) : Int) : ℝ) N hN (by omega)
      have := (variant_C95_ieee va) 1 le_rfl (by decide) [a, b] [c, d] _ _ _ _ (short2 a b c d h0 hle) (by
          intro w hw
          rw [gramAt_two a b c d w (by simpa using rootsC_root 1 w hw), show a ^ 2 + b ^ 2 + c ^ 2 + d ^ 2 = a * a + b * b + c * c + d * d by ring]
          have : (8 : ℝ) ≤ ((a * a + b * b + c * c + d * d : Int) : ℝ) := by exact_mod_cast hge
          linarith) rfl rfl rfl rfl hd hd ⟨0, ⟨0, by ring⟩, ⟨0, by ring⟩⟩ _ hq (by
          intro x hx
          simp only [List.mem_cons, List.not_mem_nil, or_false] at hx
          rcases hx with rfl | rfl
          · have := far_div _ N (by omega) (by omega) (by rw [hN]; exact t1)
            push_cast at this ⊢
            exact this
          · have := far_div _ N (by omega) (by omega) (by rw [hN]; exact t2)
            push_cast at this ⊢
            exact this) _ _ s2 s1 g2 g1
      rw [Go.pure_eq, Go.ok.injEq] at e1 e2
      rw [← e1, ← e2, this]
  subst hr
  exact ⟨r2, f1 + f2, fun fuel hf => ⟨m1 _ (by omega), m2 _ (by omega)⟩⟩

/-- C95, `NtruSolve` at degree 2: for all `f, g` of squared norm between 8 and 16822 with `f` not zero, the outcome is the same in the two arithmetics, and is never a
divergence. -/
theorem C95_solve2 (a b c d : Int) (h0 : a ≠ 0 ∨ b ≠ 0) (hge : 8 ≤ a * a + b * b + c * c + d * d) (hle : a * a + b * b + c * c + d * d ≤ 16822) :
    ∃ r fuel0, ∀ fuel, fuel0 ≤ fuel → NtruSolve ieeeOps fuel [a, b] [c, d] = .ok r ∧ NtruSolve exactOps fuel [a, b] [c, d] = .ok r :=
  variant_C95_solve2 amd64V a b c d h0 hge hle

theorem zero_poly (x y : Int16) (t : List Int16) (ht : NTT wrap64 [x, y] = .ok t) (hz : anyZeroes t = false) : x.toInt ≠ 0 ∨ y.toInt ≠ 0 := by
  by_contra hc
  push Not at hc
  have hx : x = 0 := Int16.toInt_inj.1 (by rw [hc.1]; rfl)
  have hy : y = 0 := Int16.toInt_inj.1 (by rw [hc.2]; rfl)
  rw [hx, hy] at ht
  have : (do
    let t ← NTT wrap64 [0, 0]
    pure (anyZeroes t)) = .ok true := by decide +kernel
  rw [ht] at this
  have h2 : anyZeroes t = true := Go.ok.inj this
  rw [hz] at h2
  cases h2

/-- `C95_degree2` for every variant of the arithmetic. -/
theorem variant_C95_degree2 (va : Variant) (rand : Rand) (pos : Nat) (v : Go (Except KeyErr (PrivateKey × Nat))) (hv : v ≠ .diverge) :
    (∃ fuel, GeneratePrivateKey va.ops rand fuel 2 pos = v) ↔ ∃ fuel, GeneratePrivateKey exactOps rand fuel 2 pos = v := by
  have split2 : ∀ f : List Int16, f.length = 2 ^ 1 → ∃ x y, f = [x, y] := by
    intro f lf
    match f, lf with
    | [x, y], _ => exact ⟨x, y, rfl⟩
  have gen : ∀ O fuel, GeneratePrivateKey O rand fuel 2 pos = (do
      let r ← NtruGen O rand fuel 2 pos
      pure (.ok (⟨2, r.1.f, r.1.g, r.1.F, r.1.G⟩, r.2))) := by
    intro O fuel
    unfold GeneratePrivateKey
    rw [if_neg (by decide)]
  have main : ∀ O P : FloatOps, (∀ fuel, NtruGen O rand fuel 2 pos ≠ .diverge → ∃ fuel', NtruGen P rand fuel' 2 pos = NtruGen O rand fuel 2 pos) →
      (∃ fuel, GeneratePrivateKey O rand fuel 2 pos = v) → ∃ fuel, GeneratePrivateKey P rand fuel 2 pos = v := by
    rintro O P ht ⟨fuel, h⟩
    rw [gen] at h
    obtain ⟨fuel', h'⟩ := ht fuel (by
      intro hc
      rw [hc] at h
      exact hv h.symm)
    exact ⟨fuel', by rw [gen, h', h]⟩
  constructor
  · refine main va.ops exactOps fun fuel h => NtruGen_transfer (key_variant va) key_exact 1 le_rfl (by decide) 2 rfl ?_ rand fuel pos h
    intro f g lf lg no np t hno hnp ht hz
    obtain ⟨x, y, rfl⟩ := split2 f lf
    obtain ⟨z, w, rfl⟩ := split2 g lg
    have h0 := zero_poly x y t ht hz
    have c1 := (variant_C95_check_ieee va) [x, y] [z, w] _ _ _ _ rfl rfl h0 no hno
    have c2 := C95_check_exact [x, y] [z, w] _ _ _ _ rfl rfl h0 np hnp
    refine ⟨?_, fun hr fuel hs => ?_⟩
    · rw [Bool.eq_iff_iff, ← not_iff_not, Bool.not_eq_true, Bool.not_eq_true, c1, c2]
    · obtain ⟨b1, b2⟩ := c1.1 hr
      obtain ⟨r, fuel0, hb⟩ := (variant_C95_solve2 va) _ _ _ _ h0 (by omega) b2
      refine ⟨fuel + fuel0, ?_⟩
      have e1 := (C72_outcome va.ops fuel (fuel + fuel0) (by omega)).2.2.2.2.1 _ _ hs
      rw [← e1]
      exact (hb _ (by omega)).2.trans (hb _ (by omega)).1.symm
  · refine main exactOps va.ops fun fuel h => NtruGen_transfer key_exact (key_variant va) 1 le_rfl (by decide) 2 rfl ?_ rand fuel pos h
    intro f g lf lg np no t hnp hno ht hz
    obtain ⟨x, y, rfl⟩ := split2 f lf
    obtain ⟨z, w, rfl⟩ := split2 g lg
    have h0 := zero_poly x y t ht hz
    have c1 := (variant_C95_check_ieee va) [x, y] [z, w] _ _ _ _ rfl rfl h0 no hno
    have c2 := C95_check_exact [x, y] [z, w] _ _ _ _ rfl rfl h0 np hnp
    refine ⟨?_, fun hr fuel hs => ?_⟩
    · rw [Bool.eq_iff_iff, ← not_iff_not, Bool.not_eq_true, Bool.not_eq_true, c1, c2]
    · obtain ⟨b1, b2⟩ := c2.1 hr
      obtain ⟨r, fuel0, hb⟩ := (variant_C95_solve2 va) _ _ _ _ h0 (by omega) b2
      refine ⟨fuel + fuel0, ?_⟩
      have e1 := (C72_outcome exactOps fuel (fuel + fuel0) (by omega)).2.2.2.2.1 _ _ hs
      rw [← e1]
      exact (hb _ (by omega)).1.trans (hb _ (by omega)).2.symm

/-- C95: at degree 2 key generation in IEEE arithmetic and in exact arithmetic have the same outcomes on every random source: the same keys, with the same
number of draws, and the same panics. -/
theorem C95_degree2 (rand : Rand) (pos : Nat) (v : Go (Except KeyErr (PrivateKey × Nat))) (hv : v ≠ .diverge) :
    (∃ fuel, GeneratePrivateKey ieeeOps rand fuel 2 pos = v) ↔ ∃ fuel, GeneratePrivateKey exactOps rand fuel 2 pos = v :=
  variant_C95_degree2 amd64V rand pos v hv

/-- The run of key generation of `ieee_run_key` gives the same key in exact arithmetic. -/
example : ∃ fuel, GeneratePrivateKey exactOps runRand fuel 2 0 = .ok (.ok (⟨2, [72, 5], [60, 31], [-40, 31], [124, 0]⟩, 8192)) :=
  (C95_degree2 runRand 0 _ (by simp)).1 ⟨20, ieee_run_key⟩

/-- A panic of key generation when the source is empty, in both arithmetics. -/
example : ∃ fuel, GeneratePrivateKey exactOps (fun _ => none) fuel 2 0 = .panic :=
  (C95_degree2 (fun _ => none) 0 _ (by simp)).1 ⟨1, by rw [GeneratePrivateKey, if_neg (by decide), NtruGen, GenPoly]; rfl⟩

/-- The hypotheses of `C95_key` hold for the run at degree 2. -/
example (rand : Rand) (fuel pos p : Nat) (n : UInt16) (key : PrivateKey) (h : GeneratePrivateKey exactOps rand fuel n pos = .ok (.ok (key, p)))
    (hf : key.f = [72, 5]) (hg : key.g = [60, 31]) : key = ⟨2, [72, 5], [60, 31], [-40, 31], [124, 0]⟩ := by
  have hq := quot2 72 5 60 31 ((-40 : Int) : ℝ) ((31 : Int) : ℝ) ((124 : Int) : ℝ) ((0 : Int) : ℝ) 9770 (by decide) (by decide)
  refine C95_key runRand rand 20 fuel 2 n 0 pos _ key 8192 p 1 rfl ieee_run_key h hf hg ieee_run_gram ?_ _ hq ?_
  · intro Nf Ng hf hg
    obtain ⟨N, t, hN⟩ := towerNorm_ok 1 [72, 5] rfl
    obtain ⟨M, t', hM⟩ := towerNorm_ok 1 [60, 31] rfl
    have e1 : N = 5209 := (Go.ok.inj (t.symm.trans (by decide +kernel : towerNorm 1 [72, 5] = .ok 5209)))
    have e2 : M = 4561 := (Go.ok.inj (t'.symm.trans (by decide +kernel : towerNorm 1 [60, 31] = .ok 4561)))
    have u1 : Nf = N := by exact_mod_cast hf.trans hN.symm
    have u2 : Ng = M := by exact_mod_cast hg.trans hM.symm
    rw [u1, u2, e1, e2]
    decide +kernel
  · intro x hx
    simp only [List.mem_cons, List.not_mem_nil, or_false] at hx
    rcases hx with rfl | rfl
    · have := far_div (-40 * 72 + 31 * 5 + (124 * 60 + 0 * 31)) 9770 (by decide) (by decide) (by decide)
      norm_num at this ⊢
      exact this
    · have := far_div (31 * 72 - -40 * 5 + (0 * 60 - 124 * 31)) 9770 (by decide) (by decide) (by decide)
      norm_num at this ⊢
      exact this

/-- `(F, G)` and `(F, G) + (3 - 2x)(f, g)` are reduced to the same pair in exact arithmetic. -/
example : ∃ fuel fuel' r, reduce exactOps fuel [72, 5] [60, 31] [-40, 31] [124, 0] = .ok r ∧
    reduce exactOps fuel' [72, 5] [60, 31] [186, -98] [366, -27] = .ok r := by
  have d1 : CongrZ (2 ^ 1) (ntruDet [72, 5] [60, 31] [-40, 31] [124, 0]) (C 12289) := ⟨C (-961), by
    simp only [ntruDet, polyZ, poly_cons, poly_nil, map_ofNat, map_neg, map_zero]
    ring⟩
  have d2 : CongrZ (2 ^ 1) (ntruDet [72, 5] [60, 31] [186, -98] [366, -27]) (C 12289) := ⟨C 2903, by
    simp only [ntruDet, polyZ, poly_cons, poly_nil, map_ofNat, map_neg, map_zero]
    ring⟩
  obtain ⟨fuel, F, G, h⟩ := (C70_degree2 72 5 60 31 (-40) 31 124 0 (by decide) 9770 (by decide) (by decide) d1).2 (by decide)
  obtain ⟨fuel', F', G', h'⟩ := (C70_degree2 72 5 60 31 186 (-98) 366 (-27) (by decide) 9770 (by decide) (by decide) d2).2 (by decide)
  refine ⟨fuel, fuel', _, h, ?_⟩
  rw [h', ← C95_exact 1 le_rfl (by decide) [72, 5] [60, 31] [-40, 31] [124, 0] [186, -98] [366, -27] (short2 72 5 60 31 (by decide) (by decide)) rfl rfl rfl rfl
    d1 d2 ⟨C 3 - C 2 * X, ⟨C 10, ?_⟩, ⟨C 62, ?_⟩⟩ fuel fuel' _ _ h h']
  · simp only [polyZ, poly_cons, poly_nil, map_ofNat, map_neg, map_zero]
    ring
  · simp only [polyZ, poly_cons, poly_nil, map_ofNat, map_neg, map_zero]
    ring

end Falcon
