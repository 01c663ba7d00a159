import Verif.Model.Keygen
import Verif.Spec.RatOps
import Verif.Spec.Exact
import Verif.Lemmas.Ntrugen2
/-!
# Homomorphisms of floating-point structures

Key generation at degree 2 uses no table of roots, so it commutes with every map of `FloatOps` that preserves the other operations. Rational
arithmetic embeds in this way in exact real arithmetic: a run computed with rationals is a run of the exact instance.
-/

namespace Falcon

/-- A map between two structures that preserves all the operations except the square root and the table of roots. -/
structure FHom (O P : FloatOps) where
  f : O.F → P.F
  c : O.C → P.C
  lit : ∀ q, P.lit q = f (O.lit q)
  ofInt : ∀ k, P.ofInt k = f (O.ofInt k)
  add : ∀ x y, P.add (f x) (f y) = f (O.add x y)
  sub : ∀ x y, P.sub (f x) (f y) = f (O.sub x y)
  mul : ∀ x y, P.mul (f x) (f y) = f (O.mul x y)
  div : ∀ x y, P.div (f x) (f y) = f (O.div x y)
  neg : ∀ x, P.neg (f x) = f (O.neg x)
  pow2 : ∀ x, P.pow2 (f x) = f (O.pow2 x)
  floor : ∀ x, P.floor (f x) = f (O.floor x)
  round : ∀ x, P.round (f x) = f (O.round x)
  lt : ∀ x y, P.lt (f x) (f y) = O.lt x y
  toInt : ∀ x, P.toInt (f x) = O.toInt x
  toUInt64 : ∀ x, P.toUInt64 (f x) = O.toUInt64 x
  cplx : ∀ x y, P.cplx (f x) (f y) = c (O.cplx x y)
  re : ∀ z, P.re (c z) = f (O.re z)
  im : ∀ z, P.im (c z) = f (O.im z)
  cadd : ∀ x y, P.cadd (c x) (c y) = c (O.cadd x y)
  csub : ∀ x y, P.csub (c x) (c y) = c (O.csub x y)
  cmul : ∀ x y, P.cmul (c x) (c y) = c (O.cmul x y)
  cdiv : ∀ x y, P.cdiv (c x) (c y) = c (O.cdiv x y)
  cneg : ∀ x, P.cneg (c x) = c (O.cneg x)
  conj : ∀ x, P.conj (c x) = c (O.conj x)

variable {O P : FloatOps} (h : FHom O P)
include h

theorem hom_goMin (x y : O.F) : goMin P (h.f x) (h.f y) = h.f (goMin O x y) := by
  unfold goMin
  rw [h.lt]
  split <;> rfl

theorem hom_berexp (x ccs : O.F) (rb : List UInt8) : berexp P (h.f x) (h.f ccs) rb = berexp O x ccs rb := by
  unfold berexp approxexp ILN2 LN2
  simp only [h.lit, h.mul, h.floor, h.sub, hom_goMin h, h.toInt, h.toUInt64]

theorem hom_Samplerz (rand : Rand) (mu sigma sigmin : O.F) (fuel pos : Nat) :
    Samplerz P rand (h.f mu) (h.f sigma) (h.f sigmin) fuel pos = Samplerz O rand mu sigma sigmin fuel pos := by
  induction fuel generalizing pos with
  | zero => rfl
  | succ fuel ih =>
    rw [Samplerz, Samplerz]
    unfold inv2sigma2
    simp only [h.floor, h.toInt, h.ofInt, h.sub, h.lit, h.mul, h.div, h.pow2, hom_berexp h, ih]

theorem hom_genSamples (rand : Rand) (fuel m pos : Nat) : genSamples P rand fuel m pos = genSamples O rand fuel m pos := by
  induction m generalizing pos with
  | zero => rfl
  | succ m ih =>
    rw [genSamples, genSamples]
    simp only [h.ofInt, h.lit, h.sub, hom_Samplerz h, ih]

theorem hom_GenPoly (rand : Rand) (fuel : Nat) (n : UInt16) (pos : Nat) : GenPoly P rand fuel n pos = GenPoly O rand fuel n pos := by
  unfold GenPoly
  simp only [hom_genSamples h]

omit h in
theorem FFT_two (O : FloatOps) (x y : O.F) : FFT O [x, y] = .ok [O.cadd (O.cplx x (O.lit 0)) (O.cmul O.I (O.cplx y (O.lit 0))),
    O.csub (O.cplx x (O.lit 0)) (O.cmul O.I (O.cplx y (O.lit 0)))] := by
  rw [FFT]; simp

omit h in
theorem IFFT_two (O : FloatOps) (x y : O.C) : IFFT O [x, y] = .ok [O.re x, O.im x] := by
  simp [IFFT, ifftAux]

theorem hom_I : P.I = h.c O.I := by
  unfold FloatOps.I
  rw [h.lit, h.lit, h.cplx]

theorem hom_FFT (l : List O.F) (hl : l.length = 2) : ∃ r, FFT O l = .ok r ∧ FFT P (l.map h.f) = .ok (r.map h.c) ∧ r.length = 2 := by
  match l, hl with
  | [x, y], _ =>
    refine ⟨_, FFT_two O x y, ?_, rfl⟩
    rw [List.map_cons, List.map_cons, List.map_nil, FFT_two, hom_I h]
    simp only [h.lit, h.cplx, h.cmul, h.cadd, h.csub, List.map_cons, List.map_nil]

theorem hom_IFFT (l : List O.C) (hl : l.length = 2) : ∃ r, IFFT O l = .ok r ∧ IFFT P (l.map h.c) = .ok (r.map h.f) ∧ r.length = 2 := by
  match l, hl with
  | [x, y], _ =>
    refine ⟨_, IFFT_two O x y, ?_, rfl⟩
    rw [List.map_cons, List.map_cons, List.map_nil, IFFT_two]
    simp only [h.re, h.im, List.map_cons, List.map_nil]

omit h in
theorem zipWith_map_hom {α β : Type} {φ : α → β} {op : α → α → α} {op' : β → β → β} (hop : ∀ x y, op' (φ x) (φ y) = φ (op x y))
    (a b : List α) : List.zipWith op' (a.map φ) (b.map φ) = (List.zipWith op a b).map φ := by
  rw [List.zipWith_map, List.map_zipWith]
  congr
  funext x y
  exact hop x y

theorem hom_MulFFT (a b : List O.C) (la : a.length = 2) (lb : b.length = 2) :
    ∃ r, MulFFT O a b = .ok r ∧ MulFFT P (a.map h.c) (b.map h.c) = .ok (r.map h.c) ∧ r.length = 2 := by
  refine ⟨List.zipWith O.cmul a b, ?_, ?_, by simp [la, lb]⟩
  · unfold MulFFT; rw [if_neg (by omega)]
  · unfold MulFFT; rw [if_neg (by simp [la, lb]), zipWith_map_hom h.cmul]

theorem hom_DivFFT (a b : List O.C) (la : a.length = 2) (lb : b.length = 2) :
    ∃ r, DivFFT O a b = .ok r ∧ DivFFT P (a.map h.c) (b.map h.c) = .ok (r.map h.c) ∧ r.length = 2 := by
  refine ⟨List.zipWith O.cdiv a b, ?_, ?_, by simp [la, lb]⟩
  · unfold DivFFT; rw [if_neg (by omega)]
  · unfold DivFFT; rw [if_neg (by simp [la, lb]), zipWith_map_hom h.cdiv]

theorem hom_AddFFT (a b : List O.C) (la : a.length = 2) (lb : b.length = 2) :
    ∃ r, AddFFT O a b = .ok r ∧ AddFFT P (a.map h.c) (b.map h.c) = .ok (r.map h.c) ∧ r.length = 2 := by
  refine ⟨List.zipWith O.cadd a b, ?_, ?_, by simp [la, lb]⟩
  · unfold AddFFT; rw [if_neg (by omega)]
  · unfold AddFFT; rw [if_neg (by simp [la, lb]), zipWith_map_hom h.cadd]

theorem hom_Add (a b : List O.F) (la : a.length = 2) (lb : b.length = 2) :
    ∃ r, Add O a b = .ok r ∧ Add P (a.map h.f) (b.map h.f) = .ok (r.map h.f) ∧ r.length = 2 := by
  refine ⟨List.zipWith O.add a b, ?_, ?_, by simp [la, lb]⟩
  · unfold Add; rw [if_neg (by omega)]
  · unfold Add; rw [if_neg (by simp [la, lb]), zipWith_map_hom h.add]

theorem hom_AdjFFT (a : List O.C) : AdjFFT P (a.map h.c) = (AdjFFT O a).map h.c := by
  unfold AdjFFT
  rw [List.map_map, List.map_map]
  apply List.map_congr_left
  intro x _
  exact h.conj x

omit h in
theorem AdjFFT_len (a : List O.C) : (AdjFFT O a).length = a.length := by simp [AdjFFT]

theorem hom_Adj (a : List O.F) (la : a.length = 2) :
    ∃ r, Adj O a = .ok r ∧ Adj P (a.map h.f) = .ok (r.map h.f) ∧ r.length = 2 := by
  obtain ⟨x, e1, e2, l⟩ := hom_FFT h a la
  obtain ⟨r, e3, e4, l'⟩ := hom_IFFT h (AdjFFT O x) (by rw [AdjFFT_len, l])
  refine ⟨r, ?_, ?_, l'⟩
  · unfold Adj; rw [e1, Go.ok_bind, e3]
  · unfold Adj; rw [e2, Go.ok_bind, hom_AdjFFT, e4]

theorem hom_Mul (a b : List O.F) (la : a.length = 2) (lb : b.length = 2) :
    ∃ r, Mul O a b = .ok r ∧ Mul P (a.map h.f) (b.map h.f) = .ok (r.map h.f) ∧ r.length = 2 := by
  obtain ⟨x, e1, e2, l⟩ := hom_FFT h a la
  obtain ⟨y, e3, e4, l'⟩ := hom_FFT h b lb
  obtain ⟨z, e5, e6, l''⟩ := hom_MulFFT h x y l l'
  obtain ⟨r, e7, e8, lr⟩ := hom_IFFT h z l''
  refine ⟨r, ?_, ?_, lr⟩
  · unfold Mul; rw [e1, Go.ok_bind, e3, Go.ok_bind, e5, Go.ok_bind, e7]
  · unfold Mul; rw [e2, Go.ok_bind, e4, Go.ok_bind, e6, Go.ok_bind, e8]

theorem hom_Div (a b : List O.F) (la : a.length = 2) (lb : b.length = 2) :
    ∃ r, Div O a b = .ok r ∧ Div P (a.map h.f) (b.map h.f) = .ok (r.map h.f) ∧ r.length = 2 := by
  obtain ⟨x, e1, e2, l⟩ := hom_FFT h a la
  obtain ⟨y, e3, e4, l'⟩ := hom_FFT h b lb
  obtain ⟨z, e5, e6, l''⟩ := hom_DivFFT h x y l l'
  obtain ⟨r, e7, e8, lr⟩ := hom_IFFT h z l''
  refine ⟨r, ?_, ?_, lr⟩
  · unfold Div; rw [e1, Go.ok_bind, e3, Go.ok_bind, e5, Go.ok_bind, e7]
  · unfold Div; rw [e2, Go.ok_bind, e4, Go.ok_bind, e6, Go.ok_bind, e8]

theorem hom_Sqnorm (v : List (List O.F)) : Sqnorm P (v.map fun l => l.map h.f) = h.f (Sqnorm O v) := by
  have h1 : ∀ (l : List O.F) (r : O.F), (l.map h.f).foldl (fun res coef => P.add res (P.pow2 coef)) (h.f r) =
      h.f (l.foldl (fun res coef => O.add res (O.pow2 coef)) r) := by
    intro l
    induction l with
    | nil => intro r; rfl
    | cons a l ih => intro r; rw [List.map_cons, List.foldl_cons, List.foldl_cons, h.pow2, h.add, ih]
  have h2 : ∀ (v : List (List O.F)) (r : O.F),
      (v.map fun l => l.map h.f).foldl (fun res elt => elt.foldl (fun res coef => P.add res (P.pow2 coef)) res) (h.f r) =
      h.f (v.foldl (fun res elt => elt.foldl (fun res coef => O.add res (O.pow2 coef)) res) r) := by
    intro v
    induction v with
    | nil => intro r; rfl
    | cons a v ih => intro r; rw [List.map_cons, List.foldl_cons, List.foldl_cons, h1, ih]
  unfold Sqnorm
  rw [h.ofInt, h2]

theorem hom_Biggest (x y : O.F) : ∃ r, BiggestFloat64 O [x, y] = .ok r ∧ BiggestFloat64 P [h.f x, h.f y] = .ok (h.f r) := by
  refine ⟨_, rfl, ?_⟩
  unfold BiggestFloat64
  simp only [idx, List.getElem?_cons_zero, Go.ok_bind, List.foldl_cons, List.foldl_nil, Go.pure_eq, h.lt]
  congr 1
  by_cases h1 : O.lt x x = true <;> by_cases h2 : O.lt x y = true <;> simp [h1, h2, h.lt]

theorem hom_GsNorm (f g : List O.F) (q : O.F) (lf : f.length = 2) (lg : g.length = 2) :
    ∃ r, GsNorm O f g q = .ok r ∧ GsNorm P (f.map h.f) (g.map h.f) (h.f q) = .ok (h.f r) := by
  obtain ⟨af, a1, a2, la⟩ := hom_Adj h f lf
  obtain ⟨ff, b1, b2, lb⟩ := hom_Mul h f af lf la
  obtain ⟨ag, c1, c2, lc⟩ := hom_Adj h g lg
  obtain ⟨gg, d1, d2, ld⟩ := hom_Mul h g ag lg lc
  obtain ⟨s, s1, s2, ls⟩ := hom_Add h ff gg lb ld
  obtain ⟨Ft, e1, e2, le⟩ := hom_Div h af s la ls
  obtain ⟨Gt, f1, f2, lf'⟩ := hom_Div h ag s lc ls
  obtain ⟨r, g1, g2⟩ := hom_Biggest h (Sqnorm O [f, g]) (O.mul (O.pow2 q) (Sqnorm O [Ft, Gt]))
  refine ⟨r, ?_, ?_⟩
  · unfold GsNorm
    rw [a1, Go.ok_bind, b1, Go.ok_bind, c1, Go.ok_bind, d1, Go.ok_bind, s1, Go.ok_bind, e1, Go.ok_bind, f1, Go.ok_bind]
    exact g1
  · unfold GsNorm
    rw [a2, Go.ok_bind, b2, Go.ok_bind, c2, Go.ok_bind, d2, Go.ok_bind, s2, Go.ok_bind, e2, Go.ok_bind, f2, Go.ok_bind]
    have n1 := hom_Sqnorm h [f, g]
    have n2 := hom_Sqnorm h [Ft, Gt]
    simp only [List.map_cons, List.map_nil] at n1 n2
    rw [n1, n2, h.pow2, h.mul]
    exact g2

theorem hom_adjust (size : Nat) (a : List Int) : adjust P size a = (adjust O size a).map h.f := by
  unfold adjust
  rw [List.map_map]
  apply List.map_congr_left
  intro x _
  exact h.ofInt _

theorem hom_RoundAll (l : List O.F) : RoundAll P (l.map h.f) = RoundAll O l := by
  unfold RoundAll
  rw [List.map_map]
  apply List.map_congr_left
  intro x _
  show P.toInt (P.round (h.f x)) = _
  rw [h.round, h.toInt]

theorem hom_babai (fa ga : List O.C) (F G : List O.F) (l1 : fa.length = 2) (l2 : ga.length = 2) (l3 : F.length = 2) (l4 : G.length = 2) :
    babai P (fa.map h.c) (ga.map h.c) (F.map h.f) (G.map h.f) = babai O fa ga F G := by
  obtain ⟨Fa, a1, a2, la⟩ := hom_FFT h F l3
  obtain ⟨Ga, b1, b2, lb⟩ := hom_FFT h G l4
  have lfa : (AdjFFT O fa).length = 2 := by rw [AdjFFT_len, l1]
  have lga : (AdjFFT O ga).length = 2 := by rw [AdjFFT_len, l2]
  obtain ⟨x1, c1, c2, lc⟩ := hom_MulFFT h fa (AdjFFT O fa) l1 lfa
  obtain ⟨x2, d1, d2, ld⟩ := hom_MulFFT h ga (AdjFFT O ga) l2 lga
  obtain ⟨x3, e1, e2, le⟩ := hom_AddFFT h x1 x2 lc ld
  obtain ⟨x4, f1, f2, lf⟩ := hom_MulFFT h Fa (AdjFFT O fa) la lfa
  obtain ⟨x5, g1, g2, lg⟩ := hom_MulFFT h Ga (AdjFFT O ga) lb lga
  obtain ⟨x6, i1, i2, li⟩ := hom_AddFFT h x4 x5 lf lg
  obtain ⟨x7, j1, j2, lj⟩ := hom_DivFFT h x6 x3 li le
  obtain ⟨x8, k1, k2, lk⟩ := hom_IFFT h x7 lj
  unfold babai
  rw [a1, a2, Go.ok_bind, Go.ok_bind, b1, b2, Go.ok_bind, Go.ok_bind, hom_AdjFFT, hom_AdjFFT, c1, c2, Go.ok_bind, Go.ok_bind, d1, d2,
    Go.ok_bind, Go.ok_bind, e1, e2, Go.ok_bind, Go.ok_bind, f1, f2, Go.ok_bind, Go.ok_bind, g1, g2, Go.ok_bind, Go.ok_bind, i1, i2,
    Go.ok_bind, Go.ok_bind, j1, j2, Go.ok_bind, Go.ok_bind, k1, k2, Go.ok_bind, Go.ok_bind, hom_RoundAll]

omit h in
theorem subShifted_length (x : List Int) (sh m i : Nat) (F r : List Int) (e : subShifted x sh m i F = .ok r) : r.length = F.length := by
  induction m generalizing i F with
  | zero => rw [subShifted, Go.ok.injEq] at e; rw [e]
  | succ m ih =>
    rw [subShifted] at e
    obtain ⟨y, _, e⟩ := Go.bind_eq_ok.1 e
    obtain ⟨F', h2, e⟩ := Go.bind_eq_ok.1 e
    rw [ih _ _ e]
    unfold addAt at h2
    split at h2
    · rw [Go.ok.injEq] at h2
      rw [← h2, List.length_modify]
    · simp at h2

theorem hom_reduceLoop (f g : List Int) (size : Nat) (fa ga : List O.C) (l1 : fa.length = 2)
    (l2 : ga.length = 2) (fuel : Nat) (F G : List Int) (hF : F.length = 2) (hG : G.length = 2) :
    reduceLoop P f g size (fa.map h.c) (ga.map h.c) fuel F G = reduceLoop O f g size fa ga fuel F G := by
  induction fuel generalizing F G with
  | zero => rfl
  | succ fuel ih =>
    rw [reduceLoop, reduceLoop]
    obtain ⟨s, hs⟩ := sizeOf2_ok F G (ne_nil_of_length (k := 1) hF) (ne_nil_of_length (k := 1) hG)
    rw [hs, Go.ok_bind, Go.ok_bind, hom_adjust h, hom_adjust h, hom_babai h _ _ _ _ l1 l2 (by simp [adjust, hF]) (by simp [adjust, hG])]
    split
    · rfl
    cases hb : babai O fa ga (adjust O s F) (adjust O s G) with
    | panic => rfl
    | diverge => rfl
    | ok q =>
      rw [Go.ok_bind, Go.ok_bind]
      by_cases hz : allZeroes q = true
      · rw [if_pos hz, if_pos hz]
      rw [if_neg hz, if_neg hz]
      cases hk1 : karamul f q with
      | panic => rfl
      | diverge => rfl
      | ok fk =>
        cases hk2 : karamul g q with
        | panic => rfl
        | diverge => rfl
        | ok gk =>
          rw [Go.ok_bind, Go.ok_bind, Go.ok_bind, Go.ok_bind]
          cases hs1 : subShifted fk (s - size) f.length 0 F with
          | panic => rfl
          | diverge => rfl
          | ok F1 =>
            rw [Go.ok_bind, Go.ok_bind]
            cases hs2 : subShifted gk (s - size) f.length 0 G with
            | panic => rfl
            | diverge => rfl
            | ok G1 =>
              rw [Go.ok_bind, Go.ok_bind]
              exact ih F1 G1 ((subShifted_length _ _ _ _ _ _ hs1).trans hF) ((subShifted_length _ _ _ _ _ _ hs2).trans hG)

theorem hom_reduce (f g F G : List Int) (hf : f.length = 2) (hg : g.length = 2) (fuel : Nat) (hF : F.length = 2) (hG : G.length = 2) :
    reduce P fuel f g F G = reduce O fuel f g F G := by
  unfold reduce
  obtain ⟨s, hs⟩ := sizeOf2_ok f g (ne_nil_of_length (k := 1) hf) (ne_nil_of_length (k := 1) hg)
  obtain ⟨fa, a1, a2, la⟩ := hom_FFT h (adjust O s f) (by simp [adjust, hf])
  obtain ⟨ga, b1, b2, lb⟩ := hom_FFT h (adjust O s g) (by simp [adjust, hg])
  rw [hs, Go.ok_bind, Go.ok_bind, hom_adjust h, hom_adjust h, a1, a2, Go.ok_bind, Go.ok_bind, b1, b2, Go.ok_bind, Go.ok_bind]
  exact hom_reduceLoop h f g s fa ga la lb fuel F G hF hG

theorem hom_NtruSolve (f g : List Int) (hf : f.length = 2) (hg : g.length = 2) (fuel : Nat) :
    NtruSolve P fuel f g = NtruSolve O fuel f g := by
  cases fuel with
  | zero => rfl
  | succ fuel =>
    rw [NtruSolve, NtruSolve, if_neg (by omega), if_neg (by omega)]
    obtain ⟨fp, e1, l1, _⟩ := fieldNorm_ok 0 f hf
    rw [pow_zero] at l1
    obtain ⟨gp, e2, l2, _⟩ := fieldNorm_ok 0 g hg
    rw [e1, Go.ok_bind, Go.ok_bind, e2, Go.ok_bind, Go.ok_bind]
    cases fuel with
    | zero => rfl
    | succ fuel =>
      rw [NtruSolve, NtruSolve, if_pos l1, if_pos l1]
      cases idx fp 0 with
      | panic => rfl
      | diverge => rfl
      | ok f0 =>
        cases idx gp 0 with
        | panic => rfl
        | diverge => rfl
        | ok g0 =>
          simp only [Go.ok_bind]
          by_cases hd : bigInt64 (xgcd f0 g0).1 ≠ 1
          · rw [if_pos hd]; rfl
          rw [if_neg hd]
          simp only [Go.pure_eq, Go.ok_bind]
          obtain ⟨F, e3, l3, _⟩ := karamul_ok 1 (lift [-Q * (xgcd f0 g0).2.2]) (galoisConjugate g) (by simp [lift]) (by simp [galoisConjugate, hg])
          obtain ⟨G, e4, l4, _⟩ := karamul_ok 1 (lift [Q * (xgcd f0 g0).2.1]) (galoisConjugate f) (by simp [lift]) (by simp [galoisConjugate, hf])
          rw [e3, Go.ok_bind, e4, Go.ok_bind, hom_reduce h f g F G hf hg _ l3 l4, Go.ok_bind, Go.ok_bind]

end Falcon
