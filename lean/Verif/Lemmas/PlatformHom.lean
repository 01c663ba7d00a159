import Verif.Lemmas.FusedDiv
import Verif.Lemmas.Slice
import Verif.Model.Keygen
/-!
# Arithmetic that differs only in unrounded products

The operations of a platform with fused multiply-add, applied to numbers in memory, give the numbers of a variant of IEEE arithmetic: in the
transforms, in `reduce` and in `NtruSolve` a product is used only inside a complex multiplication or division. `NumHom` states this for the
operations; the lemmas carry it to the functions, for inputs of all lengths.
-/

namespace Falcon
open F64

/-- The operations of `P` on the numbers `f x`, `c z` are those of `O`; `v` is the value of a register. -/
structure NumHom (O P : FloatOps) where
  f : O.F → P.F
  c : O.C → P.C
  v : P.F → O.F
  v_f : ∀ x, v (f x) = x
  lit : ∀ q, P.lit q = f (O.lit q)
  ofInt : ∀ k, P.ofInt k = f (O.ofInt k)
  add : ∀ x y, P.add (f x) (f y) = f (O.add x y)
  mul : ∀ x y, v (P.mul (f x) (f y)) = O.mul x y
  pow2 : ∀ x, P.pow2 (f x) = f (O.pow2 x)
  round : ∀ x, P.round (f x) = f (O.round x)
  lt : ∀ x y, P.lt x y = O.lt (v x) (v y)
  toInt : ∀ x, P.toInt (f x) = O.toInt x
  cplx : ∀ x y, P.cplx (f x) (f y) = c (O.cplx x y)
  re : ∀ x, P.re (c x) = f (O.re x)
  im : ∀ x, P.im (c x) = f (O.im x)
  cadd : ∀ x y, P.cadd (c x) (c y) = c (O.cadd x y)
  csub : ∀ x y, P.csub (c x) (c y) = c (O.csub x y)
  cmul : ∀ x y, P.cmul (c x) (c y) = c (O.cmul x y)
  cdiv : ∀ x y, P.cdiv (c x) (c y) = c (O.cdiv x y)
  conj : ∀ x, P.conj (c x) = c (O.conj x)
  root : ∀ n i, P.root n i = c (O.root n i)

/-- The result of a function with another representation. -/
def Go.map' {α β : Type} (φ : α → β) (x : Go α) : Go β := x >>= fun r => .ok (φ r)

theorem map'_bind {α β γ : Type} (φ : α → β) (x : Go α) (k : β → Go γ) : (Go.map' φ x) >>= k = x >>= fun r => k (φ r) := by
  cases x <;> rfl

theorem map'_of_bind {α β γ : Type} (φ : β → γ) (x : Go α) (k : α → Go β) : Go.map' φ (x >>= k) = x >>= fun r => Go.map' φ (k r) := by
  cases x <;> rfl

theorem map'_ok {α β : Type} (φ : α → β) (a : α) : Go.map' φ (.ok a) = .ok (φ a) := rfl

theorem splitPolys_hom {α β : Type} (φ : α → β) (l : List α) : splitPolys (l.map φ) = ((splitPolys l).1.map φ, (splitPolys l).2.map φ) := by
  induction l using List.twoStepInduction with
  | nil => rfl
  | singleton x => rfl
  | cons_cons x y l ih _ => simp only [List.map_cons, splitPolys, ih]

theorem mergePolys_hom {α β : Type} (φ : α → β) (l m : List α) : mergePolys (l.map φ) (m.map φ) = Go.map' (List.map φ) (mergePolys l m) := by
  induction l generalizing m with
  | nil => rfl
  | cons a l ih =>
    cases m with
    | nil => rfl
    | cons b m =>
      simp only [List.map_cons, mergePolys, ih, map'_bind, map'_of_bind, Go.pure_eq, map'_ok]

theorem zipWith_map' {α β γ δ : Type} (φ : α → β) (ψ : γ → δ) (op : α → α → γ) (op' : β → β → δ) (h : ∀ x y, op' (φ x) (φ y) = ψ (op x y))
    (l m : List α) : List.zipWith op' (l.map φ) (m.map φ) = (List.zipWith op l m).map ψ := by
  induction l generalizing m with
  | nil => rfl
  | cons a l ih => cases m with
    | nil => rfl
    | cons b m => simp only [List.map_cons, List.zipWith_cons_cons, h, ih]

namespace NumHom

variable {O P : FloatOps} (h : NumHom O P)
include h

theorem half_eq : P.half = h.c O.half := by
  unfold FloatOps.half
  rw [h.lit, h.lit, h.cplx]

theorem I_eq : P.I = h.c O.I := by
  unfold FloatOps.I
  rw [h.lit, h.lit, h.cplx]

theorem rootAt_eq (n i : Nat) : P.rootAt n i = Go.map' h.c (O.rootAt n i) := by
  unfold FloatOps.rootAt
  split
  · rw [h.root]; rfl
  · rfl

theorem splitFFTLoop_eq (n i : Nat) (l : List O.C) :
    splitFFTLoop P n i (l.map h.c) = Go.map' (fun r => (r.1.map h.c, r.2.map h.c)) (splitFFTLoop O n i l) := by
  induction l using List.twoStepInduction generalizing i with
  | nil => rfl
  | singleton x => rfl
  | cons_cons x y l ih _ =>
    simp only [List.map_cons, splitFFTLoop, ih, h.rootAt_eq, map'_bind, map'_of_bind, Go.pure_eq, map'_ok, h.half_eq, h.cadd, h.csub, h.cmul, h.conj]

theorem SplitFFT_eq (l : List O.C) : SplitFFT P (l.map h.c) = Go.map' (fun r => (r.1.map h.c, r.2.map h.c)) (SplitFFT O l) := by
  unfold SplitFFT
  rw [List.length_map, h.splitFFTLoop_eq]

theorem mergeFFTLoop_eq (n i : Nat) (l m : List O.C) : mergeFFTLoop P n i (l.map h.c) (m.map h.c) = Go.map' (List.map h.c) (mergeFFTLoop O n i l m) := by
  induction l generalizing i m with
  | nil => rfl
  | cons a l ih =>
    cases m with
    | nil => rfl
    | cons b m =>
      simp only [List.map_cons, mergeFFTLoop, ih, h.rootAt_eq, map'_bind, map'_of_bind, Go.pure_eq, map'_ok, h.cadd, h.csub, h.cmul]

theorem MergeFFT_eq (l m : List O.C) : MergeFFT P (l.map h.c, m.map h.c) = Go.map' (List.map h.c) (MergeFFT O (l, m)) := by
  unfold MergeFFT
  simp only [List.length_map]
  rw [h.mergeFFTLoop_eq]

theorem FFT_eq (l : List O.F) : FFT P (l.map h.f) = Go.map' (List.map h.c) (FFT O l) := by
  induction hn : l.length using Nat.strong_induction_on generalizing l with
  | _ n ih =>
    subst hn
    by_cases hl : l.length > 2
    · rw [FFT.eq_def P, FFT.eq_def O l, dif_pos (by rw [List.length_map]; exact hl), dif_pos hl, splitPolys_hom]
      rw [ih _ (by rw [splitPolys_length1]; omega) _ rfl, ih _ (by rw [splitPolys_length2]; omega) _ rfl]
      simp only [map'_bind, map'_of_bind, h.MergeFFT_eq]
    · rw [FFT.eq_def P, FFT.eq_def O l, dif_neg (by rw [List.length_map]; exact hl), dif_neg hl]
      match l, hl with
      | [], _ => rfl
      | [x], _ => rfl
      | [x, y], _ =>
        show Go.ok [P.cadd (P.cplx (h.f x) (P.lit 0)) (P.cmul P.I (P.cplx (h.f y) (P.lit 0))),
          P.csub (P.cplx (h.f x) (P.lit 0)) (P.cmul P.I (P.cplx (h.f y) (P.lit 0)))] = _
        simp only [h.lit, h.I_eq, h.cplx, h.cadd, h.csub, h.cmul]
        rfl
      | _ :: _ :: _ :: _, hl => simp at hl

theorem ifftAux_eq (fuel : Nat) (l : List O.C) : ifftAux P fuel (l.map h.c) = Go.map' (List.map h.f) (ifftAux O fuel l) := by
  induction fuel generalizing l with
  | zero => rfl
  | succ fuel ih =>
    unfold ifftAux
    rw [List.length_map]
    by_cases hl : l.length > 2
    · rw [if_pos hl, if_pos hl]
      simp only [h.SplitFFT_eq, map'_bind, map'_of_bind, ih, mergePolys_hom]
    · rw [if_neg hl, if_neg hl]
      match l, hl with
      | [], _ => rfl
      | [x], _ => rfl
      | [x, y], _ => simp only [List.map_cons, List.map_nil, map'_ok, h.re, h.im]
      | _ :: _ :: _ :: _, hl => simp at hl

theorem IFFT_eq (l : List O.C) : IFFT P (l.map h.c) = Go.map' (List.map h.f) (IFFT O l) := by
  unfold IFFT
  rw [List.length_map, h.ifftAux_eq]

theorem Add_eq (l m : List O.F) : Add P (l.map h.f) (m.map h.f) = Go.map' (List.map h.f) (Add O l m) := by
  unfold Add
  rw [List.length_map, List.length_map, zipWith_map' h.f h.f O.add P.add h.add]
  split <;> rfl

theorem AddFFT_eq (l m : List O.C) : AddFFT P (l.map h.c) (m.map h.c) = Go.map' (List.map h.c) (AddFFT O l m) := by
  unfold AddFFT
  rw [List.length_map, List.length_map, zipWith_map' h.c h.c O.cadd P.cadd h.cadd]
  split <;> rfl

theorem MulFFT_eq (l m : List O.C) : MulFFT P (l.map h.c) (m.map h.c) = Go.map' (List.map h.c) (MulFFT O l m) := by
  unfold MulFFT
  rw [List.length_map, List.length_map, zipWith_map' h.c h.c O.cmul P.cmul h.cmul]
  split <;> rfl

theorem DivFFT_eq (l m : List O.C) : DivFFT P (l.map h.c) (m.map h.c) = Go.map' (List.map h.c) (DivFFT O l m) := by
  unfold DivFFT
  rw [List.length_map, List.length_map, zipWith_map' h.c h.c O.cdiv P.cdiv h.cdiv]
  split <;> rfl

theorem AdjFFT_eq (l : List O.C) : AdjFFT P (l.map h.c) = (AdjFFT O l).map h.c := by
  unfold AdjFFT
  simp only [List.map_map]
  exact List.map_congr_left fun x _ => h.conj x

theorem Adj_eq (l : List O.F) : Adj P (l.map h.f) = Go.map' (List.map h.f) (Adj O l) := by
  unfold Adj
  simp only [h.FFT_eq, map'_bind, map'_of_bind, h.AdjFFT_eq, h.IFFT_eq]

theorem Mul_eq (l m : List O.F) : Mul P (l.map h.f) (m.map h.f) = Go.map' (List.map h.f) (Mul O l m) := by
  unfold Mul
  simp only [h.FFT_eq, map'_bind, map'_of_bind, h.MulFFT_eq, h.IFFT_eq]

theorem Div_eq (l m : List O.F) : Div P (l.map h.f) (m.map h.f) = Go.map' (List.map h.f) (Div O l m) := by
  unfold Div
  simp only [h.FFT_eq, map'_bind, map'_of_bind, h.DivFFT_eq, h.IFFT_eq]

theorem adjust_eq (size : Nat) (a : List Int) : adjust P size a = (adjust O size a).map h.f := by
  unfold adjust
  rw [List.map_map]
  exact List.map_congr_left fun x _ => h.ofInt _

theorem RoundAll_eq (l : List O.F) : RoundAll P (l.map h.f) = RoundAll O l := by
  unfold RoundAll
  rw [List.map_map]
  exact List.map_congr_left fun x _ => by simp only [Function.comp_apply, h.round, h.toInt]

theorem babai_eq (fa ga : List O.C) (F G : List O.F) : babai P (fa.map h.c) (ga.map h.c) (F.map h.f) (G.map h.f) = babai O fa ga F G := by
  unfold babai
  simp only [h.FFT_eq, map'_bind, map'_of_bind, h.MulFFT_eq, h.AddFFT_eq, h.DivFFT_eq, h.AdjFFT_eq, h.IFFT_eq, h.RoundAll_eq]

theorem reduceLoop_eq (f g : List Int) (size : Nat) (fa ga : List O.C) (fuel : Nat) (F G : List Int) :
    reduceLoop P f g size (fa.map h.c) (ga.map h.c) fuel F G = reduceLoop O f g size fa ga fuel F G := by
  induction fuel generalizing F G with
  | zero => rfl
  | succ fuel ih =>
    unfold reduceLoop
    simp only [h.adjust_eq, h.babai_eq, ih]

theorem reduce_eq (fuel : Nat) (f g F G : List Int) : reduce P fuel f g F G = reduce O fuel f g F G := by
  unfold reduce
  simp only [h.adjust_eq, h.FFT_eq, map'_bind, h.reduceLoop_eq]

theorem NtruSolve_eq (fuel : Nat) (f g : List Int) : NtruSolve P fuel f g = NtruSolve O fuel f g := by
  induction fuel generalizing f g with
  | zero => rfl
  | succ fuel ih =>
    rw [NtruSolve, NtruSolve]
    simp only [ih, h.reduce_eq]

theorem sqInner_eq (l : List O.F) (r : O.F) :
    (l.map h.f).foldl (fun res coef => P.add res (P.pow2 coef)) (h.f r) = h.f (l.foldl (fun res coef => O.add res (O.pow2 coef)) r) := by
  induction l generalizing r with
  | nil => rfl
  | cons a l ih => simp only [List.map_cons, List.foldl_cons, h.pow2, h.add, ih]

theorem Sqnorm_eq (l : List (List O.F)) : Sqnorm P (l.map (List.map h.f)) = h.f (Sqnorm O l) := by
  unfold Sqnorm
  rw [h.ofInt]
  generalize O.ofInt 0 = r
  induction l generalizing r with
  | nil => rfl
  | cons a l ih => simp only [List.map_cons, List.foldl_cons, h.sqInner_eq, ih]

theorem Biggest_eq (l : List P.F) : Go.map' h.v (BiggestFloat64 P l) = BiggestFloat64 O (l.map h.v) := by
  unfold BiggestFloat64
  cases l with
  | nil => rfl
  | cons a l =>
    simp only [idx, List.map_cons, List.getElem?_cons_zero, Go.ok_bind, Go.pure_eq, map'_ok]
    congr 1
    show h.v ((a :: l).foldl _ a) = (h.v a :: l.map h.v).foldl _ (h.v a)
    have key : ∀ (m : List P.F) (b : P.F), h.v (m.foldl (fun biggest v => if P.lt biggest v then v else biggest) b) =
        (m.map h.v).foldl (fun biggest v => if O.lt biggest v then v else biggest) (h.v b) := by
      intro m
      induction m with
      | nil => intro b; rfl
      | cons x m ih =>
        intro b
        rw [List.foldl_cons, ih, List.map_cons, List.foldl_cons, h.lt]
        congr 1
        split <;> rfl
    exact key (a :: l) a

theorem GsNorm_eq (f g : List O.F) (q : O.F) : Go.map' h.v (GsNorm P (f.map h.f) (g.map h.f) (h.f q)) = GsNorm O f g q := by
  have s : ∀ a b : List O.F, Sqnorm P [a.map h.f, b.map h.f] = h.f (Sqnorm O [a, b]) := fun a b => h.Sqnorm_eq [a, b]
  unfold GsNorm
  simp only [h.Adj_eq, h.Mul_eq, h.Add_eq, h.Div_eq, map'_bind, map'_of_bind, h.Biggest_eq, s, h.pow2, h.mul, h.v_f, List.map_cons, List.map_nil]

theorem Int16_eq (f : List Int16) : Int16ToFloat64 P f = (Int16ToFloat64 O f).map h.f := by
  unfold Int16ToFloat64
  rw [List.map_map]
  exact List.map_congr_left fun x _ => h.ofInt _

end NumHom

/-- A platform whose division of complex numbers is as accurate as that of amd64 and whose conversion to `int` gives no zero for numbers out of
range. Nothing is assumed about fusing. -/
structure Platform.Accurate (P : Platform) : Prop where
  cdiv_near : ∀ x y, cfin x → cfin y → ‖cval x‖ ≤ 10 ^ 60 → 1 / 10 ^ 29 ≤ ‖cval y‖ → ‖cval y‖ ≤ 10 ^ 60 →
    cfin (P.cdiv x y) ∧ ‖cval (P.cdiv x y) - cval x / cval y‖ ≤ 40 * uu * (‖cval x‖ / ‖cval y‖) + 1 / 10 ^ 80
  toInt_out : ∀ a : F64, a.isFinite = true → (truncInt a.val < -(2 ^ 31) ∨ 2 ^ 31 ≤ truncInt a.val) → P.toInt a ≠ 0

/-- The arithmetic of the platform on numbers in memory. -/
def Platform.variant (P : Platform) (h : P.Accurate) : Variant where
  cmul := P.cmul
  cdiv := P.cdiv
  toInt := P.toInt
  cmul_near := P.cmul_near
  cdiv_near := h.cdiv_near
  toInt_in := P.toInt_in
  toInt_out := h.toInt_out

theorem Platform.add_num (P : Platform) (a b : Reg) : P.add a b = .num (P.add a b).v := by
  rcases P.add_cases a b with e | ⟨x, y, -, e⟩ | ⟨x, y, -, e⟩ <;> rw [e] <;> rfl

theorem Platform.sub_num (P : Platform) (a b : Reg) : P.sub a b = .num (P.sub a b).v := by
  rcases P.sub_cases a b with e | ⟨x, y, -, e⟩ | ⟨x, y, -, e⟩ <;> rw [e] <;> rfl

theorem Platform.add_mem (P : Platform) (a b : F64) : P.add (.num a) (.num b) = .num (F64.add a b) := by
  rcases P.add_cases (.num a) (.num b) with e | ⟨x, y, h, -⟩ | ⟨x, y, h, -⟩
  · exact e
  · cases h
  · cases h

theorem Platform.sub_mem (P : Platform) (a b : F64) : P.sub (.num a) (.num b) = .num (F64.sub a b) := by
  rcases P.sub_cases (.num a) (.num b) with e | ⟨x, y, h, -⟩ | ⟨x, y, h, -⟩
  · exact e
  · cases h
  · cases h

/-- The operations of a platform on numbers in memory. -/
def Platform.hom (P : Platform) (h : P.Accurate) : NumHom (P.variant h).ops P.ops where
  f := Reg.num
  c z := (.num z.1, .num z.2)
  v := Reg.v
  v_f _ := rfl
  lit _ := rfl
  ofInt _ := rfl
  add := P.add_mem
  mul _ _ := rfl
  pow2 _ := rfl
  round _ := rfl
  lt _ _ := rfl
  toInt _ := rfl
  cplx _ _ := rfl
  re _ := rfl
  im _ := rfl
  cadd x y := Prod.ext (P.add_mem _ _) (P.add_mem _ _)
  csub x y := Prod.ext (P.sub_mem _ _) (P.sub_mem _ _)
  cmul x y := Prod.ext (P.sub_num _ _) (P.add_num _ _)
  cdiv _ _ := rfl
  conj _ := rfl
  root _ _ := rfl

end Falcon
