import Verif.Props.Keygen
import Verif.Model.Verify
/-!
# Property C72: outcomes are well defined and randomness is read once

The model bounds the iterations of loops. The first part shows that the outcome, once there is one, does not depend on the bound. The
second part shows that key generation is a function of the random draws it consumes, in order.
-/

namespace Falcon

/-- `y` is the outcome of the same run with a larger bound: if `x` is an outcome, `y` is the same. -/
def Go.Le {α : Type} (x y : Go α) : Prop := x = .diverge ∨ x = y

theorem Go.Le.refl {α : Type} (x : Go α) : Go.Le x x := .inr rfl

theorem Go.Le.bot {α : Type} (y : Go α) : Go.Le .diverge y := .inl rfl

theorem Go.Le.trans {α : Type} {x y z : Go α} (h : Go.Le x y) (h' : Go.Le y z) : Go.Le x z := by
  rcases h with rfl | rfl
  · exact .inl rfl
  · exact h'

theorem Go.Le.bind {α β : Type} {x y : Go α} {f g : α → Go β} (h : Go.Le x y) (hf : ∀ a, Go.Le (f a) (g a)) :
    Go.Le (x >>= f) (y >>= g) := by
  rcases h with rfl | rfl
  · exact .inl rfl
  · cases x with
    | ok a => exact hf a
    | panic => exact .inr rfl
    | diverge => exact .inl rfl

theorem Go.Le.bind_right {α β : Type} (x : Go α) {f g : α → Go β} (hf : ∀ a, Go.Le (f a) (g a)) :
    Go.Le (x >>= f) (x >>= g) := Go.Le.bind (.refl x) hf

theorem Go.Le.ite {α : Type} {p : Prop} [Decidable p] {a b c d : Go α} (h1 : Go.Le a c) (h2 : Go.Le b d) :
    Go.Le (if p then a else b) (if p then c else d) := by
  split
  · exact h1
  · exact h2

/-- From one more iteration to any larger bound. -/
theorem mono_of_succ {α : Type} {F : Nat → Go α} (h : ∀ n, Go.Le (F n) (F (n + 1))) {a b : Nat} (hab : a ≤ b) :
    Go.Le (F a) (F b) := by
  obtain ⟨d, rfl⟩ := Nat.exists_eq_add_of_le hab
  clear hab
  induction d with
  | zero => exact .refl _
  | succ d ih => exact ih.trans (h (a + d))

theorem Go.Le.outcome {α : Type} {x y : Go α} (h : Go.Le x y) (hx : x ≠ .diverge) : y = x := (h.resolve_left hx).symm

section
variable (O : FloatOps)

theorem Samplerz_succ (rand : Rand) (mu sigma sigmin : O.F) (fuel pos : Nat) :
    Go.Le (Samplerz O rand mu sigma sigmin fuel pos) (Samplerz O rand mu sigma sigmin (fuel + 1) pos) := by
  induction fuel generalizing pos with
  | zero => exact .bot _
  | succ fuel ih =>
    rw [Samplerz, Samplerz]
    cases rand pos with
    | none => exact .refl _
    | some rb =>
      apply Go.Le.bind_right
      intro b
      exact Go.Le.ite (.refl _) (ih _)

theorem genSamples_succ (rand : Rand) (fuel m pos : Nat) :
    Go.Le (genSamples O rand fuel m pos) (genSamples O rand (fuel + 1) m pos) := by
  induction m generalizing pos with
  | zero => exact .refl _
  | succ m ih =>
    rw [genSamples, genSamples]
    exact Go.Le.bind (Samplerz_succ ..) fun _ => Go.Le.bind (ih _) fun _ => .refl _

theorem GenPoly_succ (rand : Rand) (fuel : Nat) (n : UInt16) (pos : Nat) :
    Go.Le (GenPoly O rand fuel n pos) (GenPoly O rand (fuel + 1) n pos) := by
  unfold GenPoly
  exact Go.Le.ite (.refl _) (Go.Le.bind (genSamples_succ ..) fun _ => .refl _)

theorem reduceLoop_succ (f g : List Int) (size : Nat) (fa ga : List O.C) (fuel : Nat) (F G : List Int) :
    Go.Le (reduceLoop O f g size fa ga fuel F G) (reduceLoop O f g size fa ga (fuel + 1) F G) := by
  induction fuel generalizing F G with
  | zero => exact .bot _
  | succ fuel ih =>
    rw [reduceLoop, reduceLoop]
    refine Go.Le.bind_right _ fun _ => Go.Le.ite (.refl _) ?_
    refine Go.Le.bind_right _ fun _ => Go.Le.ite (.refl _) ?_
    exact Go.Le.bind_right _ fun _ => Go.Le.bind_right _ fun _ => Go.Le.bind_right _ fun _ => Go.Le.bind_right _ fun _ => ih _ _

theorem reduce_succ (fuel : Nat) (f g F G : List Int) : Go.Le (reduce O fuel f g F G) (reduce O (fuel + 1) f g F G) := by
  unfold reduce
  exact Go.Le.bind_right _ fun _ => Go.Le.bind_right _ fun _ => Go.Le.bind_right _ fun _ => reduceLoop_succ ..

theorem NtruSolve_succ (fuel : Nat) (f g : List Int) : Go.Le (NtruSolve O fuel f g) (NtruSolve O (fuel + 1) f g) := by
  induction fuel generalizing f g with
  | zero => exact .bot _
  | succ fuel ih =>
    rw [NtruSolve, NtruSolve]
    refine Go.Le.ite (.refl _) ?_
    refine Go.Le.bind_right _ fun fp => Go.Le.bind_right _ fun gp => Go.Le.bind (ih fp gp) fun r => ?_
    cases r with
    | none => exact .refl _
    | some r => exact Go.Le.bind_right _ fun _ => Go.Le.bind_right _ fun _ => Go.Le.bind (reduce_succ ..) fun _ => .refl _

theorem NtruGen_succ (rand : Rand) (fuel : Nat) (n : UInt16) (pos : Nat) :
    Go.Le (NtruGen O rand fuel n pos) (NtruGen O rand (fuel + 1) n pos) := by
  induction fuel generalizing pos with
  | zero => exact .bot _
  | succ fuel ih =>
    rw [NtruGen, NtruGen]
    refine Go.Le.bind (GenPoly_succ ..) fun _ => Go.Le.bind (GenPoly_succ ..) fun _ => Go.Le.bind_right _ fun _ => ?_
    refine Go.Le.ite (ih _) (Go.Le.bind_right _ fun _ => Go.Le.ite (ih _) ?_)
    refine Go.Le.bind (NtruSolve_succ ..) fun r => ?_
    cases r with
    | none => exact ih _
    | some r => exact .refl _

theorem GeneratePrivateKey_succ (rand : Rand) (fuel : Nat) (n : UInt16) (pos : Nat) :
    Go.Le (GeneratePrivateKey O rand fuel n pos) (GeneratePrivateKey O rand (fuel + 1) n pos) := by
  unfold GeneratePrivateKey
  exact Go.Le.ite (.refl _) (Go.Le.bind (NtruGen_succ ..) fun _ => .refl _)

theorem FfldlFFT_succ (fuel : Nat) (T : FFTtree O) (G : List (List (List O.C))) :
    Go.Le (FfldlFFT O fuel T G) (FfldlFFT O (fuel + 1) T G) := by
  induction fuel generalizing T G with
  | zero => exact .bot _
  | succ fuel ih =>
    rw [FfldlFFT, FfldlFFT]
    refine Go.Le.bind_right _ fun _ => Go.Le.bind_right _ fun _ => Go.Le.bind_right _ fun _ => Go.Le.bind_right _ fun _ =>
      Go.Le.bind_right _ fun _ => Go.Le.ite (.refl _) ?_
    exact Go.Le.bind_right _ fun _ => Go.Le.bind_right _ fun _ => Go.Le.bind (ih _ _) fun _ => ih _ _

theorem basisAndMatrix_succ (fuel : Nat) (f g F G : List Int16) :
    Go.Le (basisAndMatrix O fuel f g F G) (basisAndMatrix O (fuel + 1) f g F G) := by
  unfold basisAndMatrix
  exact Go.Le.bind_right _ fun _ => Go.Le.bind_right _ fun _ => Go.Le.bind_right _ fun _ => Go.Le.bind (FfldlFFT_succ ..) fun _ => .refl _

theorem NewKeyPair_succ (rand : Rand) (fuel : Nat) (n : UInt16) (pos : Nat) :
    Go.Le (NewKeyPair O rand fuel n pos) (NewKeyPair O rand (fuel + 1) n pos) := by
  unfold NewKeyPair
  refine Go.Le.bind (GeneratePrivateKey_succ ..) fun r => ?_
  cases r with
  | error e => exact .refl _
  | ok k => exact Go.Le.bind (basisAndMatrix_succ ..) fun _ => .refl _

theorem NewKeyPairFromPrivateKey_succ (fuel : Nat) (n : UInt16) (f g F G : List Int16) :
    Go.Le (NewKeyPairFromPrivateKey O fuel n f g F G) (NewKeyPairFromPrivateKey O (fuel + 1) n f g F G) := by
  unfold NewKeyPairFromPrivateKey
  exact Go.Le.ite (.refl _) (Go.Le.bind_right _ fun _ => Go.Le.ite (.refl _) (Go.Le.bind (basisAndMatrix_succ ..) fun _ => .refl _))

theorem FfSamplingFFT_succ (rand : Rand) (T : FFTtree O) (sigmin : O.F) (fuel : Nat) (t : List O.C × List O.C) (pos : Nat) :
    Go.Le (FfSamplingFFT O rand T sigmin fuel t pos) (FfSamplingFFT O rand T sigmin (fuel + 1) t pos) := by
  induction fuel generalizing t pos with
  | zero => exact .bot _
  | succ fuel ih =>
    rw [FfSamplingFFT, FfSamplingFFT]
    refine Go.Le.ite ?_ (Go.Le.ite ?_ (.refl _))
    · refine Go.Le.bind_right _ fun _ => Go.Le.bind (ih _ _) fun _ => Go.Le.bind_right _ fun _ => Go.Le.bind_right _ fun _ =>
        Go.Le.bind_right _ fun _ => Go.Le.bind_right _ fun _ => Go.Le.bind_right _ fun _ => Go.Le.bind (ih _ _) fun _ => .refl _
    · exact Go.Le.bind_right _ fun _ => Go.Le.bind_right _ fun _ => Go.Le.bind (Samplerz_succ ..) fun _ =>
        Go.Le.bind_right _ fun _ => Go.Le.bind (Samplerz_succ ..) fun _ => .refl _

end

theorem hashLoop_succ (s : Nat → UInt8) (fuel pos need : Nat) : Go.Le (hashLoop s fuel pos need) (hashLoop s (fuel + 1) pos need) := by
  induction fuel generalizing pos need with
  | zero =>
    cases need with
    | zero => rw [hashLoop, hashLoop]; exact .refl _
    | succ need => rw [hashLoop]; exact .bot _
  | succ fuel ih =>
    cases need with
    | zero => rw [hashLoop, hashLoop]; exact .refl _
    | succ need =>
      rw [hashLoop, hashLoop]
      cases hashSample (s pos) (s (pos + 1)) with
      | some c => exact Go.Le.bind (ih _ _) fun _ => .refl _
      | none => exact ih _ _

theorem privHashLoop_succ (s : Nat → UInt8) (fuel pos need : Nat) :
    Go.Le (privHashLoop s fuel pos need) (privHashLoop s (fuel + 1) pos need) := by
  induction fuel generalizing pos need with
  | zero =>
    cases need with
    | zero => rw [privHashLoop, privHashLoop]; exact .refl _
    | succ need => rw [privHashLoop]; exact .bot _
  | succ fuel ih =>
    cases need with
    | zero => rw [privHashLoop, privHashLoop]; exact .refl _
    | succ need =>
      rw [privHashLoop, privHashLoop]
      cases privHashSample (s pos) (s (pos + 1)) with
      | some c => exact Go.Le.bind (ih _ _) fun _ => .refl _
      | none => exact ih _ _

theorem verifyBody_succ (xof : Xof) (fuel : Nat) (pk : List Int16) (m salt body : List UInt8) :
    Go.Le (verifyBody xof fuel pk m salt body) (verifyBody xof (fuel + 1) pk m salt body) := by
  unfold verifyBody
  refine Go.Le.bind_right _ fun r => ?_
  cases r with
  | error e => exact .refl _
  | ok s => exact Go.Le.bind (hashLoop_succ _ _ _ _) fun _ => .refl _

/-- C72. If a bounded run of a function has an outcome (a value, an error or a panic), every run with a larger bound has the same
outcome, whatever the floating-point arithmetic. So the outcome of the Go function is well defined. -/
theorem C72_outcome (O : FloatOps) (a b : Nat) (hab : a ≤ b) :
    (∀ rand n pos, GeneratePrivateKey O rand a n pos ≠ .diverge → GeneratePrivateKey O rand b n pos = GeneratePrivateKey O rand a n pos) ∧
    (∀ rand n pos, NewKeyPair O rand a n pos ≠ .diverge → NewKeyPair O rand b n pos = NewKeyPair O rand a n pos) ∧
    (∀ n f g F G, NewKeyPairFromPrivateKey O a n f g F G ≠ .diverge →
      NewKeyPairFromPrivateKey O b n f g F G = NewKeyPairFromPrivateKey O a n f g F G) ∧
    (∀ f g F G, reduce O a f g F G ≠ .diverge → reduce O b f g F G = reduce O a f g F G) ∧
    (∀ f g, NtruSolve O a f g ≠ .diverge → NtruSolve O b f g = NtruSolve O a f g) ∧
    (∀ rand mu sigma sigmin pos, Samplerz O rand mu sigma sigmin a pos ≠ .diverge →
      Samplerz O rand mu sigma sigmin b pos = Samplerz O rand mu sigma sigmin a pos) ∧
    (∀ rand T sigmin t pos, FfSamplingFFT O rand T sigmin a t pos ≠ .diverge →
      FfSamplingFFT O rand T sigmin b t pos = FfSamplingFFT O rand T sigmin a t pos) :=
  ⟨fun rand n pos => (mono_of_succ (fun k => GeneratePrivateKey_succ O rand k n pos) hab).outcome,
   fun rand n pos => (mono_of_succ (fun k => NewKeyPair_succ O rand k n pos) hab).outcome,
   fun n f g F G => (mono_of_succ (fun k => NewKeyPairFromPrivateKey_succ O k n f g F G) hab).outcome,
   fun f g F G => (mono_of_succ (fun k => reduce_succ O k f g F G) hab).outcome,
   fun f g => (mono_of_succ (fun k => NtruSolve_succ O k f g) hab).outcome,
   fun rand mu sigma sigmin pos => (mono_of_succ (fun k => Samplerz_succ O rand mu sigma sigmin k pos) hab).outcome,
   fun rand T sigmin t pos => (mono_of_succ (fun k => FfSamplingFFT_succ O rand T sigmin k t pos) hab).outcome⟩

/-- C72, verification. -/
theorem C72_outcome_verify (xof : Xof) (a b : Nat) (hab : a ≤ b) :
    (∀ pk m sig, Verify xof a pk m sig ≠ .diverge → Verify xof b pk m sig = Verify xof a pk m sig) ∧
    (∀ bytes, VerifyBytes xof a bytes ≠ .diverge → VerifyBytes xof b bytes = VerifyBytes xof a bytes) ∧
    (∀ n m salt, privHashToPoint xof a n m salt ≠ .diverge → privHashToPoint xof b n m salt = privHashToPoint xof a n m salt) := by
  refine ⟨fun pk m sig => (mono_of_succ (F := fun k => Verify xof k pk m sig) (fun k => ?_) hab).outcome,
    fun bytes => (mono_of_succ (F := fun k => VerifyBytes xof k bytes) (fun k => ?_) hab).outcome,
    fun n m salt => (mono_of_succ (F := fun k => privHashToPoint xof k n m salt) (fun k => privHashLoop_succ _ _ _ _) hab).outcome⟩
  · exact Go.Le.bind_right _ fun _ => Go.Le.bind_right _ fun _ => verifyBody_succ ..
  · exact Go.Le.bind_right _ fun _ => Go.Le.bind_right _ fun _ => Go.Le.bind_right _ fun _ => Go.Le.bind_right _ fun _ =>
      Go.Le.bind_right _ fun _ => verifyBody_succ ..

/-! ### random draws -/

/-- `rand'` agrees with `rand` on the draws `pos, ..., pos' - 1`. -/
def Agree (rand rand' : Rand) (pos pos' : Nat) : Prop := ∀ i, pos ≤ i → i < pos' → rand i = rand' i

theorem Agree.sub {rand rand' : Rand} {a b c d : Nat} (h : Agree rand rand' a d) (h1 : a ≤ b) (h2 : c ≤ d) : Agree rand rand' b c :=
  fun i hi hi' => h i (by omega) (by omega)

/-- A computation from a random position that moves forward and depends only on the draws it passes. -/
def Local {α : Type} (F : Rand → Nat → Go (α × Nat)) : Prop :=
  ∀ rand pos a pos', F rand pos = .ok (a, pos') → pos ≤ pos' ∧ ∀ rand', Agree rand rand' pos pos' → F rand' pos = .ok (a, pos')

theorem local_bind {α β : Type} {F : Rand → Nat → Go (α × Nat)} {H : α → Rand → Nat → Go (β × Nat)} (hF : Local F) (hH : ∀ a, Local (H a)) :
    Local (fun rand pos => (do let (a, pos) ← F rand pos; H a rand pos)) := by
  intro rand pos b pos' h
  simp only [Go.bind_eq_ok, Prod.exists] at h
  obtain ⟨a, p, h1, h2⟩ := h
  obtain ⟨l1, e1⟩ := hF _ _ _ _ h1
  obtain ⟨l2, e2⟩ := hH a _ _ _ _ h2
  refine ⟨l1.trans l2, fun rand' hr => ?_⟩
  simp only [e1 rand' (hr.sub le_rfl l2), Go.ok_bind]
  exact e2 rand' (hr.sub l1 le_rfl)

theorem local_pure {α : Type} (x : Go α) : Local (fun _ pos => (do let a ← x; pure (a, pos))) := by
  intro rand pos a pos' h
  simp only [Go.bind_eq_ok, Go.pure_eq, Go.ok.injEq, Prod.mk.injEq] at h
  obtain ⟨a', hx, rfl, rfl⟩ := h
  exact ⟨le_rfl, fun rand' _ => by simp only [hx, Go.ok_bind, Go.pure_eq]⟩

theorem local_with {α β : Type} (x : Go α) {H : α → Rand → Nat → Go (β × Nat)} (hH : ∀ a, Local (H a)) :
    Local (fun rand pos => (do let a ← x; H a rand pos)) := by
  intro rand pos b pos' h
  simp only [Go.bind_eq_ok] at h
  obtain ⟨a, hx, h2⟩ := h
  obtain ⟨l, e⟩ := hH a _ _ _ _ h2
  exact ⟨l, fun rand' hr => by simp only [hx, Go.ok_bind]; exact e rand' hr⟩

theorem local_ite {α : Type} (p : Prop) [Decidable p] {F H : Rand → Nat → Go (α × Nat)} (hF : Local F) (hH : Local H) :
    Local fun rand pos => if p then F rand pos else H rand pos := by
  by_cases h : p
  · simp only [if_pos h]; exact hF
  · simp only [if_neg h]; exact hH

theorem local_none {α : Type} (x : Go (α × Nat)) (hx : ∀ a, x ≠ .ok a) : Local fun _ _ => x :=
  fun _ _ _ _ h => absurd h (hx _)

section
variable (O : FloatOps)

theorem Samplerz_local (mu sigma sigmin : O.F) (fuel : Nat) :
    ∀ rand pos a pos', Samplerz O rand mu sigma sigmin fuel pos = .ok (a, pos') →
      pos < pos' ∧ ∀ rand', Agree rand rand' pos pos' → Samplerz O rand' mu sigma sigmin fuel pos = .ok (a, pos') := by
  induction fuel with
  | zero => intro rand pos a pos' h; simp [Samplerz] at h
  | succ fuel ih =>
    intro rand pos a pos' h
    rw [Samplerz] at h
    cases hr : rand pos with
    | none => simp [hr] at h
    | some rb =>
      simp only [hr] at h
      rw [Go.bind_eq_ok] at h
      obtain ⟨b, hb, h⟩ := h
      cases b with
      | true =>
        simp only [if_true, Go.pure_eq, Go.ok.injEq, Prod.mk.injEq] at h
        obtain ⟨h1, rfl⟩ := h
        refine ⟨by omega, fun rand' ha => ?_⟩
        rw [Samplerz, ← ha pos le_rfl (by omega), hr]
        simp only
        rw [hb, ← h1]
        rfl
      | false =>
        simp only [Bool.false_eq_true, if_false] at h
        obtain ⟨l, e⟩ := ih _ _ _ _ h
        refine ⟨by omega, fun rand' ha => ?_⟩
        rw [Samplerz, ← ha pos le_rfl (by omega), hr]
        simp only
        rw [hb]
        exact e rand' (ha.sub (by omega) le_rfl)

theorem genSamples_local (fuel m : Nat) : Local fun rand pos => genSamples O rand fuel m pos := by
  induction m with
  | zero =>
    intro rand pos a pos' h
    simp only [genSamples, Go.ok.injEq, Prod.mk.injEq] at h
    obtain ⟨rfl, rfl⟩ := h
    exact ⟨le_rfl, fun _ _ => rfl⟩
  | succ m ih =>
    simp only [genSamples]
    refine local_bind (fun rand pos a pos' h => ?_) fun v => local_bind ih fun vs => local_pure (pure (v :: vs))
    obtain ⟨l, e⟩ := Samplerz_local O _ _ _ fuel rand pos a pos' h
    exact ⟨l.le, e⟩

theorem genSamples_count (fuel m : Nat) (rand : Rand) (pos pos' : Nat) (l : List Int8) (h : genSamples O rand fuel m pos = .ok (l, pos')) :
    pos + m ≤ pos' := by
  induction m generalizing pos pos' l with
  | zero =>
    simp only [genSamples, Go.ok.injEq, Prod.mk.injEq] at h
    omega
  | succ m ih =>
    simp only [genSamples, Go.bind_eq_ok, Prod.exists, Go.pure_eq, Go.ok.injEq, Prod.mk.injEq] at h
    obtain ⟨v, p, h1, vs, p', h2, -, rfl⟩ := h
    have := (Samplerz_local O _ _ _ fuel rand pos v p h1).1
    have := ih _ _ _ h2
    omega

theorem GenPoly_local (fuel : Nat) (n : UInt16) : Local fun rand pos => GenPoly O rand fuel n pos := by
  unfold GenPoly
  exact local_ite _ (local_none _ fun _ => by simp) (local_bind (genSamples_local O fuel 4096) fun f0 => local_pure (sumBlocks f0 _ _ 0))

theorem GenPoly_count (fuel : Nat) (n : UInt16) (rand : Rand) (pos pos' : Nat) (f : List Int16)
    (h : GenPoly O rand fuel n pos = .ok (f, pos')) : pos + 4096 ≤ pos' := by
  unfold GenPoly at h
  split at h
  · simp at h
  · simp only [Go.bind_eq_ok, Prod.exists, Go.pure_eq, Go.ok.injEq, Prod.mk.injEq] at h
    obtain ⟨f0, p, h1, f', -, -, rfl⟩ := h
    exact genSamples_count O fuel 4096 rand pos p f0 h1

/-- The part of an iteration of `NtruGen` after the candidates are drawn. -/
def ntruTail (n : UInt16) (fuel : Nat) (f g : List Int16) (rand : Rand) (pos : Nat) : Go (Quad × Nat) := do
  let norm ← GsNorm O (Int16ToFloat64 O f) (Int16ToFloat64 O g) (O.ofInt Q)
  if O.lt (O.mul (O.pow2 (O.lit 1.17)) (O.ofInt Q)) norm then NtruGen O rand fuel n pos
  else do
    let fntt ← NTT wrap64 f
    if anyZeroes fntt then NtruGen O rand fuel n pos
    else do
      match ← NtruSolve O (fuel + 1) (int16ToBigInt f) (int16ToBigInt g) with
      | none => NtruGen O rand fuel n pos
      | some (F, G) => pure (⟨f, g, bigIntToInt16 F, bigIntToInt16 G⟩, pos)

theorem NtruGen_tail (n : UInt16) (fuel : Nat) : (fun rand pos => NtruGen O rand (fuel + 1) n pos) = fun rand pos => (do
    let (f, pos) ← GenPoly O rand (fuel + 1) n pos
    let (g, pos) ← GenPoly O rand (fuel + 1) n pos
    ntruTail O n fuel f g rand pos) := rfl

theorem NtruGen_local (n : UInt16) (fuel : Nat) : Local fun rand pos => NtruGen O rand fuel n pos := by
  induction fuel with
  | zero => exact local_none _ fun _ => by simp
  | succ fuel ih =>
    rw [NtruGen_tail]
    refine local_bind (GenPoly_local O (fuel + 1) n) fun f => local_bind (GenPoly_local O (fuel + 1) n) fun g => ?_
    unfold ntruTail
    refine local_with _ fun norm => local_ite _ ih (local_with _ fun fntt => local_ite _ ih (local_with _ fun r => ?_))
    cases r with
    | none => exact ih
    | some r => exact local_pure (pure (⟨f, g, bigIntToInt16 r.1, bigIntToInt16 r.2⟩ : Quad))

/-- The candidates of the last iteration come from consecutive draws. -/
theorem NtruGen_last (n : UInt16) (fuel : Nat) (rand : Rand) (pos pos' : Nat) (q : Quad) (h : NtruGen O rand fuel n pos = .ok (q, pos')) :
    ∃ k p p', pos ≤ p ∧ GenPoly O rand k n p = .ok (q.f, p') ∧ GenPoly O rand k n p' = .ok (q.g, pos') := by
  induction fuel generalizing pos with
  | zero => simp [NtruGen] at h
  | succ fuel ih =>
    have step : ∀ p f g p', GenPoly O rand (fuel + 1) n pos = .ok (f, p) → GenPoly O rand (fuel + 1) n p = .ok (g, p') →
        NtruGen O rand fuel n p' = .ok (q, pos') →
        ∃ k p p', pos ≤ p ∧ GenPoly O rand k n p = .ok (q.f, p') ∧ GenPoly O rand k n p' = .ok (q.g, pos') := by
      intro p f g p' h1 h2 h3
      obtain ⟨k, a, b, hp, e1, e2⟩ := ih p' h3
      have := (GenPoly_local O _ n _ _ _ _ h1).1
      have := (GenPoly_local O _ n _ _ _ _ h2).1
      exact ⟨k, a, b, by omega, e1, e2⟩
    rw [NtruGen] at h
    simp only [Go.bind_eq_ok, Prod.exists] at h
    obtain ⟨f, p, h1, g, p', h2, norm, -, h⟩ := h
    split at h
    · exact step p f g p' h1 h2 h
    · simp only [Go.bind_eq_ok] at h
      obtain ⟨fntt, -, h⟩ := h
      split at h
      · exact step p f g p' h1 h2 h
      · rw [Go.bind_eq_ok] at h
        obtain ⟨r, -, h⟩ := h
        cases r with
        | none => exact step p f g p' h1 h2 h
        | some r =>
          simp only [Go.pure_eq, Go.ok.injEq, Prod.mk.injEq] at h
          obtain ⟨rfl, rfl⟩ := h
          exact ⟨fuel + 1, pos, p, le_rfl, h1, h2⟩

/-- C72, randomness. A generated key depends only on the draws between the start and the returned position, in every arithmetic; the two
polynomials `f` and `g` come from disjoint consecutive blocks of at least 4096 draws each, the last ones read. -/
theorem C72_randomness (rand : Rand) (fuel : Nat) (n : UInt16) (pos pos' : Nat) (k : PrivateKey)
    (h : GeneratePrivateKey O rand fuel n pos = .ok (.ok (k, pos'))) :
    (∀ rand', Agree rand rand' pos pos' → GeneratePrivateKey O rand' fuel n pos = .ok (.ok (k, pos'))) ∧
    ∃ m p p', pos ≤ p ∧ p + 4096 ≤ p' ∧ p' + 4096 ≤ pos' ∧
      (∀ rand', Agree rand rand' p p' → GenPoly O rand' m n p = .ok (k.f, p')) ∧
      (∀ rand', Agree rand rand' p' pos' → GenPoly O rand' m n p' = .ok (k.g, pos')) := by
  unfold GeneratePrivateKey at h ⊢
  split at h
  · simp at h
  · next hn =>
    simp only [Go.bind_eq_ok, Prod.exists, Go.pure_eq, Go.ok.injEq, Except.ok.injEq, Prod.mk.injEq] at h
    obtain ⟨q, p, hq, rfl, rfl⟩ := h
    constructor
    · intro rand' ha
      simp only [if_neg hn, (NtruGen_local O n fuel _ _ _ _ hq).2 rand' ha, Go.ok_bind, Go.pure_eq]
    · obtain ⟨m, a, b, hp, e1, e2⟩ := NtruGen_last O n fuel _ _ _ _ hq
      exact ⟨m, a, b, hp, GenPoly_count O m n rand a b _ e1, GenPoly_count O m n rand b p _ e2,
        (GenPoly_local O m n _ _ _ _ e1).2, (GenPoly_local O m n _ _ _ _ e2).2⟩

end

/-- A run with 20 iterations allowed has an outcome, and so it is the outcome for any larger bound. -/
example (b : Nat) (hb : 20 ≤ b) :
    GeneratePrivateKey ratOps runRand b 2 0 = .ok (.ok (⟨2, [72, 5], [60, 31], [-40, 31], [124, 0]⟩, 8192)) := by
  rw [(C72_outcome ratOps 20 b hb).1 _ _ _ (by rw [run_key]; simp), run_key]

/-- The draws from 8192 on do not matter. -/
example (rand : Rand) (h : ∀ i, i < 8192 → runRand i = rand i) :
    GeneratePrivateKey ratOps rand 20 2 0 = .ok (.ok (⟨2, [72, 5], [60, 31], [-40, 31], [124, 0]⟩, 8192)) :=
  (C72_randomness ratOps runRand 20 2 0 8192 _ run_key).1 rand fun i _ hi => h i hi

end Falcon
