import Verif.Props.KeyWitness
/-!
# Termination of `reduce` and of key generation (C70)

`math.Round` rounds halves away from zero. A Babai coefficient of exactly one half therefore becomes minus one half, then one half again, and the
loop of `reduce` does not end.
-/

namespace Falcon
open Spec Polynomial F64

/-! ### Units -/

/-- One iteration of the loop of `reduce`; `none` if the loop ends. -/
def reduceStep (O : FloatOps) (f g : List Int) (size : Nat) (fa ga : List O.C) (F G : List Int) : Go (Option (List Int × List Int)) := do
  let SIZE ← sizeOf2 F G
  if SIZE < size then pure none
  else do
    let k ← babai O fa ga (adjust O SIZE F) (adjust O SIZE G)
    if allZeroes k then pure none
    else do
      let fk ← karamul f k
      let gk ← karamul g k
      let F ← subShifted fk (SIZE - size) f.length 0 F
      let G ← subShifted gk (SIZE - size) f.length 0 G
      pure (some (F, G))

theorem reduceLoop_step (O : FloatOps) (f g : List Int) (size : Nat) (fa ga : List O.C) (F G F' G' : List Int)
    (h : reduceStep O f g size fa ga F G = .ok (some (F', G'))) (fuel : Nat) :
    reduceLoop O f g size fa ga (fuel + 1) F G = reduceLoop O f g size fa ga fuel F' G' := by
  unfold reduceStep at h
  obtain ⟨S, hS, h⟩ := Go.bind_eq_ok.1 h
  rw [reduceLoop, hS, Go.ok_bind]
  split at h
  · cases Go.ok.inj h
  rename_i hlt
  obtain ⟨q, hq, h⟩ := Go.bind_eq_ok.1 h
  rw [if_neg hlt, hq, Go.ok_bind]
  split at h
  · cases Go.ok.inj h
  rename_i hz
  obtain ⟨fk, e1, h⟩ := Go.bind_eq_ok.1 h
  obtain ⟨gk, e2, h⟩ := Go.bind_eq_ok.1 h
  obtain ⟨F1, e3, h⟩ := Go.bind_eq_ok.1 h
  obtain ⟨G1, e4, h⟩ := Go.bind_eq_ok.1 h
  rw [if_neg hz, e1, Go.ok_bind, e2, Go.ok_bind, e3, Go.ok_bind, e4, Go.ok_bind]
  have h := Go.ok.inj h
  simp only [Option.some.injEq, Prod.mk.injEq] at h
  rw [h.1, h.2]

/-- A pair that returns after two iterations is reduced forever. -/
theorem reduceLoop_cycle (O : FloatOps) (f g : List Int) (size : Nat) (fa ga : List O.C) (F G F' G' : List Int)
    (h : reduceStep O f g size fa ga F G = .ok (some (F', G'))) (h' : reduceStep O f g size fa ga F' G' = .ok (some (F, G))) (fuel : Nat) :
    reduceLoop O f g size fa ga fuel F G = .diverge ∧ reduceLoop O f g size fa ga fuel F' G' = .diverge := by
  induction fuel with
  | zero => exact ⟨rfl, rfl⟩
  | succ fuel ih =>
    rw [reduceLoop_step O f g size fa ga _ _ _ _ h, reduceLoop_step O f g size fa ga _ _ _ _ h']
    exact ⟨ih.2, ih.1⟩

/-- The units of Z[i]. -/
def units2 : List (List Int) := [[1, 0], [0, 1], [-1, 0], [0, -1]]

/-- `NtruSolve` does not return on two units of degree 2. -/
def Loops (O : FloatOps) : Prop := ∀ f ∈ units2, ∀ g ∈ units2, ∀ fuel, NtruSolve O fuel f g = .diverge

/-- The pair that `NtruSolve` reduces for units of degree 2. -/
theorem solve_units2 (O : FloatOps) (f g : List Int) (hf : f ∈ units2) (hg : g ∈ units2)
    (h : ∀ fuel, reduce O fuel f g ((galoisConjugate g).map fun x : Int => -12289 * x) [0, 0] = .diverge) (fuel : Nat) :
    NtruSolve O fuel f g = .diverge := by
  have h1 : ∀ f ∈ units2, fieldNorm f = .ok [1] ∧ f.length ≠ 1 := by decide +kernel
  have h2 : ∀ g ∈ units2, karamul (lift [-12289]) (galoisConjugate g) = .ok ((galoisConjugate g).map fun x : Int => -12289 * x) ∧
    karamul (lift [0]) (galoisConjugate g) = .ok [0, 0] := by decide +kernel
  rcases fuel with _ | fuel
  · rfl
  rw [NtruSolve, if_neg (h1 f hf).2, (h1 f hf).1, Go.ok_bind, (h1 g hg).1, Go.ok_bind]
  rcases fuel with _ | fuel
  · rfl
  have e : NtruSolve O (fuel + 1) [1] [1] = .ok (some ([-12289], [0])) := by
    rw [NtruSolve, if_pos (by rfl)]
    decide +kernel
  rw [e, Go.ok_bind]
  simp only [(h2 g hg).1, (h2 f hf).2, Go.ok_bind, h]
  rfl

/-- Checks that `reduce` enters a cycle of two pairs after one iteration. -/
def cycles (O : FloatOps) (f g F G : List Int) : Go Bool := do
  let size ← sizeOf2 f g
  let fa ← FFT O (adjust O size f)
  let ga ← FFT O (adjust O size g)
  match ← reduceStep O f g size fa ga F G with
  | none => pure false
  | some (F1, G1) =>
    match ← reduceStep O f g size fa ga F1 G1 with
    | none => pure false
    | some (F2, G2) =>
      match ← reduceStep O f g size fa ga F2 G2 with
      | none => pure false
      | some r => pure (decide (r = (F1, G1)))

theorem cycles_diverge (O : FloatOps) (f g F G : List Int) (h : cycles O f g F G = .ok true) (fuel : Nat) : reduce O fuel f g F G = .diverge := by
  unfold cycles at h
  obtain ⟨size, e1, h⟩ := Go.bind_eq_ok.1 h
  obtain ⟨fa, e2, h⟩ := Go.bind_eq_ok.1 h
  obtain ⟨ga, e3, h⟩ := Go.bind_eq_ok.1 h
  obtain ⟨r1, e4, h⟩ := Go.bind_eq_ok.1 h
  rcases r1 with _ | ⟨F1, G1⟩
  · cases Go.ok.inj h
  obtain ⟨r2, e5, h⟩ := Go.bind_eq_ok.1 h
  rcases r2 with _ | ⟨F2, G2⟩
  · cases Go.ok.inj h
  obtain ⟨r3, e6, h⟩ := Go.bind_eq_ok.1 h
  rcases r3 with _ | r3
  · cases Go.ok.inj h
  have h : r3 = (F1, G1) := of_decide_eq_true (Go.ok.inj h)
  subst h
  unfold reduce
  rw [e1, Go.ok_bind, e2, Go.ok_bind, e3, Go.ok_bind]
  rcases fuel with _ | fuel
  · rfl
  rw [reduceLoop_step O f g size fa ga _ _ _ _ e4]
  exact (reduceLoop_cycle O f g size fa ga _ _ _ _ e5 e6 fuel).1

/-- `cycles` with `fftD`. -/
def stepD (O : FloatOps) (d : Nat) (f g : List Int) (size : Nat) (fa ga : List O.C) (F G : List Int) : Go (Option (List Int × List Int)) := do
  let SIZE ← sizeOf2 F G
  if SIZE < size then pure none
  else do
    let k ← babaiD O d fa ga (adjust O SIZE F) (adjust O SIZE G)
    if allZeroes k then pure none
    else do
      let fk ← karamul f k
      let gk ← karamul g k
      let F ← subShifted fk (SIZE - size) f.length 0 F
      let G ← subShifted gk (SIZE - size) f.length 0 G
      pure (some (F, G))

/-- `cycles` with `fftD`. -/
def cyclesD (O : FloatOps) (d : Nat) (f g F G : List Int) : Go Bool := do
  let size ← sizeOf2 f g
  let fa ← fftD O d (adjust O size f)
  let ga ← fftD O d (adjust O size g)
  match ← stepD O d f g size fa ga F G with
  | none => pure false
  | some (F1, G1) =>
    match ← stepD O d f g size fa ga F1 G1 with
    | none => pure false
    | some (F2, G2) =>
      match ← stepD O d f g size fa ga F2 G2 with
      | none => pure false
      | some r => pure (decide (r = (F1, G1)))

theorem cycles_eq_D (O : FloatOps) (d : Nat) (f g F G : List Int) : cycles O f g F G = cyclesD O d f g F G := by
  have hb : ∀ fa ga, babai O fa ga = babaiD O d fa ga := by
    intro fa ga
    funext a b
    unfold babai babaiD
    rw [FFT_eq_fftD O d]
  have hs : ∀ size fa ga F G, reduceStep O f g size fa ga F G = stepD O d f g size fa ga F G := by
    intro size fa ga F G
    unfold reduceStep stepD
    simp only [hb]
  unfold cycles cyclesD
  simp only [FFT_eq_fftD O d, hs]

theorem loops_ieee : Loops ieeeOps := by
  intro f hf g hg fuel
  refine solve_units2 ieeeOps f g hf hg (fun fuel => cycles_diverge ieeeOps f g _ _ ?_ fuel) fuel
  rw [cycles_eq_D ieeeOps 0]
  revert g
  revert f
  decide +kernel

/-- `f` is a unit of Z[x]/(x^n+1). -/
def IsUnitZ (n : Nat) (f : List Int) : Prop := ∃ u : List Int, u.length = n ∧ CongrZ n (polyZ f * polyZ u) 1

theorem unit_norm (k : Nat) (f : List Int) (hf : f.length = 2 ^ (k + 1)) (hu : IsUnitZ (2 ^ (k + 1)) f) : towerNorm (k + 1) f = .ok 1 := by
  obtain ⟨u, lu, hu⟩ := hu
  obtain ⟨N, hN, iN⟩ := towerNorm_ok (k + 1) f hf
  obtain ⟨M, hM, iM⟩ := towerNorm_ok (k + 1) u lu
  have p1 := towerNorm_nonneg k f hf N hN
  have h1 := isNorm_congr (Nat.two_pow_pos _) hu (isNorm_mul iN iM)
  have h2 : IsNorm (2 ^ (k + 1)) (1 : ℤ[X]) 1 := by simpa using isNorm_const (2 ^ (k + 1)) 1
  have e := isNorm_unique h1 h2
  rw [hN, Int.eq_one_of_mul_eq_one_right p1 e]

theorem diverge_of_norm (O : FloatOps) (hO : Loops O) (k : Nat) (f g : List Int) (hf : f.length = 2 ^ (k + 1)) (hg : g.length = 2 ^ (k + 1))
    (nf : towerNorm (k + 1) f = .ok 1) (ng : towerNorm (k + 1) g = .ok 1) (fuel : Nat) : NtruSolve O fuel f g = .diverge := by
  induction k generalizing f g fuel with
  | zero =>
    have base : ∀ f : List Int, f.length = 2 ^ (0 + 1) → towerNorm (0 + 1) f = .ok 1 → f ∈ units2 := by
      intro f hf nf
      obtain ⟨r, e, l, ⟨c, hc⟩⟩ := fieldNorm_ok 0 f hf
      match f, hf, r, l with
      | [a, b], _, [x], _ =>
        rw [towerNorm, e, Go.ok_bind] at nf
        have h : x = 1 := Go.ok.inj nf
        have := congrArg (eval (-1)) hc
        simp [splitPolys] at this
        have h2 : a * a + b * b = 1 := by nlinarith
        have a1 : -1 ≤ a := by nlinarith
        have a2 : a ≤ 1 := by nlinarith
        have b1 : -1 ≤ b := by nlinarith
        have b2 : b ≤ 1 := by nlinarith
        clear this hc e nf h
        unfold units2
        interval_cases a <;> interval_cases b <;> simp_all
    exact hO f (base f hf nf) g (base g hg ng) fuel
  | succ k ih =>
    rcases fuel with _ | fuel
    · rfl
    have hp := Nat.two_pow_pos k
    have e := pow_succ 2 (k + 1)
    have e' := pow_succ 2 k
    obtain ⟨fp, ef, lf, cf⟩ := fieldNorm_ok (k + 1) f hf
    obtain ⟨gp, eg, lg, cg⟩ := fieldNorm_ok (k + 1) g hg
    rw [towerNorm, ef, Go.ok_bind] at nf
    rw [towerNorm, eg, Go.ok_bind] at ng
    rw [NtruSolve, if_neg (by omega), ef, Go.ok_bind, eg, Go.ok_bind, ih fp gp lf lg nf ng fuel]
    rfl

/-- C70 is violated: for every degree, `NtruSolve` does not return on two units of Z[x]/(x^n+1), for example on `f = g = 1`, although the NTRU
equation has the solution `F = 0`, `G = q/f`. -/
theorem C70_violated_units (k : Nat) (h1 : 1 ≤ k) (f g : List Int) (hf : f.length = 2 ^ k) (hg : g.length = 2 ^ k)
    (uf : IsUnitZ (2 ^ k) f) (ug : IsUnitZ (2 ^ k) g) (fuel : Nat) : NtruSolve ieeeOps fuel f g = .diverge := by
  obtain ⟨k, rfl⟩ : ∃ j, k = j + 1 := ⟨k - 1, by omega⟩
  exact diverge_of_norm ieeeOps loops_ieee k f g hf hg (unit_norm k f hf uf) (unit_norm k g hg ug) fuel

/-! ### A run of key generation that does not end -/

def loopF : List Int16 := [37, 0, -37, 7, -8, -53, -8, 7]

def loopG : List Int16 := [-45, 41, 1, 41, -45, -18, 0, 18]

/-- The quality check passes. -/
theorem loop_norm : ∃ v, GsNorm ieeeOps (Int16ToFloat64 ieeeOps loopF) (Int16ToFloat64 ieeeOps loopG) (ieeeOps.ofInt Q) = .ok v ∧
    ieeeOps.lt (ieeeOps.mul (ieeeOps.pow2 (ieeeOps.lit 1.17)) (ieeeOps.ofInt Q)) v = false := by
  refine ⟨.fin 13834, ?_, by decide +kernel⟩
  rw [GsNorm_eq_D ieeeOps 2]
  decide +kernel

theorem loop_ntt : (do
    let t ← NTT wrap64 loopF
    pure (anyZeroes t)) = .ok false := by decide +kernel

theorem loop_tower : towerNorm (2 + 1) (int16ToBigInt loopF) = .ok 1 ∧ towerNorm (2 + 1) (int16ToBigInt loopG) = .ok 1 := by decide +kernel

/-- C70 is violated: in IEEE arithmetic there are random bytes for which key generation of degree 8 does not return, with any number of steps. -/
theorem C70_violated_keygen : ∃ rand : Rand, ∀ fuel, GeneratePrivateKey ieeeOps rand fuel 8 0 = .diverge := by
  refine ⟨pairRand loopF loopG, fun fuel => ?_⟩
  unfold GeneratePrivateKey
  rw [if_neg (by decide)]
  rcases fuel with _ | fuel
  · rfl
  obtain ⟨hf, hg⟩ := pairRand_poly ieeeOps digits_ieee 8 (by decide) (by decide) loopF loopG rfl rfl (by decide) (by decide) fuel
  obtain ⟨v, hv, hl⟩ := loop_norm
  have h : NtruGen ieeeOps (pairRand loopF loopG) (fuel + 1) 8 0 = .diverge := by
    rw [NtruGen, hf, Go.ok_bind]
    simp only [hg, hv, Go.ok_bind]
    rw [if_neg (fun hc => Bool.noConfusion (hl.symm.trans hc))]
    obtain ⟨t, ht, hz⟩ := Go.bind_eq_ok.1 loop_ntt
    have hz' : anyZeroes t = false := Go.ok.inj hz
    rw [ht, Go.ok_bind, hz', if_neg (by decide), diverge_of_norm ieeeOps loops_ieee 2 _ _ rfl rfl loop_tower.1 loop_tower.2]
    rfl
  rw [h]
  rfl

end Falcon
