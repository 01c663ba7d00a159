import Verif.Props.SamplerLaw
import Mathlib.Algebra.BigOperators.Fin
import Mathlib.Topology.Algebra.Order.LiminfLimsup
import Mathlib.Topology.Order.MonotoneConvergence
/-!
# The law of the polynomials drawn in key generation (C74)

As in `SamplerLaw`, probabilities are counted: a random source that delivers `N` independent uniform draws of 11 bytes and then fails is a function
`Fin N → Draw`, and the probability of an event is the number of such functions in it, divided by `2^(88 N)`.
-/

namespace Falcon
open Spec

noncomputable instance : Fintype Draw := Fintype.ofFinite Draw

/-- The mean, over all sources of `N` draws, of a quantity that depends on the draws. -/
noncomputable def meanDraws (N : Nat) (φ : (Fin N → Draw) → ℝ) : ℝ := (∑ d : Fin N → Draw, φ d) / (2 ^ 88) ^ N

/-- The expected value of `φ` of a list of `m` independent integers, each in the finite set `S` and distributed with the weights `p`. -/
noncomputable def expect (S : Finset Int) (p : Int → ℝ) : Nat → (List Int → ℝ) → ℝ
  | 0, φ => φ []
  | m + 1, φ => ∑ z ∈ S, p z * expect S p m fun l => φ (z :: l)

/-- The possible results of one sample. -/
noncomputable abbrev samples : Finset Int := Finset.Icc (-18) 19

/-! ### What the sampler does with a list of draws -/

/-- The value returned by one iteration of the sampler of key generation, if it accepts. -/
def drawValue (O : FloatOps) (d : Draw) : Option Int :=
  match keySample O (fun _ => some d) 1 0 with
  | .ok (v, _) => some v.toInt
  | _ => none

/-- `m` samples made from a list of draws: the values and the draws left over; `none` if the draws do not suffice. -/
def run (O : FloatOps) : Nat → List Draw → Option (List Int × List Draw)
  | 0, ds => some ([], ds)
  | _ + 1, [] => none
  | m + 1, d :: ds =>
    match drawValue O d with
    | none => run O (m + 1) ds
    | some z => (run O m ds).map fun r => (z :: r.1, r.2)

theorem run_succ (O : FloatOps) (m : Nat) (d : Draw) (ds : List Draw) : run O (m + 1) (d :: ds) =
    match drawValue O d with
    | none => run O (m + 1) ds
    | some z => (run O m ds).map fun r => (z :: r.1, r.2) := by rw [run]

theorem drawValue_some {O : FloatOps} (k : KeyArith O) (d : Draw) (z : Int) : drawValue O d = some z ↔ z ∈ samples ∧ d ∈ keyHits O z := by
  unfold drawValue keySample
  constructor
  · intro h
    rcases hd : Samplerz O (fun _ => some d) (O.ofInt 0) (O.lit 1.43300980528773) (O.sub (O.lit 1.43300980528773) (O.lit 0.001)) 1 0 with ⟨v, p⟩ | _ | _
    · rw [hd] at h
      obtain ⟨hp, y, h1, h2, e⟩ := C47_samplerz O k.ints _ _ _ _ 1 0 v p hd
      rw [key_floor k, zero_add] at e
      have hv : v.toInt = y := by rw [e]; exact Int8.toInt_ofInt_of_le (by omega) (by omega)
      simp only [Option.some.injEq] at h
      have hz : z = y := by omega
      subst hz
      refine ⟨by simp [h1, h2], ?_⟩
      have hp1 : p = 1 := by
        rw [Samplerz_step O _ _ _ _ 0 0 d rfl] at hd
        obtain ⟨b, -, hb⟩ := Go.bind_eq_ok.1 hd
        cases b
        · simp [Samplerz] at hb
        · simp only [if_true, Go.pure_eq, Go.ok.injEq, Prod.mk.injEq] at hb
          omega
      show _ = _
      rw [hd, e, hp1]
    · rw [hd] at h; simp at h
    · rw [hd] at h; simp at h
  · rintro ⟨h1, h2⟩
    rw [Finset.mem_Icc] at h1
    rw [show Samplerz O (fun _ => some d) (O.ofInt 0) (O.lit 1.43300980528773) (O.sub (O.lit 1.43300980528773) (O.lit 0.001)) 1 0 =
      .ok (Int8.ofInt z, 1) from h2]
    simp only [Option.some.injEq]
    exact Int8.toInt_ofInt_of_le (by omega) (by omega)

theorem drawValue_none {O : FloatOps} (k : KeyArith O) (d : Draw) : drawValue O d = none ↔ d ∈ misses O (O.ofInt 0) (O.lit 1.43300980528773)
    (O.sub (O.lit 1.43300980528773) (O.lit 0.001)) := by
  unfold drawValue keySample
  constructor
  · intro h
    rcases hd : Samplerz O (fun _ => some d) (O.ofInt 0) (O.lit 1.43300980528773) (O.sub (O.lit 1.43300980528773) (O.lit 0.001)) 1 0 with ⟨v, p⟩ | _ | _
    · rw [hd] at h; simp at h
    · obtain ⟨i, -, h⟩ := C59_sampler_key k _ 1 0 hd
      simp at h
    · exact hd
  · intro h
    rw [show Samplerz O (fun _ => some d) (O.ofInt 0) (O.lit 1.43300980528773) (O.sub (O.lit 1.43300980528773) (O.lit 0.001)) 1 0 =
      .diverge from h]

/-- One sample from the draws of a list. -/
theorem sample_run {O : FloatOps} (k : KeyArith O) (rand : Rand) (ds : List Draw) (fuel pos : Nat) (hf : ds.length < fuel)
    (hr : ∀ i, rand (pos + i) = ds[i]?) : keySample O rand fuel pos =
      match run O 1 ds with
      | none => .panic
      | some (l, rest) => .ok (Int8.ofInt (l.headD 0), pos + (ds.length - rest.length)) := by
  induction ds generalizing fuel pos with
  | nil =>
    obtain ⟨fuel, rfl⟩ : ∃ f, fuel = f + 1 := ⟨fuel - 1, by simp at hf; omega⟩
    have h0 : rand pos = none := by simpa using hr 0
    unfold keySample
    rw [Samplerz, h0]
    rfl
  | cons d ds ih =>
    obtain ⟨fuel, rfl⟩ : ∃ f, fuel = f + 1 := ⟨fuel - 1, by simp at hf; omega⟩
    rw [List.length_cons] at hf
    have h0 : rand pos = some d := by simpa using hr 0
    have h1 : ∀ i, rand (pos + 1 + i) = ds[i]? := by
      intro i
      rw [show pos + 1 + i = pos + (i + 1) by omega, hr]
      simp
    rw [run_succ]
    cases hd : drawValue O d with
    | none =>
      have hm := (mem_misses O _ _ _ d).1 ((drawValue_none k d).1 hd)
      unfold keySample
      rw [Samplerz_step O rand _ _ _ fuel pos d h0, hm, Go.ok_bind, if_neg (by simp)]
      have := ih fuel (pos + 1) (by omega) h1
      unfold keySample at this
      rw [this]
      rcases hrun : run O 1 ds with _ | ⟨l, rest⟩
      · rfl
      · have hle : rest.length ≤ ds.length := by
          clear this ih hr h1 hf h0 hd hm
          induction ds generalizing l rest with
          | nil => simp [run] at hrun
          | cons e es ih =>
            rw [run_succ] at hrun
            cases he : drawValue O e with
            | none => rw [he] at hrun; have := ih l rest hrun; simp; omega
            | some z =>
              rw [he] at hrun
              simp only [run, Option.map_some, Option.some.injEq, Prod.mk.injEq] at hrun
              rw [← hrun.2]; simp
        simp only [Go.ok.injEq, Prod.mk.injEq, true_and, List.length_cons]
        omega
    | some z =>
      obtain ⟨e1, e2⟩ := (mem_hits O _ _ _ _ d).1 ((drawValue_some k d z).1 hd).2
      unfold keySample
      rw [Samplerz_step O rand _ _ _ fuel pos d h0, e1, Go.ok_bind, if_pos rfl, e2]
      simp [run]

/-- Several samples, one after the other. -/
theorem run_split (O : FloatOps) (a b : Nat) (ds : List Draw) : run O (a + b) ds =
    (run O a ds).bind fun r => (run O b r.2).map fun s => (r.1 ++ s.1, s.2) := by
  induction ds generalizing a with
  | nil =>
    cases a with
    | zero => simp [run]
    | succ a => rw [show a + 1 + b = a + b + 1 by omega]; simp [run]
  | cons d ds ih =>
    cases a with
    | zero => simp [run]
    | succ a =>
      rw [show a + 1 + b = a + b + 1 by omega, run_succ, run_succ]
      cases drawValue O d with
      | none =>
        have := ih (a + 1)
        rw [show a + 1 + b = a + b + 1 by omega] at this
        exact this
      | some z =>
        simp only
        rw [ih a]
        cases run O a ds with
        | none => rfl
        | some r =>
          cases hb : run O b r.2 with
          | none => simp [hb]
          | some s => simp [hb]

theorem run_length (O : FloatOps) (m : Nat) (ds : List Draw) (l : List Int) (rest : List Draw) (h : run O m ds = some (l, rest)) :
    l.length = m ∧ ∃ used, ds = used ++ rest := by
  induction ds generalizing m l with
  | nil =>
    cases m with
    | zero =>
      simp only [run, Option.some.injEq, Prod.mk.injEq] at h
      exact ⟨by rw [← h.1]; rfl, [], by rw [← h.2]; rfl⟩
    | succ m => simp [run] at h
  | cons d ds ih =>
    cases m with
    | zero =>
      simp only [run, Option.some.injEq, Prod.mk.injEq] at h
      exact ⟨by rw [← h.1]; rfl, [], by rw [← h.2]; rfl⟩
    | succ m =>
      rw [run_succ] at h
      cases hd : drawValue O d with
      | none =>
        rw [hd] at h
        obtain ⟨h1, u, h2⟩ := ih (m + 1) l h
        exact ⟨h1, d :: u, by rw [h2]; rfl⟩
      | some z =>
        rw [hd] at h
        cases hr : run O m ds with
        | none => rw [hr] at h; simp at h
        | some r =>
          rw [hr] at h
          simp only [Option.map_some, Option.some.injEq, Prod.mk.injEq] at h
          obtain ⟨h1, u, h2⟩ := ih m r.1 (by rw [hr, ← h.2])
          exact ⟨by rw [← h.1, List.length_cons, h1], d :: u, by rw [h2]; rfl⟩

theorem genSamples_run {O : FloatOps} (k : KeyArith O) (rand : Rand) (m : Nat) (ds : List Draw) (fuel pos : Nat) (hf : ds.length < fuel)
    (hr : ∀ i, rand (pos + i) = ds[i]?) : genSamples O rand fuel m pos =
      match run O m ds with
      | none => .panic
      | some (l, rest) => .ok (l.map Int8.ofInt, pos + (ds.length - rest.length)) := by
  induction m generalizing ds pos with
  | zero => simp [run, genSamples]
  | succ m ih =>
    rw [genSamples, show m + 1 = 1 + m by omega, run_split]
    have h1 := sample_run k rand ds fuel pos hf hr
    unfold keySample at h1
    rw [h1]
    rcases hrun : run O 1 ds with _ | ⟨l, rest⟩
    · rfl
    · obtain ⟨hl, used, hu⟩ := run_length O 1 ds l rest hrun
      have hlen : ds.length = used.length + rest.length := by rw [hu, List.length_append]
      obtain ⟨z, rfl⟩ : ∃ z, l = [z] := List.length_eq_one_iff.1 hl
      simp only [Go.ok_bind, Option.bind_some]
      rw [ih rest (pos + (ds.length - rest.length)) (by omega) (by
        intro i
        rw [show pos + (ds.length - rest.length) + i = pos + (used.length + i) by omega, hr, hu, List.getElem?_append_right (by omega)]
        congr 1
        omega)]
      rcases hrun2 : run O m rest with _ | ⟨l2, rest2⟩
      · rfl
      · obtain ⟨-, used2, hu2⟩ := run_length O m rest l2 rest2 hrun2
        have hlen2 : rest.length = used2.length + rest2.length := by rw [hu2, List.length_append]
        simp only [Go.ok_bind, Option.map_some, Go.pure_eq, Go.ok.injEq, Prod.mk.injEq, List.headD_cons, List.cons_append, List.nil_append,
          List.map_cons, true_and]
        omega

/-! ### Counting -/

theorem sum_draws_succ (N : Nat) (φ : List Draw → ℝ) : ∑ d : Fin (N + 1) → Draw, φ (List.ofFn d) =
    ∑ x : Draw, ∑ d : Fin N → Draw, φ (x :: List.ofFn d) := by
  rw [← (Fin.consEquiv fun _ => Draw).sum_comp, Fintype.sum_prod_type]
  refine Finset.sum_congr rfl fun x _ => Finset.sum_congr rfl fun d _ => ?_
  simp [Fin.consEquiv, List.ofFn_succ]

/-- The value of `φ` on the samples, 0 if the draws do not suffice. -/
def onRun (φ : List Int → ℝ) : Option (List Int × List Draw) → ℝ
  | none => 0
  | some r => φ r.1

/-- The number of sources of `N` draws that suffice for `m` samples. -/
noncomputable def enough (O : FloatOps) (N m : Nat) : ℝ := ∑ d : Fin N → Draw, onRun (fun _ => 1) (run O m (List.ofFn d))

theorem sum_drawValue {O : FloatOps} (k : KeyArith O) (F : Option Int → ℝ) : ∑ d : Draw, F (drawValue O d) =
    (misses O (O.ofInt 0) (O.lit 1.43300980528773) (O.sub (O.lit 1.43300980528773) (O.lit 0.001))).ncard * F none +
      ∑ z ∈ samples, (keyHits O z).ncard * F (some z) := by
  classical
  have hs : ∀ d : Draw, F (drawValue O d) = (if drawValue O d = none then F none else 0) + ∑ z ∈ samples, if drawValue O d = some z then F (some z) else 0 := by
    intro d
    cases hd : drawValue O d with
    | none => simp
    | some z =>
      have hz := ((drawValue_some k d z).1 hd).1
      simp only [reduceCtorEq, if_false, zero_add, Option.some.injEq]
      rw [Finset.sum_ite_eq, if_pos hz]
  simp_rw [hs]
  rw [Finset.sum_add_distrib, Finset.sum_comm]
  congr 1
  · rw [← Finset.sum_filter, Finset.sum_const, nsmul_eq_mul]
    congr 2
    rw [← Set.ncard_coe_finset]
    congr 1
    ext d
    simp [drawValue_none k]
  · refine Finset.sum_congr rfl fun z hz => ?_
    rw [← Finset.sum_filter, Finset.sum_const, nsmul_eq_mul]
    congr 2
    rw [← Set.ncard_coe_finset]
    congr 1
    ext d
    simp only [Finset.coe_filter, Finset.mem_univ, true_and, Set.mem_ofPred_eq]
    rw [drawValue_some k]
    exact ⟨fun h => h.2, fun h => ⟨hz, h⟩⟩

theorem expect_const (S : Finset Int) (p : Int → ℝ) (hp : ∑ z ∈ S, p z = 1) (m : Nat) (c : ℝ) : expect S p m (fun _ => c) = c := by
  induction m with
  | zero => rfl
  | succ m ih => rw [expect, ih, ← Finset.sum_mul, hp, one_mul]

theorem keyTotal_ne {O : FloatOps} (k : KeyArith O) : (keyTotal O : ℝ) ≠ 0 := by rw [keyTotal_eq k]; norm_num

theorem sum_run_gen {O : FloatOps} (k : KeyArith O) (N m : Nat) : ∃ c : ℝ, ∀ φ : List Int → ℝ,
    ∑ d : Fin N → Draw, onRun φ (run O m (List.ofFn d)) = c * expect samples (keyProb O) m φ := by
  induction N generalizing m with
  | zero =>
    cases m with
    | zero => exact ⟨1, fun φ => by simp [run, onRun, expect]⟩
    | succ m => exact ⟨0, fun φ => by simp [run, onRun]⟩
  | succ N ih =>
    cases m with
    | zero =>
      refine ⟨∑ _d : Fin (N + 1) → Draw, 1, fun φ => ?_⟩
      rw [Finset.sum_mul]
      exact Finset.sum_congr rfl fun d _ => by simp [run, onRun, expect]
    | succ m =>
      obtain ⟨c1, h1⟩ := ih (m + 1)
      obtain ⟨c2, h2⟩ := ih m
      refine ⟨(misses O (O.ofInt 0) (O.lit 1.43300980528773) (O.sub (O.lit 1.43300980528773) (O.lit 0.001))).ncard * c1 + keyTotal O * c2,
        fun φ => ?_⟩
      have e := sum_draws_succ N fun l => onRun φ (run O (m + 1) l)
      rw [e]
      have e2 : ∀ x : Draw, ∑ d : Fin N → Draw, onRun φ (run O (m + 1) (x :: List.ofFn d)) =
          (fun o : Option Int => match o with
            | none => c1 * expect samples (keyProb O) (m + 1) φ
            | some z => c2 * expect samples (keyProb O) m fun l => φ (z :: l)) (drawValue O x) := by
        intro x
        simp_rw [run_succ]
        cases drawValue O x with
        | none => exact h1 φ
        | some z =>
          simp only
          rw [← h2]
          refine Finset.sum_congr rfl fun d _ => ?_
          cases run O m (List.ofFn d) <;> rfl
      simp_rw [e2]
      rw [sum_drawValue k fun o : Option Int => match o with
            | none => c1 * expect samples (keyProb O) (m + 1) φ
            | some z => c2 * expect samples (keyProb O) m fun l => φ (z :: l)]
      simp only
      rw [add_mul, mul_assoc]
      congr 1
      rw [expect, Finset.mul_sum]
      refine Finset.sum_congr rfl fun z _ => ?_
      unfold keyProb
      have h0 := keyTotal_ne k
      generalize (keyTotal O : ℝ) = T at h0
      generalize ((keyHits O z).ncard : ℝ) = H
      generalize expect samples _ m _ = X
      field_simp

/-- The samples are independent and distributed with `keyProb`, whatever the number of draws. -/
theorem sum_run {O : FloatOps} (k : KeyArith O) (N m : Nat) (φ : List Int → ℝ) :
    ∑ d : Fin N → Draw, onRun φ (run O m (List.ofFn d)) = enough O N m * expect samples (keyProb O) m φ := by
  obtain ⟨c, h⟩ := sum_run_gen k N m
  rw [h φ, enough, h, expect_const _ _ (C60_terminates k), mul_one]

/-! ### Expected values -/

theorem expect_congr (S : Finset Int) (p : Int → ℝ) (m : Nat) (φ ψ : List Int → ℝ) (h : ∀ l, l.length = m → (∀ z ∈ l, z ∈ S) → φ l = ψ l) :
    expect S p m φ = expect S p m ψ := by
  induction m generalizing φ ψ with
  | zero => exact h [] rfl (by simp)
  | succ m ih =>
    refine Finset.sum_congr rfl fun z hz => ?_
    congr 1
    refine ih _ _ fun l hl hm => h (z :: l) (by simp [hl]) ?_
    intro y hy
    rcases List.mem_cons.1 hy with rfl | hy
    · exact hz
    · exact hm y hy

theorem expect_append (S : Finset Int) (p : Int → ℝ) (a b : Nat) (φ : List Int → ℝ) :
    expect S p (a + b) φ = expect S p a fun x => expect S p b fun y => φ (x ++ y) := by
  induction a generalizing φ with
  | zero => simp [expect]
  | succ a ih =>
    rw [show a + 1 + b = a + b + 1 by omega, expect, expect]
    refine Finset.sum_congr rfl fun z _ => ?_
    rw [ih]
    rfl

theorem expect_add (S : Finset Int) (p : Int → ℝ) (m : Nat) (φ ψ : List Int → ℝ) :
    expect S p m (fun l => φ l + ψ l) = expect S p m φ + expect S p m ψ := by
  induction m generalizing φ ψ with
  | zero => rfl
  | succ m ih =>
    simp only [expect]
    rw [← Finset.sum_add_distrib]
    refine Finset.sum_congr rfl fun z _ => ?_
    rw [ih, mul_add]

theorem expect_smul (S : Finset Int) (p : Int → ℝ) (m : Nat) (c : ℝ) (φ : List Int → ℝ) :
    expect S p m (fun l => c * φ l) = c * expect S p m φ := by
  induction m generalizing φ with
  | zero => rfl
  | succ m ih =>
    simp only [expect]
    rw [Finset.mul_sum]
    refine Finset.sum_congr rfl fun z _ => ?_
    rw [ih, mul_left_comm]

theorem expect_sum {ι : Type} (S : Finset Int) (p : Int → ℝ) (m : Nat) (s : Finset ι) (φ : ι → List Int → ℝ) :
    expect S p m (fun l => ∑ i ∈ s, φ i l) = ∑ i ∈ s, expect S p m (φ i) := by
  classical
  induction s using Finset.induction_on with
  | empty =>
    simp only [Finset.sum_empty]
    have := expect_smul S p m 0 fun _ => 0
    simpa using this
  | insert i s hi ih =>
    simp only [Finset.sum_insert hi]
    rw [expect_add, ih]

theorem expect_mono (S : Finset Int) (p : Int → ℝ) (hp : ∀ z ∈ S, 0 ≤ p z) (m : Nat) (φ ψ : List Int → ℝ)
    (h : ∀ l, l.length = m → (∀ z ∈ l, z ∈ S) → φ l ≤ ψ l) : expect S p m φ ≤ expect S p m ψ := by
  induction m generalizing φ ψ with
  | zero => exact h [] rfl (by simp)
  | succ m ih =>
    refine Finset.sum_le_sum fun z hz => ?_
    refine mul_le_mul_of_nonneg_left (ih _ _ fun l hl hm => h (z :: l) (by simp [hl]) ?_) (hp z hz)
    intro y hy
    rcases List.mem_cons.1 hy with rfl | hy
    · exact hz
    · exact hm y hy

/-! ### The polynomials -/

/-- Sums of `n` successive blocks of length `k`. -/
def blockSums (k : Nat) : Nat → List Int → List Int
  | 0, _ => []
  | n + 1, l => (l.take k).sum :: blockSums k n (l.drop k)

theorem blockSums_length (k n : Nat) (l : List Int) : (blockSums k n l).length = n := by
  induction n generalizing l with
  | zero => rfl
  | succ n ih => simp [blockSums, ih]

theorem blockSums_getElem? (k n : Nat) (l : List Int) (j : Nat) (hj : j < n) : (blockSums k n l)[j]? = some ((l.drop (j * k)).take k).sum := by
  induction n generalizing l j with
  | zero => omega
  | succ n ih =>
    cases j with
    | zero => simp [blockSums]
    | succ j =>
      rw [blockSums, List.getElem?_cons_succ, ih _ j (by omega), List.drop_drop, Nat.succ_mul, Nat.add_comm k]

/-- The probability that `k` samples of key generation add up to `c`. -/
noncomputable def coefProb (O : FloatOps) (k : Nat) (c : Int) : ℝ := expect samples (keyProb O) k fun l => if l.sum = c then 1 else 0

/-- The possible sums of `k` samples. -/
noncomputable abbrev sums (k : Nat) : Finset Int := Finset.Icc (-18 * (k : Int)) (19 * (k : Int))

theorem sum_mem_sums (k : Nat) (l : List Int) (hl : l.length = k) (h : ∀ z ∈ l, z ∈ samples) : l.sum ∈ sums k := by
  induction l generalizing k with
  | nil => subst hl; simp
  | cons a l ih =>
    subst hl
    have h1 := ih l.length rfl fun z hz => h z (List.mem_cons_of_mem _ hz)
    have h2 := h a List.mem_cons_self
    rw [Finset.mem_Icc] at h1 h2 ⊢
    rw [List.sum_cons, List.length_cons]
    push_cast
    omega

theorem expect_blocks (O : FloatOps) (k n : Nat) (φ : List Int → ℝ) :
    expect samples (keyProb O) (n * k) (fun l => φ (blockSums k n l)) = expect (sums k) (coefProb O k) n φ := by
  induction n generalizing φ with
  | zero => simp [expect, blockSums]
  | succ n ih =>
    rw [show (n + 1) * k = k + n * k by ring, expect_append, expect]
    have e : ∀ x : List Int, x.length = k → (∀ z ∈ x, z ∈ samples) →
        expect samples (keyProb O) (n * k) (fun y => φ (blockSums k (n + 1) (x ++ y))) =
        ∑ c ∈ sums k, expect (sums k) (coefProb O k) n (fun l => φ (c :: l)) * if x.sum = c then 1 else 0 := by
      intro x hx hm
      have e1 : ∀ y, blockSums k (n + 1) (x ++ y) = x.sum :: blockSums k n y := by
        intro y
        rw [blockSums, ← hx, List.take_left, List.drop_left]
      simp_rw [e1, mul_ite, mul_one, mul_zero]
      rw [Finset.sum_ite_eq, if_pos (sum_mem_sums k x hx hm)]
      exact ih fun l => φ (x.sum :: l)
    rw [expect_congr _ _ _ _ _ e, expect_sum]
    refine Finset.sum_congr rfl fun c _ => ?_
    rw [expect_smul, mul_comm]
    rfl

/-- ntrugen.go:311-312: the two calls of `GenPoly` that open an iteration of `NtruGen`, on a source of `N` draws. At most `N` iterations of a
rejection loop can use them up, so the bound `N + 1` is never reached. -/
def attempt (O : FloatOps) (n : UInt16) {N : Nat} (d : Fin N → Draw) : Go (List Int16 × List Int16) := do
  let (f, p) ← GenPoly O (source d) (N + 1) n 0
  let (g, _) ← GenPoly O (source d) (N + 1) n p
  pure (f, g)

/-- The value of `ψ` on the polynomials, 0 if the draws do not suffice. -/
def onPair (ψ : List Int16 → List Int16 → ℝ) : Go (List Int16 × List Int16) → ℝ
  | .ok (f, g) => ψ f g
  | _ => 0

theorem run_mem {O : FloatOps} (k : KeyArith O) (m : Nat) (ds : List Draw) (l : List Int) (rest : List Draw) (h : run O m ds = some (l, rest)) :
    ∀ z ∈ l, z ∈ samples := by
  induction ds generalizing m l with
  | nil =>
    cases m with
    | zero =>
      simp only [run, Option.some.injEq, Prod.mk.injEq] at h
      rw [← h.1]; simp
    | succ m => simp [run] at h
  | cons d ds ih =>
    cases m with
    | zero =>
      simp only [run, Option.some.injEq, Prod.mk.injEq] at h
      rw [← h.1]; simp
    | succ m =>
      rw [run_succ] at h
      cases hd : drawValue O d with
      | none => rw [hd] at h; exact ih (m + 1) l h
      | some z =>
        rw [hd] at h
        cases hr : run O m ds with
        | none => rw [hr] at h; simp at h
        | some r =>
          rw [hr] at h
          simp only [Option.map_some, Option.some.injEq, Prod.mk.injEq] at h
          intro y hy
          rw [← h.1] at hy
          rcases List.mem_cons.1 hy with rfl | hy
          · exact ((drawValue_some k d y).1 hd).1
          · exact ih m r.1 (by rw [hr, ← h.2]) y hy

theorem GenPoly_run {O : FloatOps} (k : KeyArith O) (n : UInt16) (hn : n.toNat ≤ 4096) (rand : Rand) (ds : List Draw) (fuel pos : Nat)
    (hf : ds.length < fuel) (hr : ∀ i, rand (pos + i) = ds[i]?) : GenPoly O rand fuel n pos =
      match run O 4096 ds with
      | none => .panic
      | some (l, rest) => .ok ((blockSums (4096 / n.toNat) n.toNat l).map Int16.ofInt, pos + (ds.length - rest.length)) := by
  unfold GenPoly
  rw [if_neg (by
    intro hc
    have : (4096 : UInt16).toNat < n.toNat := hc
    have e : (4096 : UInt16).toNat = 4096 := rfl
    omega), genSamples_run k rand 4096 ds fuel pos hf hr]
  rcases hrun : run O 4096 ds with _ | ⟨l, rest⟩
  · rfl
  · simp only [Go.ok_bind]
    obtain ⟨hl, -⟩ := run_length O 4096 ds l rest hrun
    have hm := run_mem k 4096 ds l rest hrun
    have hkn : n.toNat * (4096 / n.toNat) ≤ 4096 := Nat.mul_div_le 4096 n.toNat
    obtain ⟨r, er, lr, hr'⟩ := sumBlocks_ok (l.map Int8.ofInt) (4096 / n.toNat) n.toNat 0 (by
      rw [List.length_map, hl, Nat.zero_add]
      exact hkn)
    rw [er, Go.ok_bind]
    have hid : (l.map Int8.ofInt).map Int8.toInt = l := by
      rw [List.map_map]
      conv_rhs => rw [← List.map_id l]
      refine List.map_congr_left fun z hz => ?_
      have := hm z hz
      rw [Finset.mem_Icc] at this
      exact Int8.toInt_ofInt_of_le (by omega) (by omega)
    have e : r = (blockSums (4096 / n.toNat) n.toNat l).map Int16.ofInt := by
      apply List.ext_getElem?
      intro j
      by_cases hj : j < n.toNat
      · rw [hr' j hj, List.getElem?_map, blockSums_getElem? _ _ _ j hj, Nat.zero_add, List.map_take, List.map_drop, hid]
        rfl
      · rw [List.getElem?_eq_none (by omega), List.getElem?_eq_none (by rw [List.length_map, blockSums_length]; omega)]
    rw [e]
    rfl

theorem attempt_run {O : FloatOps} (k : KeyArith O) (n : UInt16) (hn : n.toNat ≤ 4096) {N : Nat} (d : Fin N → Draw) : attempt O n d =
      match run O 8192 (List.ofFn d) with
      | none => .panic
      | some (l, _) => .ok ((blockSums (4096 / n.toNat) n.toNat (l.take 4096)).map Int16.ofInt,
          (blockSums (4096 / n.toNat) n.toNat (l.drop 4096)).map Int16.ofInt) := by
  have hr : ∀ i, source d (0 + i) = (List.ofFn d)[i]? := by
    intro i
    rw [Nat.zero_add, List.getElem?_ofFn]
    rfl
  unfold attempt
  rw [GenPoly_run k n hn (source d) (List.ofFn d) (N + 1) 0 (by simp) hr, show 8192 = 4096 + 4096 from rfl, run_split]
  rcases hrun : run O 4096 (List.ofFn d) with _ | ⟨l, rest⟩
  · rfl
  · obtain ⟨hl, used, hu⟩ := run_length O 4096 _ l rest hrun
    have hlen : N = used.length + rest.length := by
      have := congrArg List.length hu
      rwa [List.length_ofFn, List.length_append] at this
    simp only [Go.ok_bind, Option.bind_some]
    rw [GenPoly_run k n hn (source d) rest (N + 1) _ (by omega) (by
      intro i
      have := hr (used.length + i)
      rw [Nat.zero_add] at this
      rw [List.length_ofFn, show 0 + (N - rest.length) + i = used.length + i by omega, this, hu, List.getElem?_append_right (by omega)]
      congr 1
      omega)]
    rcases hrun2 : run O 4096 rest with _ | ⟨l2, rest2⟩
    · rfl
    · simp only [Go.ok_bind, Option.map_some]
      rw [← hl, List.take_left, List.drop_left]
      rfl

/-- The probability that `N` draws suffice for the two polynomials. -/
noncomputable def returnProb (O : FloatOps) (n : UInt16) (N : Nat) : ℝ := meanDraws N fun d => onPair (fun _ _ => 1) (attempt O n d)

/-- The mean of any function of the two polynomials: the coefficients are independent. -/
theorem mean_attempt {O : FloatOps} (k : KeyArith O) (n : UInt16) (hn : n.toNat ≤ 4096) (hd : n.toNat ∣ 4096) (N : Nat) (ψ : List Int16 → List Int16 → ℝ) :
    meanDraws N (fun d => onPair ψ (attempt O n d)) = returnProb O n N *
      expect (sums (4096 / n.toNat)) (coefProb O (4096 / n.toNat)) n.toNat fun f =>
        expect (sums (4096 / n.toNat)) (coefProb O (4096 / n.toNat)) n.toNat fun g => ψ (f.map Int16.ofInt) (g.map Int16.ofInt) := by
  have key : ∀ ψ : List Int16 → List Int16 → ℝ, meanDraws N (fun d => onPair ψ (attempt O n d)) = enough O N 8192 / (2 ^ 88) ^ N *
      expect (sums (4096 / n.toNat)) (coefProb O (4096 / n.toNat)) n.toNat fun f =>
        expect (sums (4096 / n.toNat)) (coefProb O (4096 / n.toNat)) n.toNat fun g => ψ (f.map Int16.ofInt) (g.map Int16.ofInt) := by
    intro ψ
    have e : ∀ d : Fin N → Draw, onPair ψ (attempt O n d) = onRun (fun l => ψ ((blockSums (4096 / n.toNat) n.toNat (l.take 4096)).map Int16.ofInt)
        ((blockSums (4096 / n.toNat) n.toNat (l.drop 4096)).map Int16.ofInt)) (run O 8192 (List.ofFn d)) := by
      intro d
      rw [attempt_run k n hn d]
      cases run O 8192 (List.ofFn d) <;> rfl
    unfold meanDraws
    simp_rw [e]
    rw [sum_run k, mul_div_right_comm]
    congr 1
    have hkn : n.toNat * (4096 / n.toNat) = 4096 := Nat.mul_div_cancel' hd
    rw [show 8192 = 4096 + 4096 from rfl, expect_append]
    have e2 : ∀ x : List Int, x.length = 4096 → (∀ z ∈ x, z ∈ samples) →
        (expect samples (keyProb O) 4096 fun y => ψ ((blockSums (4096 / n.toNat) n.toNat ((x ++ y).take 4096)).map Int16.ofInt)
          ((blockSums (4096 / n.toNat) n.toNat ((x ++ y).drop 4096)).map Int16.ofInt)) =
        (fun b : List Int => expect (sums (4096 / n.toNat)) (coefProb O (4096 / n.toNat)) n.toNat fun g => ψ (b.map Int16.ofInt) (g.map Int16.ofInt))
          (blockSums (4096 / n.toNat) n.toNat x) := by
      intro x hx _
      simp_rw [List.take_left' hx, List.drop_left' hx]
      have := expect_blocks O (4096 / n.toNat) n.toNat fun g => ψ ((blockSums (4096 / n.toNat) n.toNat x).map Int16.ofInt) (g.map Int16.ofInt)
      rw [hkn] at this
      exact this
    rw [expect_congr _ _ _ _ _ e2]
    have := expect_blocks O (4096 / n.toNat) n.toNat (fun b : List Int =>
      expect (sums (4096 / n.toNat)) (coefProb O (4096 / n.toNat)) n.toNat fun g => ψ (b.map Int16.ofInt) (g.map Int16.ofInt))
    rw [hkn] at this
    exact this
  have h1 := key fun _ _ => 1
  have hs : ∑ c ∈ sums (4096 / n.toNat), coefProb O (4096 / n.toNat) c = 1 := by
    have := expect_blocks O (4096 / n.toNat) 1 fun _ => 1
    rw [expect_const _ _ (C60_terminates k)] at this
    simpa [expect] using this.symm
  rw [expect_const _ _ hs, expect_const _ _ hs, mul_one] at h1
  unfold returnProb
  rw [h1]
  exact key ψ

/-! ### The number of draws needed -/

theorem enough_zero (O : FloatOps) (N : Nat) : enough O N 0 = (2 ^ 88) ^ N := by
  have hc : Fintype.card Draw = 2 ^ 88 := by rw [← Nat.card_eq_fintype_card, card_draw]
  unfold enough
  simp only [run, onRun]
  rw [Finset.sum_const, nsmul_eq_mul, mul_one, Finset.card_univ, Fintype.card_fun, hc, Fintype.card_fin]
  norm_num

theorem enough_succ {O : FloatOps} (k : KeyArith O) (N m : Nat) : enough O (N + 1) (m + 1) =
    (2 ^ 88 - 230839121479129981686078720) * enough O N (m + 1) + 230839121479129981686078720 * enough O N m := by
  have e := sum_draws_succ N fun l => onRun (fun _ => 1) (run O (m + 1) l)
  unfold enough
  rw [e]
  have e2 : ∀ x : Draw, ∑ d : Fin N → Draw, onRun (fun _ => 1) (run O (m + 1) (x :: List.ofFn d)) =
      (fun o : Option Int => match o with
        | none => enough O N (m + 1)
        | some _ => enough O N m) (drawValue O x) := by
    intro x
    simp_rw [run_succ]
    cases drawValue O x with
    | none => rfl
    | some z =>
      refine Finset.sum_congr rfl fun d _ => ?_
      cases run O m (List.ofFn d) <;> rfl
  simp_rw [e2]
  rw [sum_drawValue k fun o : Option Int => match o with
        | none => enough O N (m + 1)
        | some _ => enough O N m]
  have hm := key_misses k
  have ht := keyTotal_eq k
  simp only
  rw [← Finset.sum_mul]
  have h1 : (∑ z ∈ samples, ((keyHits O z).ncard : ℝ)) = 230839121479129981686078720 := by
    rw [← Nat.cast_sum]
    unfold keyTotal at ht
    rw [ht]
    norm_num
  have h2 : ((misses O (O.ofInt 0) (O.lit 1.43300980528773) (O.sub (O.lit 1.43300980528773) (O.lit 0.001))).ncard : ℝ) = 2 ^ 88 - 230839121479129981686078720 := by
    rw [ht] at hm
    have : (((misses O (O.ofInt 0) (O.lit 1.43300980528773) (O.sub (O.lit 1.43300980528773) (O.lit 0.001))).ncard + 230839121479129981686078720 : Nat) : ℝ) = ((2 ^ 88 : Nat) : ℝ) := by
      rw [hm]
    push_cast at this
    linarith
  rw [h1, h2]
  rfl

theorem enough_ge {O : FloatOps} (k : KeyArith O) (N m : Nat) : (2 ^ 88) ^ N - enough O N m ≤ 4 ^ m * (2 ^ 87) ^ N := by
  induction N generalizing m with
  | zero =>
    have h0 : 0 ≤ enough O 0 m := by
      unfold enough
      refine Finset.sum_nonneg fun d _ => ?_
      cases run O m (List.ofFn d) <;> simp [onRun]
    have : (1 : ℝ) ≤ 4 ^ m := one_le_pow₀ (by norm_num)
    simp only [pow_zero, mul_one]
    linarith
  | succ N ih =>
    cases m with
    | zero => rw [enough_zero]; simp
    | succ m =>
      rw [enough_succ k]
      have h1 := ih (m + 1)
      have h2 := ih m
      have h3 : (0 : ℝ) ≤ 4 ^ m * (2 ^ 87) ^ N := by positivity
      rw [pow_succ (4 : ℝ) m, mul_right_comm] at h1
      rw [pow_succ (2 ^ 88 : ℝ) N, pow_succ (2 ^ 87 : ℝ) N, pow_succ (4 : ℝ) m]
      generalize enough O N (m + 1) = x at *
      generalize enough O N m = y at *
      generalize ((2 : ℝ) ^ 88) ^ N = u at *
      rw [show (4 : ℝ) ^ m * 4 * ((2 ^ 87) ^ N * 2 ^ 87) = 4 * 2 ^ 87 * (4 ^ m * (2 ^ 87) ^ N) by ring]
      generalize (4 : ℝ) ^ m * (2 ^ 87) ^ N = w at *
      norm_num
      linarith

theorem returnProb_eq {O : FloatOps} (k : KeyArith O) (n : UInt16) (hn : n.toNat ≤ 4096) (N : Nat) : returnProb O n N = enough O N 8192 / (2 ^ 88) ^ N := by
  unfold returnProb meanDraws enough
  congr 1
  refine Finset.sum_congr rfl fun d _ => ?_
  show onPair _ (attempt O n d) = _
  rw [attempt_run k n hn d]
  cases run O 8192 (List.ofFn d) <;> rfl

/-- C74: `N` draws of 11 bytes suffice for the two polynomials except with probability at most `4^8192 / 2^N`: `16384 + t` draws are too few with
probability at most `2^-t`. -/
theorem C74_draws {O : FloatOps} (k : KeyArith O) (n : UInt16) (hn : n.toNat ≤ 4096) (t : Nat) : 1 - 1 / 2 ^ t ≤ returnProb O n (16384 + t) := by
  rw [returnProb_eq k n hn]
  have h := enough_ge k (16384 + t) 8192
  have e : (4 : ℝ) ^ 8192 * (2 ^ 87) ^ (16384 + t) = (2 ^ 88) ^ (16384 + t) / 2 ^ t := by
    rw [show (4 : ℝ) = 2 ^ 2 by norm_num, ← pow_mul, ← pow_mul, ← pow_mul, ← pow_add, eq_div_iff (by positivity), ← pow_add]
    congr 1
    omega
  rw [e] at h
  have hu : (0 : ℝ) < (2 ^ 88) ^ (16384 + t) := by positivity
  generalize ((2 : ℝ) ^ 88) ^ (16384 + t) = u at *
  rw [le_div_iff₀ hu]
  have : (1 - 1 / 2 ^ t) * u = u - u / 2 ^ t := by ring
  linarith

/-- C74: the number of draws needed is the same at every degree. -/
theorem C74_degree {O : FloatOps} (k : KeyArith O) (n m : UInt16) (hn : n.toNat ≤ 4096) (hm : m.toNat ≤ 4096) (N : Nat) :
    returnProb O n N = returnProb O m N := by
  rw [returnProb_eq k n hn, returnProb_eq k m hm]

/-! ### The law of the pair -/

theorem expect_zero (S : Finset Int) (p : Int → ℝ) (m : Nat) (φ : List Int → ℝ) (h : ∀ l, l.length = m → (∀ z ∈ l, z ∈ S) → φ l = 0) :
    expect S p m φ = 0 := by
  rw [expect_congr S p m φ (fun _ => 0 * 0) (by simpa using h), expect_smul, zero_mul]

/-- The probability of a list of independent integers is the product of the probabilities. -/
theorem expect_single (S : Finset Int) (p : Int → ℝ) (hp : ∀ z, z ∉ S → p z = 0) (l0 : List Int) :
    expect S p l0.length (fun l => if l = l0 then 1 else 0) = (l0.map p).prod := by
  induction l0 with
  | nil => simp [expect]
  | cons a l0 ih =>
    rw [List.length_cons, expect, List.map_cons, List.prod_cons]
    have e : ∀ z ∈ S, p z * expect S p l0.length (fun l => if z :: l = a :: l0 then 1 else 0) = if z = a then p a * (l0.map p).prod else 0 := by
      intro z _
      by_cases hz : z = a
      · subst hz
        simp only [List.cons.injEq, true_and]
        rw [ih, if_pos trivial]
      · rw [if_neg hz, expect_zero, mul_zero]
        intro l _ _
        rw [if_neg]
        simp [hz]
    rw [Finset.sum_congr rfl e, Finset.sum_ite_eq']
    by_cases ha : a ∈ S
    · rw [if_pos ha]
    · rw [if_neg ha, hp a ha, zero_mul]

theorem coefProb_zero (O : FloatOps) (k : Nat) (c : Int) (hc : c ∉ sums k) : coefProb O k c = 0 := by
  refine expect_zero _ _ _ _ fun l hl hm => if_neg ?_
  rintro rfl
  exact hc (sum_mem_sums k l hl hm)

theorem keyProb_nonneg (O : FloatOps) (z : Int) : 0 ≤ keyProb O z := by unfold keyProb; positivity

theorem coefProb_nonneg (O : FloatOps) (k : Nat) (c : Int) : 0 ≤ coefProb O k c := by
  have := expect_mono samples (keyProb O) (fun z _ => keyProb_nonneg O z) k (fun _ => 0 * 0) (fun l => if l.sum = c then 1 else 0)
    (fun l _ _ => by split <;> norm_num)
  rw [expect_smul, zero_mul] at this
  exact this

theorem ofInt_eq_iff (K : Nat) (hK : K ≤ 1024) (l : List Int) (hl : ∀ z ∈ l, z ∈ sums K) (f : List Int16) :
    l.map Int16.ofInt = f ↔ l = f.map Int16.toInt := by
  constructor
  · rintro rfl
    rw [List.map_map]
    conv_lhs => rw [← List.map_id l]
    refine List.map_congr_left fun z hz => ?_
    have := hl z hz
    rw [Finset.mem_Icc] at this
    show z = (Int16.ofInt z).toInt
    exact (Int16.toInt_ofInt_of_le (by omega) (by omega)).symm
  · rintro rfl
    rw [List.map_map]
    conv_rhs => rw [← List.map_id f]
    refine List.map_congr_left fun z _ => ?_
    simp

/-- C74: the law of the pair. Among the sources of `N` draws, the fraction on which an iteration of key generation draws the pair `(f, g)` is the
fraction on which it draws any pair at all, times the product over the `2n` coefficients of the probability that `4096/n` samples add up to that
coefficient: the coefficients are independent, and `f` and `g` have the same law. -/
theorem C74_law {O : FloatOps} (k : KeyArith O) (n : UInt16) (h4 : 4 ≤ n.toNat) (hd : n.toNat ∣ 4096) (N : Nat) (f g : List Int16)
    (hf : f.length = n.toNat) (hg : g.length = n.toNat) :
    ({d : Fin N → Draw | attempt O n d = .ok (f, g)}.ncard : ℝ) / (2 ^ 88) ^ N =
      returnProb O n N * ((f.map fun c => coefProb O (4096 / n.toNat) c.toInt).prod * (g.map fun c => coefProb O (4096 / n.toNat) c.toInt).prod) := by
  classical
  have hn : n.toNat ≤ 4096 := Nat.le_of_dvd (by norm_num) hd
  have hK : 4096 / n.toNat ≤ 1024 := by
    rw [Nat.div_le_iff_le_mul_add_pred (by omega)]
    omega
  have h := mean_attempt k n hn hd N fun f' g' => (if f' = f then 1 else 0) * (if g' = g then 1 else 0)
  have e : meanDraws N (fun d => onPair (fun f' g' => (if f' = f then 1 else 0) * (if g' = g then 1 else 0)) (attempt O n d)) =
      ({d : Fin N → Draw | attempt O n d = .ok (f, g)}.ncard : ℝ) / (2 ^ 88) ^ N := by
    unfold meanDraws
    congr 1
    have : ∀ d : Fin N → Draw, onPair (fun f' g' => (if f' = f then 1 else 0) * (if g' = g then 1 else 0)) (attempt O n d) =
        if attempt O n d = .ok (f, g) then 1 else 0 := by
      intro d
      rcases attempt O n d with ⟨f', g'⟩ | _ | _
      · simp only [onPair, Go.ok.injEq, Prod.mk.injEq]
        by_cases h1 : f' = f <;> by_cases h2 : g' = g <;> simp [h1, h2]
      · simp [onPair]
      · simp [onPair]
    simp_rw [this]
    rw [← Finset.sum_filter, Finset.sum_const, nsmul_eq_mul, mul_one, ← Set.ncard_coe_finset]
    congr 2
    ext d
    simp
  rw [← e, h]
  congr 1
  have one : ∀ f : List Int16, f.length = n.toNat → expect (sums (4096 / n.toNat)) (coefProb O (4096 / n.toNat)) n.toNat
      (fun l => if l.map Int16.ofInt = f then 1 else 0) = (f.map fun c => coefProb O (4096 / n.toNat) c.toInt).prod := by
    intro f hf
    have := expect_single (sums (4096 / n.toNat)) (coefProb O (4096 / n.toNat)) (coefProb_zero O _) (f.map Int16.toInt)
    rw [List.length_map, hf, List.map_map] at this
    rw [show (fun c => coefProb O (4096 / n.toNat) c.toInt) = (coefProb O (4096 / n.toNat)) ∘ Int16.toInt from rfl, ← this]
    refine expect_congr _ _ _ _ _ fun l _ hl => ?_
    simp only [ofInt_eq_iff _ hK l hl f]
  simp_rw [expect_smul]
  rw [one g hg]
  simp_rw [mul_comm _ (g.map fun c => coefProb O (4096 / n.toNat) c.toInt).prod]
  rw [expect_smul, one f hf, mul_comm]

/-! ### Moments -/

/-- The moments of one sample. -/
noncomputable def moment (O : FloatOps) (j : Nat) : ℝ := ∑ z ∈ samples, keyProb O z * (z : ℝ) ^ j

theorem moment_eq {O : FloatOps} (k : KeyArith O) (j : Nat) : moment O j =
    ((∑ z0 ∈ Finset.range 19, ((baseCount z0 * (128 * acceptBytes (keyShift 0 z0)) : Nat) : Int) * (-(z0 : Int)) ^ j +
      ∑ z0 ∈ Finset.range 19, ((baseCount z0 * (128 * acceptBytes (keyShift 1 z0)) : Nat) : Int) * ((z0 : Int) + 1) ^ j : Int) : ℝ) / keyTotal O := by
  have h0 : ∀ z0 ∈ Finset.range 19, (keyHits O (-(z0 : Int))).ncard = baseCount z0 * (128 * acceptBytes (keyShift 0 z0)) := by
    intro z0 hz
    have := C60_key k 0 z0 (by omega) (by rw [Finset.mem_range] at hz; omega)
    simpa using this
  have h1 : ∀ z0 ∈ Finset.range 19, (keyHits O ((z0 : Int) + 1)).ncard = baseCount z0 * (128 * acceptBytes (keyShift 1 z0)) := by
    intro z0 hz
    have := C60_key k 1 z0 (by omega) (by rw [Finset.mem_range] at hz; omega)
    rw [show ((1 : Nat) : Int) + (2 * ((1 : Nat) : Int) - 1) * z0 = z0 + 1 by push_cast; ring] at this
    exact this
  have hs : Finset.Icc (-18 : Int) 19 = (Finset.range 19).image (fun z : Nat => -(z : Int)) ∪ (Finset.range 19).image (fun z : Nat => (z : Int) + 1) := by
    decide +kernel
  unfold moment keyProb
  generalize (keyTotal O : ℝ) = T
  have e : ∀ z ∈ samples, ((keyHits O z).ncard : ℝ) / T * (z : ℝ) ^ j = (((((keyHits O z).ncard : Int) * z ^ j : Int)) : ℝ) / T := by
    intro z _
    push_cast
    ring
  rw [Finset.sum_congr rfl e, ← Finset.sum_div, ← Int.cast_sum, samples, hs, Finset.sum_union (by decide +kernel),
    Finset.sum_image (by intro a _ b _ h; simpa using h), Finset.sum_image (by intro a _ b _ h; simpa using h)]
  have g0 : ∀ z0 ∈ Finset.range 19, ((keyHits O (-(z0 : Int))).ncard : Int) * (-(z0 : Int)) ^ j =
      ((baseCount z0 * (128 * acceptBytes (keyShift 0 z0)) : Nat) : Int) * (-(z0 : Int)) ^ j := fun z0 hz => by rw [h0 z0 hz]
  have g1 : ∀ z0 ∈ Finset.range 19, ((keyHits O ((z0 : Int) + 1)).ncard : Int) * ((z0 : Int) + 1) ^ j =
      ((baseCount z0 * (128 * acceptBytes (keyShift 1 z0)) : Nat) : Int) * ((z0 : Int) + 1) ^ j := fun z0 hz => by rw [h1 z0 hz]
  rw [Finset.sum_congr rfl g0, Finset.sum_congr rfl g1]

theorem moment_zero {O : FloatOps} (k : KeyArith O) : moment O 0 = 1 := by
  unfold moment
  simp only [pow_zero, mul_one]
  exact C60_terminates k

theorem moment_one {O : FloatOps} (k : KeyArith O) : moment O 1 = -1530666292031944717070464 / 230839121479129981686078720 := by
  rw [moment_eq k, keyTotal_eq k, show (∑ z0 ∈ Finset.range 19, ((baseCount z0 * (128 * acceptBytes (keyShift 0 z0)) : Nat) : Int) * (-(z0 : Int)) ^ 1 +
      ∑ z0 ∈ Finset.range 19, ((baseCount z0 * (128 * acceptBytes (keyShift 1 z0)) : Nat) : Int) * ((z0 : Int) + 1) ^ 1) =
      -1530666292031944717070464 by decide +kernel]
  norm_num

theorem moment_two {O : FloatOps} (k : KeyArith O) : moment O 2 = 510225072365466589989755776 / 230839121479129981686078720 := by
  rw [moment_eq k, keyTotal_eq k, show (∑ z0 ∈ Finset.range 19, ((baseCount z0 * (128 * acceptBytes (keyShift 0 z0)) : Nat) : Int) * (-(z0 : Int)) ^ 2 +
      ∑ z0 ∈ Finset.range 19, ((baseCount z0 * (128 * acceptBytes (keyShift 1 z0)) : Nat) : Int) * ((z0 : Int) + 1) ^ 2) =
      510225072365466589989755776 by decide +kernel]
  norm_num

/-- The moments of a coefficient. -/
noncomputable def coefMoment (O : FloatOps) (k j : Nat) : ℝ := ∑ c ∈ sums k, coefProb O k c * (c : ℝ) ^ j

theorem coefMoment_eq (O : FloatOps) (k j : Nat) : coefMoment O k j = expect samples (keyProb O) k fun l => (l.sum : ℝ) ^ j := by
  have := expect_blocks O k 1 fun l => ((l.headD 0 : Int) : ℝ) ^ j
  unfold coefMoment
  rw [one_mul] at this
  simp only [expect, List.headD_cons] at this
  rw [← this]
  refine expect_congr _ _ _ _ _ fun l hl _ => ?_
  rw [blockSums, List.headD_cons, ← hl, List.take_length]

theorem coefMoment_zero (O : FloatOps) (j : Nat) : coefMoment O 0 j = 0 ^ j := by
  rw [coefMoment_eq]
  simp [expect]

theorem coefMoment_succ (O : FloatOps) (k j : Nat) : coefMoment O (k + 1) j =
    ∑ i ∈ Finset.range (j + 1), moment O i * coefMoment O k (j - i) * (j.choose i : ℝ) := by
  rw [coefMoment_eq, expect]
  have e : ∀ z ∈ samples, keyProb O z * expect samples (keyProb O) k (fun l => (((z :: l).sum : Int) : ℝ) ^ j) =
      ∑ i ∈ Finset.range (j + 1), keyProb O z * (z : ℝ) ^ i * coefMoment O k (j - i) * (j.choose i : ℝ) := by
    intro z _
    have e1 : ∀ l : List Int, (((z :: l).sum : Int) : ℝ) ^ j = ∑ i ∈ Finset.range (j + 1), ((z : ℝ) ^ i * (j.choose i : ℝ)) * (l.sum : ℝ) ^ (j - i) := by
      intro l
      rw [List.sum_cons]
      push_cast
      rw [add_pow]
      exact Finset.sum_congr rfl fun i _ => by ring
    simp_rw [e1]
    rw [expect_sum, Finset.mul_sum]
    refine Finset.sum_congr rfl fun i _ => ?_
    rw [expect_smul, coefMoment_eq]
    ring
  rw [Finset.sum_congr rfl e, Finset.sum_comm]
  refine Finset.sum_congr rfl fun i _ => ?_
  unfold moment
  rw [Finset.sum_mul, Finset.sum_mul]

theorem coefMoment_nought {O : FloatOps} (ka : KeyArith O) (k : Nat) : coefMoment O k 0 = 1 := by
  rw [coefMoment_eq]
  simp only [pow_zero]
  exact expect_const _ _ (C60_terminates ka) k 1

theorem coefMoment_one {O : FloatOps} (ka : KeyArith O) (k : Nat) : coefMoment O k 1 = k * moment O 1 := by
  induction k with
  | zero => rw [coefMoment_zero]; simp
  | succ k ih =>
    rw [coefMoment_succ]
    simp only [Finset.sum_range_succ, Finset.sum_range_zero, Nat.sub_zero, Nat.sub_self]
    rw [ih, moment_zero ka, coefMoment_nought ka]
    norm_num [Nat.choose]
    push_cast
    ring

theorem coefMoment_two {O : FloatOps} (ka : KeyArith O) (k : Nat) : coefMoment O k 2 = k * moment O 2 + k * (k - 1) * moment O 1 ^ 2 := by
  induction k with
  | zero => rw [coefMoment_zero]; simp
  | succ k ih =>
    rw [coefMoment_succ]
    simp only [Finset.sum_range_succ, Finset.sum_range_zero, Nat.sub_zero, Nat.sub_self, Nat.reduceSub]
    rw [ih, moment_zero ka, coefMoment_nought ka, coefMoment_one ka]
    norm_num [Nat.choose]
    push_cast
    ring

end Falcon
