import Verif.Props.NormLaw
import Verif.Props.Determ
/-!
# How many candidates key generation needs (C75)

The candidates are independent, so the bound on the first one (`C75_violated_ieee`) gives a geometric bound on their number, and with it a lower
bound on the random bytes that `GeneratePrivateKey` reads.
-/

namespace Falcon
open Spec

/-- A function of the samples times a function of the draws left over. -/
def onRest (φ : List Int → ℝ) (χ : List Draw → ℝ) : Option (List Int × List Draw) → ℝ
  | none => 0
  | some r => φ r.1 * χ r.2

/-- The draws left over are independent of the samples. -/
theorem sum_rest_gen {O : FloatOps} (k : KeyArith O) (χ : List Draw → ℝ) (N m : Nat) : ∃ c : ℝ, ∀ φ : List Int → ℝ,
    ∑ d : Fin N → Draw, onRest φ χ (run O m (List.ofFn d)) = c * expect samples (keyProb O) m φ := by
  induction N generalizing m with
  | zero =>
    cases m with
    | zero => exact ⟨χ [], fun φ => by simp [run, onRest, expect, mul_comm]⟩
    | succ m => exact ⟨0, fun φ => by simp [run, onRest]⟩
  | succ N ih =>
    cases m with
    | zero =>
      refine ⟨∑ d : Fin (N + 1) → Draw, χ (List.ofFn d), fun φ => ?_⟩
      rw [Finset.sum_mul]
      exact Finset.sum_congr rfl fun d _ => by simp only [run, onRest, expect, mul_comm]
    | succ m =>
      obtain ⟨c1, h1⟩ := ih (m + 1)
      obtain ⟨c2, h2⟩ := ih m
      refine ⟨(misses O (O.ofInt 0) (O.lit 1.43300980528773) (O.sub (O.lit 1.43300980528773) (O.lit 0.001))).ncard * c1 + keyTotal O * c2,
        fun φ => ?_⟩
      have e := sum_draws_succ N fun l => onRest φ χ (run O (m + 1) l)
      rw [e]
      have e2 : ∀ x : Draw, ∑ d : Fin N → Draw, onRest φ χ (run O (m + 1) (x :: List.ofFn d)) =
          (fun o : Option Int => match o with
            | none => c1 * expect samples (keyProb O) (m + 1) φ
            | some z => c2 * expect samples (keyProb O) m fun l => φ (z :: l)) (drawValue O x) := by
        intro x
        simp_rw [run_succ]
        cases drawValue O x with
        | none => exact h1 φ
        | some z =>
          simp only
          rw [← h2]
          refine Finset.sum_congr rfl fun d _ => ?_
          cases run O m (List.ofFn d) <;> rfl
      simp_rw [e2]
      rw [sum_drawValue k fun o : Option Int => match o with
            | none => c1 * expect samples (keyProb O) (m + 1) φ
            | some z => c2 * expect samples (keyProb O) m fun l => φ (z :: l)]
      simp only
      rw [add_mul, mul_assoc]
      congr 1
      rw [expect, Finset.mul_sum]
      refine Finset.sum_congr rfl fun z _ => ?_
      unfold keyProb
      have h0 := keyTotal_ne k
      generalize (keyTotal O : ℝ) = T at h0
      generalize ((keyHits O z).ncard : ℝ) = H
      generalize expect samples _ m _ = X
      field_simp

theorem sum_rest {O : FloatOps} (k : KeyArith O) (χ : List Draw → ℝ) (N m : Nat) (φ : List Int → ℝ) :
    ∑ d : Fin N → Draw, onRest φ χ (run O m (List.ofFn d)) =
      (∑ d : Fin N → Draw, onRest (fun _ => 1) χ (run O m (List.ofFn d))) * expect samples (keyProb O) m φ := by
  obtain ⟨c, h⟩ := sum_rest_gen k χ N m
  rw [h φ, h, expect_const _ _ (C60_terminates k), mul_one]

/-- The draws left over are uniform: a bound on the mean of `χ` over uniform draws holds for them. -/
theorem sum_rest_le {O : FloatOps} (χ : List Draw → ℝ) (B : ℝ) (hB : ∀ r, ∑ d : Fin r → Draw, χ (List.ofFn d) ≤ B * (2 ^ 88) ^ r) (N m : Nat) :
    ∑ d : Fin N → Draw, onRest (fun _ => 1) χ (run O m (List.ofFn d)) ≤ B * enough O N m := by
  induction N generalizing m with
  | zero =>
    cases m with
    | zero =>
      have := hB 0
      simpa [run, onRest, enough, onRun] using this
    | succ m => simp [run, onRest, enough, onRun]
  | succ N ih =>
    cases m with
    | zero =>
      rw [enough_zero]
      refine le_trans (le_of_eq ?_) (hB (N + 1))
      exact Finset.sum_congr rfl fun d _ => by simp [run, onRest]
    | succ m =>
      have e := sum_draws_succ N fun l => onRest (fun _ => 1) χ (run O (m + 1) l)
      have e' := sum_draws_succ N fun l => onRun (fun _ => 1) (run O (m + 1) l)
      unfold enough
      rw [e, e', Finset.mul_sum]
      refine Finset.sum_le_sum fun x _ => ?_
      simp_rw [run_succ]
      cases drawValue O x with
      | none => exact ih (m + 1)
      | some z =>
        refine le_trans (le_of_eq ?_) ((ih m).trans (le_of_eq ?_))
        · refine Finset.sum_congr rfl fun d _ => ?_
          cases run O m (List.ofFn d) <;> rfl
        · unfold enough
          congr 1
          refine Finset.sum_congr rfl fun d _ => ?_
          cases run O m (List.ofFn d) <;> rfl

theorem enough_le (O : FloatOps) (N m : Nat) : enough O N m ≤ (2 ^ 88) ^ N := by
  rw [← enough_zero O N]
  unfold enough
  refine Finset.sum_le_sum fun d _ => ?_
  cases run O m (List.ofFn d) <;> simp [onRun, run]

theorem enough_nonneg (O : FloatOps) (N m : Nat) : 0 ≤ enough O N m := by
  unfold enough
  refine Finset.sum_nonneg fun d _ => ?_
  cases run O m (List.ofFn d) <;> simp [onRun]

/-- Among the first `t` candidates made from the list of draws there is one that satisfies `chk`. -/
def within (O : FloatOps) (chk : List Int → Prop) : Nat → List Draw → Prop
  | 0, _ => False
  | t + 1, ds =>
    match run O 8192 ds with
    | none => False
    | some (l, rest) => chk l ∨ within O chk t rest

open Classical in
/-- Independent candidates: if one passes with probability at most `p`, one of the first `t` passes with probability at most `1 - (1-p)^t`. -/
theorem within_le {O : FloatOps} (k : KeyArith O) (chk : List Int → Prop) (p : ℝ) (p0 : 0 ≤ p) (p1 : p ≤ 1)
    (hp : expect samples (keyProb O) 8192 (fun l => if chk l then 1 else 0) ≤ p) (t N : Nat) :
    ∑ d : Fin N → Draw, (if within O chk t (List.ofFn d) then (1 : ℝ) else 0) ≤ (1 - (1 - p) ^ t) * (2 ^ 88) ^ N := by
  induction t generalizing N with
  | zero => simp [within]
  | succ t ih =>
    have e : ∀ d : Fin N → Draw, (if within O chk (t + 1) (List.ofFn d) then (1 : ℝ) else 0) =
        onRest (fun l => if chk l then 1 else 0) (fun _ => 1) (run O 8192 (List.ofFn d)) +
        onRest (fun l => 1 + (-1) * if chk l then 1 else 0) (fun ds => if within O chk t ds then 1 else 0) (run O 8192 (List.ofFn d)) := by
      intro d
      rw [within]
      rcases run O 8192 (List.ofFn d) with _ | ⟨l, rest⟩
      · simp [onRest]
      · by_cases h1 : chk l <;> by_cases h2 : within O chk t rest <;> simp [onRest, h1, h2]
    simp_rw [e]
    rw [Finset.sum_add_distrib, sum_rest k (fun _ => 1) N 8192 (fun l => if chk l then 1 else 0),
      sum_rest k (fun ds => if within O chk t ds then 1 else 0) N 8192 (fun l => 1 + (-1) * if chk l then 1 else 0)]
    have e1 : ∑ d : Fin N → Draw, onRest (fun _ => 1) (fun _ => 1) (run O 8192 (List.ofFn d)) = enough O N 8192 := by
      unfold enough
      refine Finset.sum_congr rfl fun d _ => ?_
      cases run O 8192 (List.ofFn d) <;> simp [onRest, onRun]
    have e2 := sum_rest_le (O := O) (fun ds => if within O chk t ds then (1 : ℝ) else 0) (1 - (1 - p) ^ t) (fun r => ih r) N 8192
    rw [e1, expect_add, expect_smul, expect_const _ _ (C60_terminates k)]
    have hc0 : 0 ≤ expect samples (keyProb O) 8192 (fun l => if chk l then 1 else 0) := by
      have := expect_mono samples (keyProb O) (fun z _ => keyProb_nonneg O z) 8192 (fun _ => 0 * 0) (fun l => if chk l then 1 else 0)
        (fun l _ _ => by split <;> norm_num)
      rwa [expect_smul, zero_mul] at this
    have hE := enough_le O N 8192
    have hE0 := enough_nonneg O N 8192
    have hw : (1 - p) ^ t ≤ 1 := pow_le_one₀ (by linarith) (by linarith)
    have hw0 : 0 ≤ (1 - p) ^ t := pow_nonneg (by linarith) t
    rw [pow_succ]
    generalize expect samples (keyProb O) 8192 (fun l => if chk l then 1 else 0) = x at *
    generalize ∑ d : Fin N → Draw, onRest (fun _ => 1) (fun ds => if within O chk t ds then (1 : ℝ) else 0) (run O 8192 (List.ofFn d)) = y at *
    generalize enough O N 8192 = E at *
    generalize (1 - p) ^ t = w at *
    generalize ((2 : ℝ) ^ 88) ^ N = U at *
    have a1 : y * (1 + -1 * x) ≤ (1 - w) * E * (1 + -1 * x) := mul_le_mul_of_nonneg_right e2 (by linarith)
    have a2 : E * x + (1 - w) * E * (1 + -1 * x) = E * (1 - w * (1 - x)) := by ring
    have a3 : 1 - w * (1 - x) ≤ 1 - w * (1 - p) := by nlinarith
    have a4 : E * (1 - w * (1 - x)) ≤ E * (1 - w * (1 - p)) := mul_le_mul_of_nonneg_left a3 hE0
    have a5 : E * (1 - w * (1 - p)) ≤ U * (1 - w * (1 - p)) := mul_le_mul_of_nonneg_right hE (by nlinarith)
    linarith

/-! ### Key generation -/

theorem run_used (O : FloatOps) (m : Nat) (ds : List Draw) (l : List Int) (rest : List Draw) (h : run O m ds = some (l, rest)) :
    rest.length + m ≤ ds.length := by
  induction ds generalizing m l with
  | nil =>
    cases m with
    | zero =>
      simp only [run, Option.some.injEq, Prod.mk.injEq] at h
      rw [← h.2]; simp
    | succ m => simp [run] at h
  | cons d ds ih =>
    cases m with
    | zero =>
      simp only [run, Option.some.injEq, Prod.mk.injEq] at h
      rw [← h.2]; simp
    | succ m =>
      rw [run_succ] at h
      cases hd : drawValue O d with
      | none =>
        rw [hd] at h
        have := ih (m + 1) l h
        rw [List.length_cons]
        omega
      | some z =>
        rw [hd] at h
        cases hr : run O m ds with
        | none => rw [hr] at h; simp at h
        | some r =>
          rw [hr] at h
          simp only [Option.map_some, Option.some.injEq, Prod.mk.injEq] at h
          have := ih m r.1 (by rw [hr, ← h.2])
          rw [List.length_cons]
          omega

/-- The samples give a pair of squared norm at most 16822. -/
def shortPair (n : Nat) (l : List Int) : Prop :=
  pairNorm ((blockSums (4096 / n) n (l.take 4096)).map Int16.ofInt) ((blockSums (4096 / n) n (l.drop 4096)).map Int16.ofInt) ≤ 16822

theorem NtruGen_within (j : Nat) (hj : j ≤ 10) (n : UInt16) (hn : n.toNat = 2 ^ j) (rand : Rand) (fuel : Nat) (ds : List Draw) (pos : Nat)
    (hf : ds.length < fuel) (hr : ∀ i, rand (pos + i) = ds[i]?) (q : Quad) (pos' : Nat) (h : NtruGen ieeeOps rand fuel n pos = .ok (q, pos')) (t : Nat)
    (ht : pos' < pos + 8192 * (t + 1)) : within ieeeOps (shortPair n.toNat) t ds := by
  have hn4 : n.toNat ≤ 4096 := by
    rw [hn]
    exact (Nat.pow_le_pow_right (by decide) hj).trans (by decide)
  induction fuel generalizing ds pos t with
  | zero => omega
  | succ fuel ih =>
    obtain ⟨m, a, b, ha, g1, g2⟩ := NtruGen_last ieeeOps n (fuel + 1) rand pos pos' q h
    have c1 := GenPoly_count ieeeOps m n rand a b _ g1
    have c2 := GenPoly_count ieeeOps m n rand b pos' _ g2
    cases t with
    | zero => omega
    | succ t =>
      rw [NtruGen] at h
      obtain ⟨⟨f, p⟩, e1, h⟩ := Go.bind_eq_ok.1 h
      obtain ⟨⟨g, p2⟩, e2, h⟩ := Go.bind_eq_ok.1 h
      obtain ⟨norm, e3, h⟩ := Go.bind_eq_ok.1 h
      rw [GenPoly_run key_ieee n hn4 rand ds (fuel + 1) pos hf hr] at e1
      rcases hrun : run ieeeOps 4096 ds with _ | ⟨l, rest⟩
      · rw [hrun] at e1; simp at e1
      · rw [hrun] at e1
        simp only [Go.ok.injEq, Prod.mk.injEq] at e1
        obtain ⟨hl, used, hu⟩ := run_length _ _ _ _ _ hrun
        have us := run_used _ _ _ _ _ hrun
        have hlen : ds.length = used.length + rest.length := by rw [hu, List.length_append]
        have hr1 : ∀ i, rand (p + i) = rest[i]? := by
          intro i
          rw [← e1.2, show pos + (ds.length - rest.length) + i = pos + (used.length + i) by omega, hr, hu,
            List.getElem?_append_right (by omega)]
          congr 1
          omega
        have e2' := e2
        rw [GenPoly_run key_ieee n hn4 rand rest (fuel + 1) p (by omega) hr1] at e2
        rcases hrun2 : run ieeeOps 4096 rest with _ | ⟨l2, rest2⟩
        · rw [hrun2] at e2; simp at e2
        · rw [hrun2] at e2
          simp only [Go.ok.injEq, Prod.mk.injEq] at e2
          obtain ⟨hl2, used2, hu2⟩ := run_length _ _ _ _ _ hrun2
          have us2 := run_used _ _ _ _ _ hrun2
          have hlen2 : rest.length = used2.length + rest2.length := by rw [hu2, List.length_append]
          have hr2 : ∀ i, rand (p2 + i) = rest2[i]? := by
            intro i
            rw [← e2.2, show p + (rest.length - rest2.length) + i = p + (used2.length + i) by omega, hr1, hu2,
              List.getElem?_append_right (by omega)]
            congr 1
            omega
          have hw : run ieeeOps 8192 ds = some (l ++ l2, rest2) := by
            rw [show 8192 = 4096 + 4096 from rfl, run_split, hrun, Option.bind_some, hrun2]
            rfl
          rw [within, hw]
          by_cases hlt : ieeeOps.lt (ieeeOps.mul (ieeeOps.pow2 (ieeeOps.lit 1.17)) (ieeeOps.ofInt Q)) norm = true
          · right
            rw [if_pos hlt] at h
            have q1 := e1.2
            have q2 := e2.2
            have hp2 : pos + 8192 ≤ p2 := by omega
            refine ih rest2 p2 (by omega) hr2 h t ?_
            rw [Nat.mul_succ] at ht
            generalize 8192 * (t + 1) = w at ht ⊢
            omega
          · left
            have lf : f.length = 2 ^ j := by rw [← e1.1, List.length_map, blockSums_length, hn]
            have lg : g.length = 2 ^ j := by rw [← e2.1, List.length_map, blockSums_length, hn]
            have := C68_first j hj f g lf lg norm e3 (by simpa using hlt)
            unfold shortPair
            rw [List.take_left' hl, List.drop_left' hl, e1.1, e2.1]
            exact this

/-- The sources on which `GeneratePrivateKey` returns a key after fewer than `8192 (t + 1)` draws of 11 bytes. -/
def quick (n : UInt16) (t N : Nat) : Set (Fin N → Draw) :=
  {d | ∃ fuel key pos, GeneratePrivateKey ieeeOps (source d) fuel n 0 = .ok (.ok (key, pos)) ∧ pos < 8192 * (t + 1)}

theorem quick_within (j : Nat) (hj : j ≤ 10) (n : UInt16) (hn : n.toNat = 2 ^ j) (t N : Nat) (d : Fin N → Draw) (h : d ∈ quick n t N) :
    within ieeeOps (shortPair n.toNat) t (List.ofFn d) := by
  obtain ⟨fuel, key, pos, h, hp⟩ := h
  rw [← (C72_outcome ieeeOps fuel (fuel + (N + 1)) (by omega)).1 (source d) n 0 (by rw [h]; simp)] at h
  unfold GeneratePrivateKey at h
  split at h
  · simp at h
  · simp only [Go.bind_eq_ok, Prod.exists, Go.pure_eq, Go.ok.injEq, Except.ok.injEq, Prod.mk.injEq] at h
    obtain ⟨q, p, hq, -, rfl⟩ := h
    refine NtruGen_within j hj n hn (source d) (fuel + (N + 1)) (List.ofFn d) 0 (by rw [List.length_ofFn]; omega) ?_ q p hq t (by rw [Nat.zero_add]; exact hp)
    intro i
    rw [Nat.zero_add, List.getElem?_ofFn]
    rfl

open Classical in
theorem quick_le (j : Nat) (hj : j ≤ 10) (n : UInt16) (hn : n.toNat = 2 ^ j) (hd : n.toNat ∣ 4096) (p : ℝ) (p0 : 0 ≤ p) (p1 : p ≤ 1)
    (hp : ∃ N, 0 < returnProb ieeeOps n N ∧
      meanDraws N (fun d => onPair (fun f g => if pairNorm f g ≤ 16822 then 1 else 0) (attempt ieeeOps n d)) ≤ p * returnProb ieeeOps n N) (t N : Nat) :
    ((quick n t N).ncard : ℝ) / (2 ^ 88) ^ N ≤ 1 - (1 - p) ^ t := by
  have hn4 : n.toNat ≤ 4096 := Nat.le_of_dvd (by norm_num) hd
  have hE : expect samples (keyProb ieeeOps) 8192 (fun l => if shortPair n.toNat l then 1 else 0) ≤ p := by
    obtain ⟨M, hM, hp⟩ := hp
    have e : ∀ d : Fin M → Draw, onPair (fun f g => if pairNorm f g ≤ 16822 then (1 : ℝ) else 0) (attempt ieeeOps n d) =
        onRun (fun l => if shortPair n.toNat l then 1 else 0) (run ieeeOps 8192 (List.ofFn d)) := by
      intro d
      rw [attempt_run key_ieee n hn4 d]
      cases run ieeeOps 8192 (List.ofFn d) <;> rfl
    unfold meanDraws at hp
    simp_rw [e] at hp
    rw [sum_run key_ieee, mul_div_right_comm, ← returnProb_eq key_ieee n hn4, mul_comm p] at hp
    exact le_of_mul_le_mul_left hp hM
  rw [div_le_iff₀ (by positivity)]
  refine le_trans ?_ (within_le key_ieee (shortPair n.toNat) p p0 p1 hE t N)
  have e : ((quick n t N).ncard : ℝ) = ∑ d : Fin N → Draw, if d ∈ quick n t N then 1 else 0 := by
    rw [← Finset.sum_filter, Finset.sum_const, nsmul_eq_mul, mul_one, ← Set.ncard_coe_finset]
    congr 2
    ext d
    simp
  rw [e]
  refine Finset.sum_le_sum fun d _ => ?_
  by_cases h : d ∈ quick n t N
  · rw [if_pos h, if_pos (quick_within j hj n hn t N d h)]
  · rw [if_neg h]
    split <;> norm_num

/-- C75: key generation in IEEE arithmetic needs many random bytes: for the entry `v` of the table at degree `n`, it does not return before it has
read `8192 (t + 1)` draws, or `90112 (t + 1)` bytes, with probability at least `(1 - (v + 1) / 10^9)^t`. -/
theorem C75_violated_effort (n : UInt16) (v : Nat) (hv : (n, v) ∈ normTable) (t N : Nat) :
    ((quick n t N).ncard : ℝ) / (2 ^ 88) ^ N ≤ 1 - (1 - (v + 1) / 10 ^ 9) ^ t := by
  obtain ⟨j, hj, hn⟩ := normTable_degree _ hv
  have hn : n.toNat = 2 ^ j := hn
  have hd : n.toNat ∣ 4096 := by
    rw [hn, show 4096 = 2 ^ 12 from rfl]
    exact pow_dvd_pow 2 (by omega)
  have h1 : (v : ℝ) + 1 ≤ 10 ^ 9 := by
    have : ∀ e ∈ normTable, e.2 + 1 ≤ 10 ^ 9 := by decide
    exact_mod_cast this _ hv
  refine quick_le j hj n hn hd ((v + 1) / 10 ^ 9) (by positivity) (by rw [div_le_one (by positivity)]; exact h1) ⟨16384 + 1, ?_, ?_⟩ t N
  · have := C74_draws key_ieee n (Nat.le_of_dvd (by norm_num) hd) 1
    linarith
  · rw [mul_comm]
    exact (C75_accept key_ieee n v hv _).2

/-- A case: with probability more than one half, key generation at degree 1024 reads at least `73 * 90112` bytes, more than six megabytes. -/
example (N : Nat) : ((quick 1024 72 N).ncard : ℝ) / (2 ^ 88) ^ N < 1 / 2 :=
  lt_of_le_of_lt (C75_violated_effort 1024 9546614 (by decide) 72 N) (by norm_num)

end Falcon
