import Verif.Lemmas.NormCount2
import Verif.Props.GsFloat
import Verif.Props.NoPanic
/-!
# The size of the candidates of key generation (C75)

`NtruGen` rejects a pair whose Gram-Schmidt norm exceeds `1.17^2 q`. The deviation `1.43300980528773 = 1.17 sqrt(q / 8192)` of the samples is
chosen for this bound: with it the expected squared norm of `(f, g)` would be exactly `1.17^2 q = 16822.4`. The sampler draws from a wider law
(C60), so that the expected squared norm is above 18106 and most candidates are rejected.
-/

namespace Falcon
open Spec

/-- The squared norm of a pair. -/
noncomputable def pairNorm (f g : List Int16) : ℝ := sqNorm (realI (int16ToBigInt f)) + sqNorm (realI (int16ToBigInt g))

theorem expect_linear (S : Finset Int) (p : Int → ℝ) (hp : ∑ z ∈ S, p z = 1) (h : Int → ℝ) (m : Nat) :
    expect S p m (fun l => (l.map h).sum) = m * ∑ z ∈ S, p z * h z := by
  induction m with
  | zero => simp [expect]
  | succ m ih =>
    rw [expect]
    have e : ∀ z ∈ S, p z * expect S p m (fun l => ((z :: l).map h).sum) = p z * h z + p z * (m * ∑ z ∈ S, p z * h z) := by
      intro z _
      simp only [List.map_cons, List.sum_cons]
      rw [expect_add, ih, expect_const S p hp]
      ring
    rw [Finset.sum_congr rfl e, Finset.sum_add_distrib, ← Finset.sum_mul, hp]
    push_cast
    ring

theorem coefProb_sum {O : FloatOps} (ka : KeyArith O) (k : Nat) : ∑ c ∈ sums k, coefProb O k c = 1 := by
  have := coefMoment_nought ka k
  unfold coefMoment at this
  simpa using this

/-- The squares of the coefficients of the two polynomials. -/
theorem pairNorm_ofInt (K : Nat) (hK : K ≤ 1024) (f g : List Int) (hf : ∀ z ∈ f, z ∈ sums K) (hg : ∀ z ∈ g, z ∈ sums K) :
    pairNorm (f.map Int16.ofInt) (g.map Int16.ofInt) = ((f ++ g).map fun c : Int => (c : ℝ) ^ 2).sum := by
  have e : ∀ l : List Int, (∀ z ∈ l, z ∈ sums K) → int16ToBigInt (l.map Int16.ofInt) = l := by
    intro l hl
    exact ((ofInt_eq_iff K hK l hl _).1 rfl).symm
  unfold pairNorm sqNorm realI
  rw [e f hf, e g hg, List.map_append, List.sum_append, List.map_map, List.map_map]
  rfl

theorem mean_pairNorm {O : FloatOps} (ka : KeyArith O) (n : UInt16) (h4 : 4 ≤ n.toNat) (hd : n.toNat ∣ 4096) (N : Nat) (φ : ℝ → ℝ) :
    meanDraws N (fun d => onPair (fun f g => φ (pairNorm f g)) (attempt O n d)) = returnProb O n N *
      expect (sums (4096 / n.toNat)) (coefProb O (4096 / n.toNat)) (2 * n.toNat) fun l => φ (l.map fun c : Int => (c : ℝ) ^ 2).sum := by
  have hn : n.toNat ≤ 4096 := Nat.le_of_dvd (by norm_num) hd
  have hK : 4096 / n.toNat ≤ 1024 := by
    rw [Nat.div_le_iff_le_mul_add_pred (by omega)]
    omega
  rw [mean_attempt ka n hn hd N fun f g => φ (pairNorm f g), two_mul, expect_append]
  congr 1
  refine expect_congr _ _ _ _ _ fun f _ hf => ?_
  refine expect_congr _ _ _ _ _ fun g _ hg => ?_
  rw [pairNorm_ofInt _ hK f g hf hg]

/-- C75: the expected squared norm of a candidate, at each degree that divides 4096, is `8192 (m2 + (4096/n - 1) m1^2)` where `m1`, `m2` are the
moments of one sample. -/
theorem C75_mean {O : FloatOps} (ka : KeyArith O) (n : UInt16) (h4 : 4 ≤ n.toNat) (hd : n.toNat ∣ 4096) (N : Nat) :
    meanDraws N (fun d => onPair pairNorm (attempt O n d)) =
      returnProb O n N * (8192 * (moment O 2 + ((4096 / n.toNat : Nat) - 1) * moment O 1 ^ 2)) := by
  have := mean_pairNorm ka n h4 hd N id
  simp only [id] at this
  rw [this, expect_linear _ _ (coefProb_sum ka _)]
  congr 1
  have h2 := coefMoment_two ka (4096 / n.toNat)
  unfold coefMoment at h2
  rw [h2]
  have hk : ((n.toNat : Nat) : ℝ) * ((4096 / n.toNat : Nat) : ℝ) = 4096 := by
    rw [← Nat.cast_mul, Nat.mul_div_cancel' hd]
    norm_num
  generalize ((4096 / n.toNat : Nat) : ℝ) = K at *
  push_cast
  linear_combination (2 * (moment O 2 + (K - 1) * moment O 1 ^ 2)) * hk

/-- C75 is violated: the deviation is chosen so that a candidate has expected squared norm `1.17^2 q`, less than 16823; it is above 18106. -/
theorem C75_violated_mean {O : FloatOps} (ka : KeyArith O) (n : UInt16) (h4 : 4 ≤ n.toNat) (hd : n.toNat ∣ 4096) (N : Nat) :
    18106 * returnProb O n N ≤ meanDraws N (fun d => onPair pairNorm (attempt O n d)) ∧ (1.17 : ℝ) ^ 2 * (Q : ℝ) < 16823 := by
  refine ⟨?_, by norm_num [Q]⟩
  rw [C75_mean ka n h4 hd N, mul_comm]
  have hn : n.toNat ≤ 4096 := Nat.le_of_dvd (by norm_num) hd
  have h0 : 0 ≤ returnProb O n N := by
    unfold returnProb meanDraws
    refine div_nonneg (Finset.sum_nonneg fun d _ => ?_) (by positivity)
    rcases attempt O n d with ⟨f, g⟩ | _ | _ <;> simp [onPair]
  refine mul_le_mul_of_nonneg_left ?_ h0
  have hk : (1 : ℝ) ≤ ((4096 / n.toNat : Nat) : ℝ) := by
    exact_mod_cast Nat.div_pos hn (by omega)
  have h1 : 0 ≤ (((4096 / n.toNat : Nat) : ℝ) - 1) * moment O 1 ^ 2 := mul_nonneg (by linarith) (sq_nonneg _)
  have h2 : (18106 : ℝ) ≤ 8192 * moment O 2 := by
    rw [moment_two ka]
    norm_num
  linarith

/-- For each degree the probability, in units of 10^-9 and rounded down, that a candidate has squared norm at most 16822. -/
def normTable : List (UInt16 × Nat) := [(4, 493641414), (8, 454394229), (16, 410367128), (32, 357193280), (64, 291224228), (128, 211638674),
  (256, 125067700), (512, 50269385), (1024, 9546614)]

theorem accept_check {O : FloatOps} (ka : KeyArith O) (n : UInt16) (h4 : 4 ≤ n.toNat) (hd : n.toNat ∣ 4096) (s1 s2 : List Nat) (m cap v : Nat)
    (e1 : 4096 / n.toNat = 2 ^ s1.length) (e2 : 2 * n.toNat = 2 ^ s2.length) (h : normCheck s1 s2 m cap v (v + 1) = true) (N : Nat) :
    returnProb O n N * (v / 10 ^ 9) ≤ meanDraws N (fun d => onPair (fun f g => if pairNorm f g ≤ 16822 then 1 else 0) (attempt O n d)) ∧
    meanDraws N (fun d => onPair (fun f g => if pairNorm f g ≤ 16822 then 1 else 0) (attempt O n d)) ≤ returnProb O n N * ((v + 1) / 10 ^ 9) := by
  have h0 : 0 ≤ returnProb O n N := by
    unfold returnProb meanDraws
    refine div_nonneg (Finset.sum_nonneg fun d _ => ?_) (by positivity)
    rcases attempt O n d with ⟨f, g⟩ | _ | _ <;> simp [onPair]
  rw [mean_pairNorm ka n h4 hd N fun x => if x ≤ 16822 then 1 else 0, e1, e2]
  have e : (fun l : List Int => if (l.map fun c : Int => (c : ℝ) ^ 2).sum ≤ 16822 then (1 : ℝ) else 0) =
      fun l => if (l.map fun c : Int => (c ^ 2).toNat).sum ≤ 16822 then 1 else 0 := by
    funext l
    have : (l.map fun c : Int => (c : ℝ) ^ 2).sum = (((l.map fun c : Int => (c ^ 2).toNat).sum : Nat) : ℝ) := by
      induction l with
      | nil => simp
      | cons c l ih =>
        rw [List.map_cons, List.map_cons, List.sum_cons, List.sum_cons, ih, Nat.cast_add]
        congr 1
        have h2 : (((c ^ 2).toNat : Nat) : Int) = c ^ 2 := Int.toNat_of_nonneg (sq_nonneg c)
        exact_mod_cast h2.symm
    rw [this]
    congr 1
    exact propext (by norm_cast)
  rw [e]
  obtain ⟨a, b⟩ := normCheck_law ka s1 s2 m cap v (v + 1) h
  push_cast at b
  exact ⟨mul_le_mul_of_nonneg_left a h0, mul_le_mul_of_nonneg_left b h0⟩

/-- C75: the probability that a candidate has squared norm at most 16822, to nine decimal places, at each degree from 4 to 1024: 0.493641414 at
degree 4, 0.050269385 at degree 512, 0.009546614 at degree 1024. -/
theorem C75_accept {O : FloatOps} (ka : KeyArith O) (n : UInt16) (v : Nat) (hv : (n, v) ∈ normTable) (N : Nat) :
    returnProb O n N * (v / 10 ^ 9) ≤ meanDraws N (fun d => onPair (fun f g => if pairNorm f g ≤ 16822 then 1 else 0) (attempt O n d)) ∧
    meanDraws N (fun d => onPair (fun f g => if pairNorm f g ≤ 16822 then 1 else 0) (attempt O n d)) ≤ returnProb O n N * ((v + 1) / 10 ^ 9) := by
  simp only [normTable, List.mem_cons, Prod.mk.injEq, List.not_mem_nil, or_false] at hv
  rcases hv with h | h | h | h | h | h | h | h | h <;> obtain ⟨rfl, rfl⟩ := h
  · exact accept_check ka 4 (by decide) (by decide) _ _ _ _ _ (by decide) (by decide) norm_4 N
  · exact accept_check ka 8 (by decide) (by decide) _ _ _ _ _ (by decide) (by decide) norm_8 N
  · exact accept_check ka 16 (by decide) (by decide) _ _ _ _ _ (by decide) (by decide) norm_16 N
  · exact accept_check ka 32 (by decide) (by decide) _ _ _ _ _ (by decide) (by decide) norm_32 N
  · exact accept_check ka 64 (by decide) (by decide) _ _ _ _ _ (by decide) (by decide) norm_64 N
  · exact accept_check ka 128 (by decide) (by decide) _ _ _ _ _ (by decide) (by decide) norm_128 N
  · exact accept_check ka 256 (by decide) (by decide) _ _ _ _ _ (by decide) (by decide) norm_256 N
  · exact accept_check ka 512 (by decide) (by decide) _ _ _ _ _ (by decide) (by decide) norm_512 N
  · exact accept_check ka 1024 (by decide) (by decide) _ _ _ _ _ (by decide) (by decide) norm_1024 N

/-- C75: at degree 1024 fewer than one candidate in a hundred, at degree 512 about one in twenty have squared norm at most 16822. -/
theorem C75_violated_short {O : FloatOps} (ka : KeyArith O) (N : Nat) :
    meanDraws N (fun d => onPair (fun f g => if pairNorm f g ≤ 16822 then 1 else 0) (attempt O 1024 d)) ≤ 9547 / 10 ^ 6 * returnProb O 1024 N ∧
    meanDraws N (fun d => onPair (fun f g => if pairNorm f g ≤ 16822 then 1 else 0) (attempt O 512 d)) ≤ 5027 / 10 ^ 5 * returnProb O 512 N := by
  have h0 : ∀ n : UInt16, 0 ≤ returnProb O n N := by
    intro n
    unfold returnProb meanDraws
    refine div_nonneg (Finset.sum_nonneg fun d _ => ?_) (by positivity)
    rcases attempt O n d with ⟨f, g⟩ | _ | _ <;> simp [onPair]
  constructor
  · refine (C75_accept ka 1024 9546614 (by decide) N).2.trans ?_
    rw [mul_comm]
    exact mul_le_mul_of_nonneg_right (by norm_num) (h0 _)
  · refine (C75_accept ka 512 50269385 (by decide) N).2.trans ?_
    rw [mul_comm]
    exact mul_le_mul_of_nonneg_right (by norm_num) (h0 _)

/-- The sources on which the first candidate of `NtruGen` passes the check of the norm (ntrugen.go:314), in IEEE arithmetic. -/
def passes (n : UInt16) (N : Nat) : Set (Fin N → Draw) :=
  {d | ∃ f g norm, attempt ieeeOps n d = .ok (f, g) ∧
    GsNorm ieeeOps (Int16ToFloat64 ieeeOps f) (Int16ToFloat64 ieeeOps g) (ieeeOps.ofInt Q) = .ok norm ∧
    ieeeOps.lt (ieeeOps.mul (ieeeOps.pow2 (ieeeOps.lit 1.17)) (ieeeOps.ofInt Q)) norm = false}

theorem passes_le (j : Nat) (hj : j ≤ 10) (n : UInt16) (hn : n.toNat = 2 ^ j) (N : Nat) : ((passes n N).ncard : ℝ) / (2 ^ 88) ^ N ≤
    meanDraws N (fun d => onPair (fun f g => if pairNorm f g ≤ 16822 then 1 else 0) (attempt ieeeOps n d)) := by
  classical
  have hn4 : n.toNat ≤ 4096 := by
    rw [hn]
    exact (Nat.pow_le_pow_right (by decide) hj).trans (by decide)
  have e : ((passes n N).ncard : ℝ) = ∑ d : Fin N → Draw, if d ∈ passes n N then 1 else 0 := by
    rw [← Finset.sum_filter, Finset.sum_const, nsmul_eq_mul, mul_one, ← Set.ncard_coe_finset]
    congr 2
    ext d
    simp
  unfold meanDraws
  rw [e]
  refine div_le_div_of_nonneg_right (Finset.sum_le_sum fun d _ => ?_) (by positivity)
  split
  · rename_i hd
    obtain ⟨f, g, norm, h1, h2, h3⟩ := hd
    have hlen : f.length = 2 ^ j ∧ g.length = 2 ^ j := by
      rw [attempt_run key_ieee n hn4 d] at h1
      rcases hr : run ieeeOps 8192 (List.ofFn d) with _ | ⟨l, rest⟩
      · rw [hr] at h1; simp at h1
      · rw [hr] at h1
        simp only [Go.ok.injEq, Prod.mk.injEq] at h1
        rw [← h1.1, ← h1.2, List.length_map, List.length_map, blockSums_length, blockSums_length, hn]
        exact ⟨rfl, rfl⟩
    have hsmall : pairNorm f g ≤ 16822 := C68_first j hj f g hlen.1 hlen.2 norm h2 h3
    rw [h1]
    simp only [onPair]
    rw [if_pos hsmall]
  · rcases attempt ieeeOps n d with ⟨f, g⟩ | _ | _
    · simp only [onPair]; split <;> norm_num
    · simp [onPair]
    · simp [onPair]

theorem returnProb_le_one {O : FloatOps} (n : UInt16) (N : Nat) : returnProb O n N ≤ 1 := by
  have hc : Fintype.card Draw = 2 ^ 88 := by rw [← Nat.card_eq_fintype_card, card_draw]
  unfold returnProb meanDraws
  rw [div_le_one (by positivity)]
  calc ∑ d : Fin N → Draw, onPair (fun _ _ => 1) (attempt O n d) ≤ ∑ _d : Fin N → Draw, (1 : ℝ) := by
        refine Finset.sum_le_sum fun d _ => ?_
        rcases attempt O n d with ⟨f, g⟩ | _ | _ <;> simp [onPair]
    _ = (2 ^ 88) ^ N := by
        rw [Finset.sum_const, nsmul_eq_mul, mul_one, Finset.card_univ, Fintype.card_fun, hc, Fintype.card_fin]
        norm_num

theorem normTable_degree : ∀ e ∈ normTable, ∃ j ≤ 10, e.1.toNat = 2 ^ j := by
  decide

/-- C75: in IEEE arithmetic the first candidate of key generation passes the check of the norm with probability at most `(v + 1) / 10^9` for the
entry `v` of the table: less than 0.96 % at degree 1024 and 5.03 % at degree 512, however many random bytes are available. -/
theorem C75_violated_ieee (n : UInt16) (v : Nat) (hv : (n, v) ∈ normTable) (N : Nat) :
    ((passes n N).ncard : ℝ) / (2 ^ 88) ^ N ≤ (v + 1) / 10 ^ 9 := by
  obtain ⟨j, hj, hn⟩ := normTable_degree _ hv
  refine (passes_le j hj n hn N).trans ((C75_accept key_ieee n v hv N).2.trans ?_)
  have h1 := returnProb_le_one (O := ieeeOps) n N
  have h2 : (0 : ℝ) ≤ (v + 1) / 10 ^ 9 := by positivity
  nlinarith

theorem attempt_length {O : FloatOps} (ka : KeyArith O) (n : UInt16) (hn : n.toNat ≤ 4096) {N : Nat} (d : Fin N → Draw) (f g : List Int16)
    (h : attempt O n d = .ok (f, g)) : f.length = n.toNat ∧ g.length = n.toNat := by
  rw [attempt_run ka n hn d] at h
  rcases hr : run O 8192 (List.ofFn d) with _ | ⟨l, rest⟩
  · rw [hr] at h; simp at h
  · rw [hr] at h
    simp only [Go.ok.injEq, Prod.mk.injEq] at h
    rw [← h.1, ← h.2, List.length_map, List.length_map, blockSums_length, blockSums_length]
    exact ⟨rfl, rfl⟩

theorem NtruGen_again (O : FloatOps) (rand : Rand) (fuel : Nat) (n : UInt16) (pos p1 p2 : Nat) (f g : List Int16) (norm : O.F)
    (e1 : GenPoly O rand (fuel + 1) n pos = .ok (f, p1)) (e2 : GenPoly O rand (fuel + 1) n p1 = .ok (g, p2))
    (hn : GsNorm O (Int16ToFloat64 O f) (Int16ToFloat64 O g) (O.ofInt Q) = .ok norm)
    (hlt : O.lt (O.mul (O.pow2 (O.lit 1.17)) (O.ofInt Q)) norm = true) : NtruGen O rand (fuel + 1) n pos = NtruGen O rand fuel n p2 := by
  rw [NtruGen, e1, Go.ok_bind]
  simp only
  rw [e2, Go.ok_bind]
  simp only
  rw [hn, Go.ok_bind, if_pos hlt]

/-- C75: a first candidate that does not pass is thrown away: `NtruGen` goes on with fresh random bytes. -/
theorem C75_discard (j : Nat) (h1 : 1 ≤ j) (hj : j ≤ 10) (n : UInt16) (hn : n.toNat = 2 ^ j) (N : Nat) (d : Fin N → Draw) (f g : List Int16)
    (ha : attempt ieeeOps n d = .ok (f, g)) (hd : d ∉ passes n N) :
    ∃ pos, NtruGen ieeeOps (source d) (N + 1) n 0 = NtruGen ieeeOps (source d) N n pos := by
  have hn4 : n.toNat ≤ 4096 := by
    rw [hn]
    exact (Nat.pow_le_pow_right (by decide) hj).trans (by decide)
  obtain ⟨lf, lg⟩ := attempt_length key_ieee n hn4 d f g ha
  obtain ⟨norm, hnorm⟩ := GsNorm_ok ieeeOps j h1 hj (Int16ToFloat64 ieeeOps f) (Int16ToFloat64 ieeeOps g) (ieeeOps.ofInt Q)
    (by rw [← hn, ← lf]; simp [Int16ToFloat64]) (by rw [← hn, ← lg]; simp [Int16ToFloat64])
  have hlt : ieeeOps.lt (ieeeOps.mul (ieeeOps.pow2 (ieeeOps.lit 1.17)) (ieeeOps.ofInt Q)) norm = true := by
    by_contra hc
    exact hd ⟨f, g, norm, ha, hnorm, by simpa using hc⟩
  unfold attempt at ha
  obtain ⟨⟨f', p1⟩, e1, ha⟩ := Go.bind_eq_ok.1 ha
  obtain ⟨⟨g', p2⟩, e2, ha⟩ := Go.bind_eq_ok.1 ha
  simp only [Go.pure_eq, Go.ok.injEq, Prod.mk.injEq] at ha
  obtain ⟨rfl, rfl⟩ := ha
  refine ⟨p2, ?_⟩
  exact NtruGen_again ieeeOps _ _ _ _ _ _ _ _ _ e1 e2 hnorm hlt

/-- A case: of the sources of 16394 draws, all but one in 1024 let the first iteration of key generation at degree 1024 draw a pair, and at least
99 in 100 of those do not pass. -/
example : 1 - 1 / 2 ^ 10 ≤ returnProb ieeeOps 1024 16394 := C74_draws key_ieee 1024 (by decide) 10

/-- A case: the probability that the polynomials drawn at degree 4 are `(1, 0, 0, 0)` and 0. -/
example (N : Nat) : ({d : Fin N → Draw | attempt ieeeOps 4 d = .ok ([1, 0, 0, 0], [0, 0, 0, 0])}.ncard : ℝ) / (2 ^ 88) ^ N =
    returnProb ieeeOps 4 N * (coefProb ieeeOps 1024 1 * coefProb ieeeOps 1024 0 ^ 7) := by
  have := C74_law key_ieee 4 (by decide) (by decide) N [1, 0, 0, 0] [0, 0, 0, 0] (by decide) (by decide)
  rw [this, show 4096 / (4 : UInt16).toNat = 1024 by decide]
  simp only [List.map_cons, List.map_nil, List.prod_cons, List.prod_nil, show (1 : Int16).toInt = 1 by decide, show (0 : Int16).toInt = 0 by decide]
  ring

end Falcon
