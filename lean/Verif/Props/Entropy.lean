import Verif.Lemmas.Peak
import Verif.Props.Effort
/-!
# Generated keys cannot be guessed (C92)
-/

namespace Falcon
open Spec Polynomial

/-- Degrees and the probability of the most likely coefficient, rounded up, in units of `10^-9`. -/
def peakTable : List (UInt16 × Nat) := [(4, 8385419), (8, 11857743), (16, 16768606), (32, 23713208), (64, 33508100), (128, 47385182),
  (256, 66972032), (512, 94563509), (1024, 133214303)]

/-- C92: no value of a coefficient of `f` or `g` is more likely than the entry of the table. -/
theorem C92_coefficient {O : FloatOps} (k : KeyArith O) (n : UInt16) (v : Nat) (hv : (n, v) ∈ peakTable) (c : Int) :
    coefProb O (4096 / n.toNat) c ≤ v / 10 ^ 9 := by
  simp only [peakTable, List.mem_cons, Prod.mk.injEq, List.not_mem_nil, or_false] at hv
  rcases hv with ⟨rfl, rfl⟩ | ⟨rfl, rfl⟩ | ⟨rfl, rfl⟩ | ⟨rfl, rfl⟩ | ⟨rfl, rfl⟩ | ⟨rfl, rfl⟩ | ⟨rfl, rfl⟩ | ⟨rfl, rfl⟩ | ⟨rfl, rfl⟩
  · exact peak_law k _ _ _ peak_4 c
  · exact peak_law k _ _ _ peak_8 c
  · exact peak_law k _ _ _ peak_16 c
  · exact peak_law k _ _ _ peak_32 c
  · exact peak_law k _ _ _ peak_64 c
  · exact peak_law k _ _ _ peak_128 c
  · exact peak_law k _ _ _ peak_256 c
  · exact peak_law k _ _ _ peak_512 c
  · exact peak_law k _ _ _ peak_1024 c

/-- C92: the table is exact to `10^-9`. -/
theorem C92_sharp {O : FloatOps} (k : KeyArith O) (n : UInt16) (v : Nat) (hv : (n, v) ∈ peakTable) :
    ∃ c : Int, (v - 1 : ℝ) / 10 ^ 9 ≤ coefProb O (4096 / n.toNat) c := by
  simp only [peakTable, List.mem_cons, Prod.mk.injEq, List.not_mem_nil, or_false] at hv
  have e : ∀ v : Nat, 1 ≤ v → ((v - 1 : Nat) : ℝ) = (v : ℝ) - 1 := fun v h => by rw [Nat.cast_sub h, Nat.cast_one]
  rcases hv with ⟨rfl, rfl⟩ | ⟨rfl, rfl⟩ | ⟨rfl, rfl⟩ | ⟨rfl, rfl⟩ | ⟨rfl, rfl⟩ | ⟨rfl, rfl⟩ | ⟨rfl, rfl⟩ | ⟨rfl, rfl⟩ | ⟨rfl, rfl⟩ <;> rw [← e _ (by norm_num)]
  · exact ⟨_, top_law k _ _ _ top_4⟩
  · exact ⟨_, top_law k _ _ _ top_8⟩
  · exact ⟨_, top_law k _ _ _ top_16⟩
  · exact ⟨_, top_law k _ _ _ top_32⟩
  · exact ⟨_, top_law k _ _ _ top_64⟩
  · exact ⟨_, top_law k _ _ _ top_128⟩
  · exact ⟨_, top_law k _ _ _ top_256⟩
  · exact ⟨_, top_law k _ _ _ top_512⟩
  · exact ⟨_, top_law k _ _ _ top_1024⟩

theorem peakTable_degree : ∀ e ∈ peakTable, 4 ≤ e.1.toNat ∧ e.1.toNat ∣ 4096 ∧ e.2 ≤ 10 ^ 9 := by decide

theorem prod_peak {O : FloatOps} (k : KeyArith O) (n : UInt16) (v : Nat) (hv : (n, v) ∈ peakTable) (l : List Int) :
    (l.map (coefProb O (4096 / n.toNat))).prod ≤ (v / 10 ^ 9 : ℝ) ^ l.length := by
  induction l with
  | nil => simp
  | cons a l ih =>
    rw [List.map_cons, List.prod_cons, List.length_cons, pow_succ']
    exact mul_le_mul (C92_coefficient k n v hv a) ih (List.prod_nonneg (by simp only [List.mem_map]; rintro x ⟨y, -, rfl⟩; exact coefProb_nonneg O _ y)) (by positivity)

open Classical in
/-- 1 if the proposition holds, else 0. -/
noncomputable def ind (p : Prop) : ℝ := if p then 1 else 0

/-- If at most one list satisfies `R`, its probability is at most the power of the peak. -/
theorem expect_unique {O : FloatOps} (k : KeyArith O) (n : UInt16) (v : Nat) (hv : (n, v) ∈ peakTable) (m : Nat) (R : List Int → Prop)
    (hR : ∀ l l' : List Int, l.length = m → l'.length = m → (∀ z ∈ l, z ∈ sums (4096 / n.toNat)) → (∀ z ∈ l', z ∈ sums (4096 / n.toNat)) → R l → R l' → l = l') :
    expect (sums (4096 / n.toNat)) (coefProb O (4096 / n.toNat)) m (fun l => ind (R l)) ≤ (v / 10 ^ 9 : ℝ) ^ m := by
  by_cases h : ∃ l0 : List Int, l0.length = m ∧ (∀ z ∈ l0, z ∈ sums (4096 / n.toNat)) ∧ R l0
  · obtain ⟨l0, rfl, hz, h0⟩ := h
    rw [expect_congr _ _ _ _ (fun l => if l = l0 then 1 else 0), expect_single _ _ (coefProb_zero O _)]
    · exact prod_peak k n v hv l0
    · intro l hl hm
      unfold ind
      congr 1
      exact propext ⟨fun h => hR l l0 hl rfl hm hz h h0, fun h => h ▸ h0⟩
  · rw [expect_zero]
    · positivity
    · intro l hl hm
      exact if_neg fun hr => h ⟨l, hl, hm, hr⟩

/-- The samples give a pair of polynomials that satisfies `P`. -/
def givesPair (n : Nat) (P : List Int16 → List Int16 → Prop) (l : List Int) : Prop :=
  P ((blockSums (4096 / n) n (l.take 4096)).map Int16.ofInt) ((blockSums (4096 / n) n (l.drop 4096)).map Int16.ofInt)

theorem expect_pair {O : FloatOps} (k : KeyArith O) (n : UInt16) (hn : n.toNat ≤ 4096) (hd : n.toNat ∣ 4096) (P : List Int16 → List Int16 → Prop) :
    expect samples (keyProb O) 8192 (fun l => ind (givesPair n.toNat P l)) =
      expect (sums (4096 / n.toNat)) (coefProb O (4096 / n.toNat)) n.toNat fun f =>
        expect (sums (4096 / n.toNat)) (coefProb O (4096 / n.toNat)) n.toNat fun g => ind (P (f.map Int16.ofInt) (g.map Int16.ofInt)) := by
  have h0 : 0 < returnProb O n (16384 + 1) := lt_of_lt_of_le (by norm_num) (C74_draws k n hn 1)
  have h1 := mean_attempt k n hn hd (16384 + 1) fun f g => ind (P f g)
  have e : ∀ d : Fin (16384 + 1) → Draw, onPair (fun f g => ind (P f g)) (attempt O n d) =
      onRun (fun l => ind (givesPair n.toNat P l)) (run O 8192 (List.ofFn d)) := by
    intro d
    rw [attempt_run k n hn d]
    cases run O 8192 (List.ofFn d) <;> rfl
  unfold meanDraws at h1
  simp_rw [e] at h1
  rw [sum_run k, mul_div_right_comm, ← returnProb_eq k n hn] at h1
  exact mul_left_cancel₀ h0.ne' h1

/-- If key generation returns a pair with the property `P`, one of its candidates has it. -/
theorem NtruGen_pair {O : FloatOps} (k : KeyArith O) (n : UInt16) (hn4 : n.toNat ≤ 4096) (P : List Int16 → List Int16 → Prop) (rand : Rand) (fuel : Nat)
    (ds : List Draw) (pos : Nat) (hf : ds.length < fuel) (hr : ∀ i, rand (pos + i) = ds[i]?) (q : Quad) (pos' : Nat)
    (h : NtruGen O rand fuel n pos = .ok (q, pos')) (hP : P q.f q.g) (t : Nat) (ht : pos' < pos + 8192 * (t + 1)) : within O (givesPair n.toNat P) t ds := by
  induction fuel generalizing ds pos t with
  | zero => omega
  | succ fuel ih =>
    obtain ⟨m, a, b, ha, g1, g2⟩ := NtruGen_last O n (fuel + 1) rand pos pos' q h
    have c1 := GenPoly_count O m n rand a b _ g1
    have c2 := GenPoly_count O m n rand b pos' _ g2
    cases t with
    | zero => omega
    | succ t =>
      rw [NtruGen] at h
      obtain ⟨⟨f, p⟩, e1, h⟩ := Go.bind_eq_ok.1 h
      obtain ⟨⟨g, p2⟩, e2, h⟩ := Go.bind_eq_ok.1 h
      obtain ⟨norm, e3, h⟩ := Go.bind_eq_ok.1 h
      rw [GenPoly_run k n hn4 rand ds (fuel + 1) pos hf hr] at e1
      rcases hrun : run O 4096 ds with _ | ⟨l, rest⟩
      · rw [hrun] at e1; simp at e1
      · rw [hrun] at e1
        simp only [Go.ok.injEq, Prod.mk.injEq] at e1
        obtain ⟨hl, used, hu⟩ := run_length _ _ _ _ _ hrun
        have us := run_used _ _ _ _ _ hrun
        have hlen : ds.length = used.length + rest.length := by rw [hu, List.length_append]
        have hr1 : ∀ i, rand (p + i) = rest[i]? := by
          intro i
          rw [← e1.2, show pos + (ds.length - rest.length) + i = pos + (used.length + i) by omega, hr, hu,
            List.getElem?_append_right (by omega)]
          congr 1
          omega
        rw [GenPoly_run k n hn4 rand rest (fuel + 1) p (by omega) hr1] at e2
        rcases hrun2 : run O 4096 rest with _ | ⟨l2, rest2⟩
        · rw [hrun2] at e2; simp at e2
        · rw [hrun2] at e2
          simp only [Go.ok.injEq, Prod.mk.injEq] at e2
          obtain ⟨hl2, used2, hu2⟩ := run_length _ _ _ _ _ hrun2
          have us2 := run_used _ _ _ _ _ hrun2
          have hlen2 : rest.length = used2.length + rest2.length := by rw [hu2, List.length_append]
          have hr2 : ∀ i, rand (p2 + i) = rest2[i]? := by
            intro i
            rw [← e2.2, show p + (rest.length - rest2.length) + i = p + (used2.length + i) by omega, hr1, hu2,
              List.getElem?_append_right (by omega)]
            congr 1
            omega
          have hw : run O 8192 ds = some (l ++ l2, rest2) := by
            rw [show 8192 = 4096 + 4096 from rfl, run_split, hrun, Option.bind_some, hrun2]
            rfl
          rw [within, hw]
          have again : NtruGen O rand fuel n p2 = .ok (q, pos') → givesPair n.toNat P (l ++ l2) ∨ within O (givesPair n.toNat P) t rest2 := by
            intro h
            right
            have q1 := e1.2
            have q2 := e2.2
            have hp2 : pos + 8192 ≤ p2 := by omega
            refine ih rest2 p2 (by omega) hr2 h t ?_
            rw [Nat.mul_succ] at ht
            generalize 8192 * (t + 1) = w at ht ⊢
            omega
          split at h
          · exact again h
          · obtain ⟨t', e4, h⟩ := Go.bind_eq_ok.1 h
            split at h
            · exact again h
            · obtain ⟨r, e5, h⟩ := Go.bind_eq_ok.1 h
              cases r with
              | none => exact again h
              | some r =>
                left
                simp only [Go.pure_eq, Go.ok.injEq, Prod.mk.injEq] at h
                unfold givesPair
                rw [List.take_left' hl, List.drop_left' hl, e1.1, e2.1]
                rw [← h.1] at hP
                exact hP

/-- The sources on which `GeneratePrivateKey` returns, after fewer than `8192 (t + 1)` draws, that is with at most `t` candidates, a key with the property `P`. -/
def returnsKey (O : FloatOps) (n : UInt16) (P : List Int16 → List Int16 → Prop) (t N : Nat) : Set (Fin N → Draw) :=
  {d | ∃ fuel key pos, GeneratePrivateKey O (source d) fuel n 0 = .ok (.ok (key, pos)) ∧ pos < 8192 * (t + 1) ∧ P key.f key.g}

open Classical in
/-- If a candidate has the property with probability at most `p`, a key of at most `t` candidates has it with probability at most `1 - (1 - p)^t`. -/
theorem returnsKey_geom {O : FloatOps} (k : KeyArith O) (n : UInt16) (hn : n.toNat ≤ 4096) (hd : n.toNat ∣ 4096) (P : List Int16 → List Int16 → Prop) (p : ℝ)
    (p0 : 0 ≤ p) (p1 : p ≤ 1) (hp : (expect (sums (4096 / n.toNat)) (coefProb O (4096 / n.toNat)) n.toNat fun f =>
        expect (sums (4096 / n.toNat)) (coefProb O (4096 / n.toNat)) n.toNat fun g => ind (P (f.map Int16.ofInt) (g.map Int16.ofInt))) ≤ p) (t N : Nat) :
    ((returnsKey O n P t N).ncard : ℝ) / (2 ^ 88) ^ N ≤ 1 - (1 - p) ^ t := by
  rw [← expect_pair k n hn hd P] at hp
  rw [div_le_iff₀ (by positivity)]
  refine le_trans ?_ (within_le k (givesPair n.toNat P) p p0 p1 hp t N)
  have e : ((returnsKey O n P t N).ncard : ℝ) = ∑ d : Fin N → Draw, if d ∈ returnsKey O n P t N then 1 else 0 := by
    rw [← Finset.sum_filter, Finset.sum_const, nsmul_eq_mul, mul_one, ← Set.ncard_coe_finset]
    congr 2
    ext d
    simp
  rw [e]
  refine Finset.sum_le_sum fun d _ => ?_
  by_cases h : d ∈ returnsKey O n P t N
  · rw [if_pos h, if_pos]
    obtain ⟨fuel, key, pos, h, hp, hP⟩ := h
    rw [← (C72_outcome O fuel (fuel + (N + 1)) (by omega)).1 (source d) n 0 (by rw [h]; simp)] at h
    unfold GeneratePrivateKey at h
    split at h
    · simp at h
    · simp only [Go.bind_eq_ok, Prod.exists, Go.pure_eq, Go.ok.injEq, Except.ok.injEq, Prod.mk.injEq] at h
      obtain ⟨q, p, hq, rfl, rfl⟩ := h
      refine NtruGen_pair k n hn P (source d) (fuel + (N + 1)) (List.ofFn d) 0 (by rw [List.length_ofFn]; omega) ?_ q p hq hP t (by rw [Nat.zero_add]; exact hp)
      intro i
      rw [Nat.zero_add, List.getElem?_ofFn]
      rfl
  · rw [if_neg h]
    split <;> norm_num

/-- If a candidate has the property with probability at most `p`, a key of at most `t` candidates has it with probability at most `t p`. -/
theorem returnsKey_le {O : FloatOps} (k : KeyArith O) (n : UInt16) (hn : n.toNat ≤ 4096) (hd : n.toNat ∣ 4096) (P : List Int16 → List Int16 → Prop) (p : ℝ)
    (p0 : 0 ≤ p) (p1 : p ≤ 1) (hp : (expect (sums (4096 / n.toNat)) (coefProb O (4096 / n.toNat)) n.toNat fun f =>
        expect (sums (4096 / n.toNat)) (coefProb O (4096 / n.toNat)) n.toNat fun g => ind (P (f.map Int16.ofInt) (g.map Int16.ofInt))) ≤ p) (t N : Nat) :
    ((returnsKey O n P t N).ncard : ℝ) / (2 ^ 88) ^ N ≤ t * p := by
  refine (returnsKey_geom k n hn hd P p p0 p1 hp t N).trans ?_
  have := one_add_mul_le_pow (show (-2 : ℝ) ≤ -p by linarith) t
  rw [← sub_eq_add_neg] at this
  linarith

/-- C92: the probability that `GeneratePrivateKey` with at most `t` candidates returns a key with given `f` and `g` is at most `t (v / 10^9)^(2n)`. -/
theorem C92_private {O : FloatOps} (k : KeyArith O) (n : UInt16) (v : Nat) (hv : (n, v) ∈ peakTable) (f g : List Int16) (t N : Nat) :
    ((returnsKey O n (fun f' g' => f' = f ∧ g' = g) t N).ncard : ℝ) / (2 ^ 88) ^ N ≤ t * (v / 10 ^ 9 : ℝ) ^ (2 * n.toNat) := by
  classical
  obtain ⟨h4, hd, hv1⟩ := peakTable_degree _ hv
  have hn : n.toNat ≤ 4096 := Nat.le_of_dvd (by norm_num) hd
  have hK : 4096 / n.toNat ≤ 1024 := by
    rw [Nat.div_le_iff_le_mul_add_pred (by simp only at h4; omega)]
    simp only at h4
    omega
  have b1 : (v / 10 ^ 9 : ℝ) ≤ 1 := by
    rw [div_le_one (by norm_num)]
    exact_mod_cast hv1
  refine returnsKey_le k n hn hd _ _ (by positivity) (pow_le_one₀ (by positivity) b1) ?_ t N
  rw [two_mul, pow_add]
  have key : ∀ f : List Int16, expect (sums (4096 / n.toNat)) (coefProb O (4096 / n.toNat)) n.toNat (fun l => ind (l.map Int16.ofInt = f)) ≤
      (v / 10 ^ 9 : ℝ) ^ n.toNat := by
    intro f
    refine expect_unique k n v hv _ _ fun l l' _ _ hl hl' h h' => ?_
    rw [(ofInt_eq_iff _ hK l hl f).1 h, (ofInt_eq_iff _ hK l' hl' f).1 h']
  have e : ∀ a b : List Int, ind (a.map Int16.ofInt = f ∧ b.map Int16.ofInt = g) =
      ind (a.map Int16.ofInt = f) * ind (b.map Int16.ofInt = g) := by
    intro a b
    unfold ind
    split_ifs <;> simp_all
  simp_rw [e, expect_smul, mul_comm _ (expect _ _ _ _), expect_smul]
  refine mul_le_mul (key g) (key f) ?_ (by positivity)
  rw [show (0 : ℝ) = expect (sums (4096 / n.toNat)) (coefProb O (4096 / n.toNat)) n.toNat fun _ => 0 * 0 by rw [expect_smul, zero_mul]]
  exact expect_mono _ _ (fun z _ => coefProb_nonneg O _ z) _ _ _ fun l _ _ => by unfold ind; split <;> norm_num

/-- C92: the probability that the public key of the generated key is `h` is at most `t (v / 10^9)^n`, at degrees from 16 on. -/
theorem C92_public {O : FloatOps} (k : KeyArith O) (n : UInt16) (v : Nat) (hv : (n, v) ∈ peakTable) (hn16 : 16 ≤ n.toNat) (h : List Int16) (t N : Nat) :
    (({d | ∃ fuel key pos, GeneratePrivateKey O (source d) fuel n 0 = .ok (.ok (key, pos)) ∧ pos < 8192 * (t + 1) ∧
      GetPublicKey key = .ok ⟨n, h⟩} : Set (Fin N → Draw)).ncard : ℝ) / (2 ^ 88) ^ N ≤ t * (v / 10 ^ 9 : ℝ) ^ n.toNat := by
  classical
  obtain ⟨h4, hd, hv1⟩ := peakTable_degree _ hv
  simp only at h4 hd hv1
  have hn : n.toNat ≤ 4096 := Nat.le_of_dvd (by norm_num) hd
  have hK : 4096 / n.toNat ≤ 256 := by
    rw [Nat.div_le_iff_le_mul_add_pred (by omega)]
    omega
  have b1 : (v / 10 ^ 9 : ℝ) ≤ 1 := by
    rw [div_le_one (by norm_num)]
    exact_mod_cast hv1
  have main := returnsKey_le k n hn hd (fun f g => f.length = n.toNat ∧ g.length = n.toNat ∧ (X ^ n.toNat + 1 : Zq[X]) ∣ polyQ h * polyQ f - polyQ g)
    ((v / 10 ^ 9 : ℝ) ^ n.toNat) (by positivity) (pow_le_one₀ (by positivity) b1) ?_ t N
  · refine le_trans (div_le_div_of_nonneg_right ?_ (by positivity)) main
    norm_cast
    refine Set.ncard_le_ncard ?_ (Set.toFinite _)
    rintro d ⟨fuel, key, pos, e, hp, he⟩
    refine ⟨fuel, key, pos, e, hp, ?_⟩
    obtain ⟨-, h', e', -, -, hdiv⟩ := C43_public_key O (source d) fuel n 0 key pos e
    obtain ⟨-, -, hq⟩ := GeneratePrivateKey_ok O (source d) fuel n 0 key pos e
    obtain ⟨-, -, -, -, -, lf, lg, -⟩ := NtruGen_ok O (source d) fuel n 0 _ pos hq
    rw [he, Go.ok.injEq, PublicKey.mk.injEq] at e'
    rw [← e'.2] at hdiv
    exact ⟨lf, lg, hdiv⟩
  · have inner : ∀ f : List Int, expect (sums (4096 / n.toNat)) (coefProb O (4096 / n.toNat)) n.toNat (fun g =>
        ind ((f.map Int16.ofInt).length = n.toNat ∧ (g.map Int16.ofInt).length = n.toNat ∧
          (X ^ n.toNat + 1 : Zq[X]) ∣ polyQ h * polyQ (f.map Int16.ofInt) - polyQ (g.map Int16.ofInt))) ≤ (v / 10 ^ 9 : ℝ) ^ n.toNat := by
      intro f
      refine expect_unique k n v hv _ _ fun l l' hl hl' hz hz' hR hR' => ?_
      have hdiv := dvd_sub hR'.2.2 hR.2.2
      rw [show polyQ h * polyQ (f.map Int16.ofInt) - polyQ (l'.map Int16.ofInt) - (polyQ h * polyQ (f.map Int16.ofInt) - polyQ (l.map Int16.ofInt)) =
        polyQ (l.map Int16.ofInt) - polyQ (l'.map Int16.ofInt) by ring] at hdiv
      have d1 := polyQ_degree (l.map Int16.ofInt)
      have d2 := polyQ_degree (l'.map Int16.ofInt)
      rw [List.length_map, hl] at d1
      rw [List.length_map, hl'] at d2
      have hdeg : (X ^ n.toNat + 1 : Zq[X]).degree = (n.toNat : Nat) := by
        have := degree_X_pow_add_C (by omega : 0 < n.toNat) (1 : Zq)
        simpa using this
      have h0 := eq_zero_of_dvd_of_degree_lt hdiv (lt_of_le_of_lt (degree_sub_le _ _) (by rw [hdeg]; exact max_lt d1 d2))
      have hmap := poly_injective (by simp [hl, hl']) (sub_eq_zero.1 h0)
      apply List.ext_getElem (hl.trans hl'.symm)
      intro i i1 i2
      have hi := congrArg (fun l => l[i]?) hmap
      simp only [List.map_map, List.getElem?_map, List.getElem?_eq_getElem i1, List.getElem?_eq_getElem i2, Option.map_some, Option.some.injEq, Function.comp] at hi
      have r1 := hz _ (List.getElem_mem i1)
      have r2 := hz' _ (List.getElem_mem i2)
      rw [Finset.mem_Icc] at r1 r2
      generalize l[i] = a at *
      generalize l'[i] = b at *
      have hKz : ((4096 / n.toNat : Nat) : Int) ≤ 256 := by exact_mod_cast hK
      unfold zq at hi
      rw [Int16.toInt_ofInt, Int16.toInt_ofInt, Int.bmod_eq_of_le (by norm_num [Int16.size]; omega) (by norm_num [Int16.size]; omega),
        Int.bmod_eq_of_le (by norm_num [Int16.size]; omega) (by norm_num [Int16.size]; omega), ZMod.intCast_eq_intCast_iff] at hi
      unfold Int.ModEq at hi
      push_cast at hi
      omega
    refine le_trans (expect_mono _ _ (fun z _ => coefProb_nonneg O _ z) _ _ (fun _ => (v / 10 ^ 9 : ℝ) ^ n.toNat) fun f _ _ => inner f) (le_of_eq ?_)
    exact expect_const _ _ (coefProb_sum k _) _ _

/-- C92: two independent runs, of which the first makes at most `t` candidates, return keys with the same public key with probability at most `t (v / 10^9)^n`. -/
theorem C92_collision {O : FloatOps} (k : KeyArith O) (n : UInt16) (v : Nat) (hv : (n, v) ∈ peakTable) (hn16 : 16 ≤ n.toNat) (t N M : Nat) :
    (({d | ∃ fuel fuel' key key' pos pos', GeneratePrivateKey O (source d.1) fuel n 0 = .ok (.ok (key, pos)) ∧ pos < 8192 * (t + 1) ∧
      GeneratePrivateKey O (source d.2) fuel' n 0 = .ok (.ok (key', pos')) ∧ GetPublicKey key = GetPublicKey key'} :
        Set ((Fin N → Draw) × (Fin M → Draw))).ncard : ℝ) / ((2 ^ 88) ^ N * (2 ^ 88) ^ M) ≤ t * (v / 10 ^ 9 : ℝ) ^ n.toNat := by
  classical
  have hc : ∀ M, Fintype.card (Fin M → Draw) = (2 ^ 88) ^ M := fun M => by
    rw [Fintype.card_fun, Fintype.card_fin, ← Nat.card_eq_fintype_card (α := Draw), card_draw]
  set S := ({d | ∃ fuel fuel' key key' pos pos', GeneratePrivateKey O (source d.1) fuel n 0 = .ok (.ok (key, pos)) ∧ pos < 8192 * (t + 1) ∧
      GeneratePrivateKey O (source d.2) fuel' n 0 = .ok (.ok (key', pos')) ∧ GetPublicKey key = GetPublicKey key'} :
        Set ((Fin N → Draw) × (Fin M → Draw))) with hS
  have slice : ∀ d' : Fin M → Draw, (({d | (d, d') ∈ S} : Set (Fin N → Draw)).ncard : ℝ) ≤ t * (v / 10 ^ 9 : ℝ) ^ n.toNat * (2 ^ 88) ^ N := by
    intro d'
    by_cases hk : ∃ fuel' key' pos', GeneratePrivateKey O (source d') fuel' n 0 = .ok (.ok (key', pos'))
    · obtain ⟨fuel', key', pos', e'⟩ := hk
      obtain ⟨-, h, eh, -⟩ := C43_public_key O (source d') fuel' n 0 key' pos' e'
      have := C92_public k n v hv hn16 h t N
      rw [div_le_iff₀ (by positivity)] at this
      refine le_trans ?_ this
      norm_cast
      refine Set.ncard_le_ncard ?_ (Set.toFinite _)
      rintro d ⟨a, a', key, key2, pos, pos2, e1, hp, e2, e3⟩
      refine ⟨a, key, pos, e1, hp, ?_⟩
      have w1 := (C72_outcome O a' (max a' fuel') (le_max_left _ _)).1 (source d') n 0 (by rw [e2]; simp)
      have w2 := (C72_outcome O fuel' (max a' fuel') (le_max_right _ _)).1 (source d') n 0 (by rw [e']; simp)
      rw [w1, e2, e'] at w2
      simp only [Go.ok.injEq, Except.ok.injEq, Prod.mk.injEq] at w2
      rw [e3, w2.1, eh]
    · have : ({d | (d, d') ∈ S} : Set (Fin N → Draw)) = ∅ := by
        ext d
        rw [Set.mem_empty_iff_false, iff_false]
        rintro ⟨-, a', -, key2, -, pos2, -, -, e2, -⟩
        exact hk ⟨a', key2, pos2, e2⟩
      rw [this, Set.ncard_empty, Nat.cast_zero]
      positivity
  have sum : (S.ncard : ℝ) = ∑ d' : Fin M → Draw, (({d | (d, d') ∈ S} : Set (Fin N → Draw)).ncard : ℝ) := by
    have e : ∀ {α : Type} [Fintype α] (T : Set α), (T.ncard : ℝ) = ∑ x : α, if x ∈ T then (1 : ℝ) else 0 := by
      intro α _ T
      rw [← Finset.sum_filter, Finset.sum_const, nsmul_eq_mul, mul_one, ← Set.ncard_coe_finset]
      congr 2
      ext d
      simp
    rw [e S, Fintype.sum_prod_type_right]
    exact Finset.sum_congr rfl fun d' _ => by rw [e]; rfl
  rw [div_le_iff₀ (by positivity), sum]
  refine (Finset.sum_le_sum fun d' _ => slice d').trans (le_of_eq ?_)
  rw [Finset.sum_const, Finset.card_univ, hc, nsmul_eq_mul]
  push_cast
  ring

/-- C92 in bits, for the two degrees of Falcon and IEEE arithmetic: each private key has probability at most `t 2^-3484` (degree 512) or `t 2^-5955` (degree 1024),
each public key `t 2^-1742` or `t 2^-2977`. -/
theorem C92_bits (f g h : List Int16) (t N : Nat) :
    ((returnsKey ieeeOps 512 (fun f' g' => f' = f ∧ g' = g) t N).ncard : ℝ) / (2 ^ 88) ^ N ≤ t / 2 ^ 3484 ∧
    ((returnsKey ieeeOps 1024 (fun f' g' => f' = f ∧ g' = g) t N).ncard : ℝ) / (2 ^ 88) ^ N ≤ t / 2 ^ 5955 ∧
    (({d | ∃ fuel key pos, GeneratePrivateKey ieeeOps (source d) fuel 512 0 = .ok (.ok (key, pos)) ∧ pos < 8192 * (t + 1) ∧
      GetPublicKey key = .ok ⟨512, h⟩} : Set (Fin N → Draw)).ncard : ℝ) / (2 ^ 88) ^ N ≤ t / 2 ^ 1742 ∧
    (({d | ∃ fuel key pos, GeneratePrivateKey ieeeOps (source d) fuel 1024 0 = .ok (.ok (key, pos)) ∧ pos < 8192 * (t + 1) ∧
      GetPublicKey key = .ok ⟨1024, h⟩} : Set (Fin N → Draw)).ncard : ℝ) / (2 ^ 88) ^ N ≤ t / 2 ^ 2977 := by
  have num : ∀ v m b : Nat, v ^ m * 2 ^ b ≤ (10 ^ 9) ^ m → (t : ℝ) * (v / 10 ^ 9 : ℝ) ^ m ≤ t / 2 ^ b := by
    intro v m b hb
    rw [div_eq_mul_inv (t : ℝ)]
    refine mul_le_mul_of_nonneg_left ?_ (by positivity)
    rw [div_pow, ← one_div, div_le_div_iff₀ (by positivity) (by positivity), one_mul]
    exact_mod_cast hb
  refine ⟨(C92_private key_ieee 512 94563509 (by decide) f g t N).trans (num _ (2 * 512) _ (by decide +kernel)),
    (C92_private key_ieee 1024 133214303 (by decide) f g t N).trans (num _ (2 * 1024) _ (by decide +kernel)),
    (C92_public key_ieee 512 94563509 (by decide) (by decide) h t N).trans (num _ 512 _ (by decide +kernel)),
    (C92_public key_ieee 1024 133214303 (by decide) (by decide) h t N).trans (num _ 1024 _ (by decide +kernel))⟩

/-- The constant term 0 at degree 512 has probability about 0.0945635. -/
example : (94563508 : ℝ) / 10 ^ 9 ≤ coefProb ieeeOps 8 0 ∧ coefProb ieeeOps 8 0 ≤ 94563509 / 10 ^ 9 := by
  refine ⟨?_, by simpa using C92_coefficient key_ieee 512 94563509 (by decide) 0⟩
  have := top_law key_ieee _ _ _ top_512
  simpa using this

/-- With a million candidates each private key of degree 512 still has probability below `2^-3464`. -/
example (f g : List Int16) (N : Nat) :
    ((returnsKey ieeeOps 512 (fun f' g' => f' = f ∧ g' = g) 1000000 N).ncard : ℝ) / (2 ^ 88) ^ N ≤ 1 / 2 ^ 3464 := by
  refine ((C92_bits f g [] 1000000 N).1).trans ?_
  rw [div_le_div_iff₀ (by positivity) (by positivity), one_mul]
  exact_mod_cast (by decide +kernel : 1000000 * 2 ^ 3464 ≤ 2 ^ 3484)

end Falcon
