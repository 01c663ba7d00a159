import Verif.Lemmas.Babai
/-!
# Babai reduction in exact arithmetic (C57)
-/

namespace Falcon
open Spec Polynomial ComplexConjugate

/-- An integer polynomial with real coefficients. -/
def realI (f : List Int) : List ℝ := f.map fun x : Int => (x : ℝ)

theorem adjust_exact (s : Nat) (a : List Int) (h : ∀ v ∈ a, v.natAbs < 2 ^ (53 + s)) :
    adjust exactOps (53 + s) a = realI (a.map fun v : Int => v >>> s) := by
  unfold adjust realI
  rw [List.map_map]
  apply List.map_congr_left
  intro v hv
  have hb : bigInt64 (v >>> (53 + s - 53)) = v >>> s := by
    rw [Nat.add_sub_cancel_left]
    have h1 := h v hv
    rw [pow_add] at h1
    have h2 : 0 < 2 ^ s := Nat.two_pow_pos s
    have hd : v >>> s = v / ((2 ^ s : Nat) : Int) := by rw [Int.shiftRight_eq_div_pow]
    rw [hd]
    generalize (2 : Nat) ^ s = T at h1 h2
    have h5 : v / (T : Int) < 2 ^ 53 := Int.ediv_lt_of_lt_mul (by exact_mod_cast h2) (by omega)
    have h6 : -(2 ^ 53) ≤ v / (T : Int) := by
      rw [Int.le_ediv_iff_mul_le (by exact_mod_cast h2)]
      omega
    generalize v / (T : Int) = u at h5 h6
    unfold bigInt64 i64
    simp only [Int.bmod_def]
    split <;> split <;> omega
  show ((bigInt64 (v >>> (53 + s - 53)) : Int) : ℝ) = _
  rw [hb]
  rfl

/-- C57: in exact arithmetic, when `reduce` returns `(F, G)` for a short `(f, g)`, the pair is size-reduced: with `s` the number of low bits
that the last iteration drops (zero unless some coefficient has more than 45 + s bits), every coefficient of the quotient of
`(F >> s) f* + (G >> s) g*` by `f f* + g g*` is below one half in absolute value. -/
theorem C57_reduced (k : Nat) (h1 : 1 ≤ k) (h2 : k ≤ 10) (f g F G : List Int) (hf : f.length = 2 ^ k) (hg : g.length = 2 ^ k)
    (hF : F.length = 2 ^ k) (hG : G.length = 2 ^ k) (hs : ∀ v ∈ f ++ g, v.natAbs < 2 ^ 48) (h0 : ∃ x ∈ f, x ≠ 0) (fuel : Nat)
    (F' G' : List Int) (h : reduce exactOps fuel f g F G = .ok (F', G')) :
    ∃ (s : Nat) (κ : List ℝ), (s = 0 ∨ ∃ v ∈ F' ++ G', 2 ^ (s + 45) ≤ v.natAbs) ∧ κ.length = 2 ^ k ∧ (∀ x ∈ κ, |x| < 1 / 2) ∧
      (X ^ 2 ^ k + 1 : ℝ[X]) ∣ poly κ * gramPoly (realI f) (realI g) -
        (poly (realI (F'.map fun v : Int => v >>> s)) * poly (adjList (realI f)) + poly (realI (G'.map fun v : Int => v >>> s)) * poly (adjList (realI g))) := by
  obtain ⟨-, hok⟩ := reduce_ok (O := exactOps) k h2 f g hf hg fuel F G hF hG
  obtain ⟨lF', lG', -⟩ := hok F' G' h
  have hlen : ∀ l : List Int, (realI l).length = l.length := fun l => by simp [realI]
  unfold reduce at h
  obtain ⟨size, esz, h⟩ := Go.bind_eq_ok.1 h
  have hsize : size = 53 := by
    obtain ⟨a, _, c⟩ := sizeOf2_spec f g size esz
    rcases c with c | ⟨c, v, hv, hv2⟩
    · exact c
    · have := hs v hv
      have : 2 ^ 48 ≤ 2 ^ (size - 8) := Nat.pow_le_pow_right (by decide) (by omega)
      omega
  subst hsize
  have hsz := sizeOf2_spec f g 53 esz
  have af := adjust_exact 0 f (fun v hv => hsz.2.1 v (List.mem_append_left _ hv))
  have ag := adjust_exact 0 g (fun v hv => hsz.2.1 v (List.mem_append_right _ hv))
  have e0 : ∀ l : List Int, (l.map fun v : Int => v >>> 0) = l := by
    intro l
    conv_rhs => rw [← List.map_id l]
    apply List.map_congr_left
    intro v _
    simp
  rw [e0] at af ag
  have ff := FFT_exact k h1 h2 (realI f) (by rw [hlen, hf])
  have fg := FFT_exact k h1 h2 (realI g) (by rw [hlen, hg])
  rw [show (53 : Nat) = 53 + 0 from rfl, af, ff, Go.ok_bind, ag, fg, Go.ok_bind] at h
  obtain ⟨S, hS, h⟩ := reduceLoop_exit exactOps _ _ _ _ _ _ _ _ _ _ h
  obtain ⟨h53, hup, hlow⟩ := sizeOf2_spec F' G' S hS
  rcases h with h | ⟨q, hq, hz⟩
  · omega
  obtain ⟨s, rfl⟩ : ∃ s, S = 53 + s := ⟨S - 53, by omega⟩
  rw [adjust_exact s F' (fun v hv => hup v (List.mem_append_left _ hv)),
    adjust_exact s G' (fun v hv => hup v (List.mem_append_right _ hv))] at hq
  have hne : ∀ w ∈ rootsC k, evalR (realI f) w ≠ 0 ∨ evalR (realI g) w ≠ 0 := by
    intro w hw
    left
    have := int_eval_ne_zero k f hf h0 w (by rw [rootsC_root k w hw]; ring)
    unfold evalR realI
    rw [List.map_map]
    convert this using 4
    funext x
    simp
  obtain ⟨κ, lκ, hd, hb⟩ := babai_exact k h1 h2 (realI f) (realI g) (realI (F'.map fun v : Int => v >>> s)) (realI (G'.map fun v : Int => v >>> s))
    (by rw [hlen, hf]) (by rw [hlen, hg]) (by rw [hlen, List.length_map, lF']) (by rw [hlen, List.length_map, lG']) hne
  rw [hb, Go.ok.injEq] at hq
  refine ⟨s, κ, ?_, lκ, ?_, hd⟩
  · rcases hlow with c | ⟨c, v, hv, hv2⟩
    · left; omega
    · right
      refine ⟨v, hv, ?_⟩
      rwa [show 53 + s - 8 = s + 45 by omega] at hv2
  · intro x hx
    apply round_zero
    rw [C55_allZeroes] at hz
    apply hz
    rw [← hq]
    exact List.mem_map_of_mem hx

/-- A size-reduced pair is short: its coefficients are bounded by those of `(f, g)` and of the second Gram-Schmidt vector. -/
theorem core_bound (k : Nat) (f g F G κ Ft Gt D : List ℝ) (hf : f.length = 2 ^ k) (hg : g.length = 2 ^ k) (hF : F.length = 2 ^ k)
    (hG : G.length = 2 ^ k) (hκ : κ.length = 2 ^ k) (hFt : Ft.length = 2 ^ k) (hGt : Gt.length = 2 ^ k)
    (hc : IsCoprime (X ^ 2 ^ k + 1 : ℝ[X]) (gramPoly f g)) (K : ℝ) (hle : ∀ x ∈ κ, |x| ≤ K) (B : ℝ) (bF : ∀ x ∈ Ft, |x| ≤ B)
    (bG : ∀ x ∈ Gt, |x| ≤ B)
    (d1 : (X ^ 2 ^ k + 1 : ℝ[X]) ∣ poly κ * gramPoly f g - (poly F * poly (adjList f) + poly G * poly (adjList g)))
    (d2 : (X ^ 2 ^ k + 1 : ℝ[X]) ∣ poly Ft * gramPoly f g - poly (adjList f))
    (d3 : (X ^ 2 ^ k + 1 : ℝ[X]) ∣ poly Gt * gramPoly f g - poly (adjList g))
    (d4 : (X ^ 2 ^ k + 1 : ℝ[X]) ∣ poly f * poly G - poly g * poly F - poly D) :
    (∀ x ∈ F, |x| ≤ K * l1 f + B * l1 D) ∧ (∀ x ∈ G, |x| ≤ K * l1 g + B * l1 D) := by
  have hn : 0 < 2 ^ k := Nat.two_pow_pos k
  obtain ⟨c1, d1⟩ := d1
  obtain ⟨c2, d2⟩ := d2
  obtain ⟨c3, d3⟩ := d3
  obtain ⟨c4, d4⟩ := d4
  have hneg : ∀ l : List ℝ, (∀ x ∈ l, |x| ≤ B) → ∀ x ∈ l.map (fun x : ℝ => -1 * x), |x| ≤ B := by
    intro l hl x hx
    obtain ⟨y, hy, rfl⟩ := List.mem_map.1 hx
    rw [abs_mul, abs_neg, abs_one, one_mul]
    exact hl y hy
  have finish : ∀ (H a b : List ℝ), H.length = 2 ^ k → a.length = 2 ^ k → (∀ x ∈ a, |x| ≤ B) →
      (X ^ 2 ^ k + 1 : ℝ[X]) ∣ gramPoly f g * (poly H - (poly κ * poly b + poly a * poly D)) →
      ∀ x ∈ H, |x| ≤ K * l1 b + B * l1 D := by
    intro H a b hH ha hab hd
    obtain ⟨c, hcc⟩ := hc.dvd_of_dvd_mul_left hd
    obtain ⟨r1, lr1, ⟨e1, hr1⟩, br1⟩ := prod_bound (2 ^ k) hn κ K hκ hle b
    obtain ⟨r2, lr2, ⟨e2, hr2⟩, br2⟩ := prod_bound (2 ^ k) hn a B ha hab D
    have e : H = List.zipWith (fun x y : ℝ => x + y) r1 r2 := by
      apply C50_unique k _ _ hH (by simp [lr1, lr2])
      rw [poly_zipWith_add _ _ (by omega)]
      exact ⟨c + e1 + e2, by linear_combination hcc + hr1 + hr2⟩
    rw [e]
    exact abs_zipWith_add r1 r2 _ _ br1 br2
  constructor
  · apply finish F (Gt.map fun x : ℝ => -1 * x) f hF (by simp [hGt]) (hneg Gt bG)
    rw [poly_smul]
    refine ⟨-c1 * poly f + c3 * poly D - c4 * poly (adjList g), ?_⟩
    simp only [map_neg, map_one]
    unfold gramPoly at d1 d3 ⊢
    linear_combination -poly f * d1 + poly D * d3 - poly (adjList g) * d4
  · apply finish G Ft g hG hFt bF
    refine ⟨-c1 * poly g - c2 * poly D + c4 * poly (adjList f), ?_⟩
    unfold gramPoly at d1 d2 ⊢
    linear_combination -poly g * d1 - poly D * d2 + poly (adjList f) * d4

theorem poly_realI (l : List Int) : poly (realI l) = (poly l).map (Int.castRingHom ℝ) := by
  unfold realI
  induction l with
  | nil => simp
  | cons a l ih => simp [ih]

theorem l1_le_sqNorm (f : List Int) : l1 (realI f) ≤ sqNorm (realI f) := by
  unfold l1 sqNorm realI
  induction f with
  | nil => simp
  | cons a f ih =>
    simp only [List.map_cons, List.sum_cons]
    have : |(a : ℝ)| ≤ (a : ℝ) ^ 2 := by
      have h : |a| ≤ a ^ 2 := by
        rw [← sq_abs]
        rcases eq_or_lt_of_le (abs_nonneg a) with h | h
        · rw [← h]; norm_num
        · nlinarith
      exact_mod_cast h
    linarith

theorem l1_le_length (f : List ℝ) (M : ℝ) (h : ∀ x ∈ f, |x| ≤ M) : l1 f ≤ f.length * M := by
  unfold l1
  induction f with
  | nil => simp
  | cons a f ih =>
    simp only [List.map_cons, List.sum_cons, List.length_cons]
    have h1 := h a List.mem_cons_self
    have h2 := ih fun x hx => h x (List.mem_cons_of_mem _ hx)
    push_cast
    linarith

theorem sq_le_sqNorm (f : List ℝ) (x : ℝ) (hx : x ∈ f) : x ^ 2 ≤ sqNorm f := by
  unfold sqNorm
  apply List.single_le_sum
  · intro y hy
    obtain ⟨z, _, rfl⟩ := List.mem_map.1 hy
    positivity
  · exact List.mem_map_of_mem hx

/-- A constant polynomial, padded to length `n`. -/
theorem poly_const (n : Nat) (hn : 0 < n) (c : ℝ) : ∃ l : List ℝ, l.length = n ∧ poly l = C c ∧ ∀ x ∈ l, |x| ≤ |c| := by
  have hz : ∀ m, poly (List.replicate m (0 : ℝ)) = 0 := by
    intro m
    induction m with
    | zero => rfl
    | succ m ih => rw [List.replicate_succ, poly_cons, ih]; simp
  refine ⟨c :: List.replicate (n - 1) 0, by simp; omega, by rw [poly_cons, hz]; simp, ?_⟩
  intro x hx
  rcases List.mem_cons.1 hx with rfl | hx
  · exact le_refl _
  · rw [List.eq_of_mem_replicate hx]; simp

/-- The determinant after low bits have been dropped. -/
theorem shift_det_l1 (k : Nat) (f g F' G' : List Int) (lF' : F'.length = 2 ^ k) (lG' : G'.length = 2 ^ k)
    (hdetR : (X ^ 2 ^ k + 1 : ℝ[X]) ∣ poly (realI f) * poly (realI G') - poly (realI g) * poly (realI F') - C 12289) (s : Nat) :
    ∃ D : List ℝ, D.length = 2 ^ k ∧ l1 D ≤ 2 ^ k * (12289 + (l1 (realI f) + l1 (realI g))) ∧
      (X ^ 2 ^ k + 1 : ℝ[X]) ∣ poly (realI f) * poly (realI (G'.map fun v : Int => v >>> s)) -
        poly (realI g) * poly (realI (F'.map fun v : Int => v >>> s)) - poly D := by
  have hn0 : 0 < 2 ^ k := Nat.two_pow_pos k
  have hpow : (0 : ℝ) < 2 ^ s := by positivity
  let rem : List Int → List Int := fun l => l.map fun v : Int => v - 2 ^ s * (v >>> s)
  have hrem : ∀ l : List Int, poly (realI l) = C (2 ^ s) * poly (realI (l.map fun v : Int => v >>> s)) + poly (realI (rem l)) := by
    intro l
    show _ = _ + poly (realI (l.map fun v : Int => v - 2 ^ s * (v >>> s)))
    induction l with
    | nil => simp [realI]
    | cons a l ih =>
      simp only [realI, List.map_cons, poly_cons] at ih ⊢
      rw [ih]
      have : ((a : Int) : ℝ) = 2 ^ s * ((a >>> s : Int) : ℝ) + ((a - 2 ^ s * (a >>> s) : Int) : ℝ) := by push_cast; ring
      conv_lhs => rw [this]
      simp only [C_add, C_mul]
      ring
  have hremb : ∀ l : List Int, ∀ x ∈ realI (rem l), |x| ≤ 2 ^ s := by
    intro l x hx
    obtain ⟨y, hy, rfl⟩ := List.mem_map.1 hx
    obtain ⟨z, hz, rfl⟩ := List.mem_map.1 hy
    have e : z - 2 ^ s * (z >>> s) = z % 2 ^ s := by
      rw [Int.shiftRight_eq_div_pow]
      push_cast
      rw [Int.emod_def]
    rw [e]
    have a1 := Int.emod_nonneg z (by positivity : (2 ^ s : Int) ≠ 0)
    have a2 := Int.emod_lt_of_pos z (by positivity : (0 : Int) < 2 ^ s)
    rw [abs_of_nonneg (by exact_mod_cast a1)]
    have : ((z % 2 ^ s : Int) : ℝ) ≤ ((2 ^ s : Int) : ℝ) := by exact_mod_cast a2.le
    simpa using this
  have lrem : ∀ l : List Int, (realI (rem l)).length = l.length := fun l => by simp [realI, rem]
  obtain ⟨p1, lp1, ⟨c1, e1⟩, bp1⟩ := prod_bound (2 ^ k) hn0 (realI (rem G')) (2 ^ s) (by rw [lrem, lG']) (hremb G') (realI f)
  obtain ⟨p2, lp2, ⟨c2, e2⟩, bp2⟩ := prod_bound (2 ^ k) hn0 (realI (rem F')) (2 ^ s) (by rw [lrem, lF']) (hremb F') (realI g)
  obtain ⟨p0, lp0, e0, bp0⟩ := poly_const (2 ^ k) hn0 ((2 ^ s)⁻¹ * 12289)
  have bsc : ∀ (l : List ℝ) (M c : ℝ), |c| = (2 ^ s)⁻¹ → (∀ x ∈ l, |x| ≤ 2 ^ s * M) → ∀ x ∈ l.map (fun x : ℝ => c * x), |x| ≤ M := by
    intro l M c hcs hl x hx
    obtain ⟨y, hy, rfl⟩ := List.mem_map.1 hx
    rw [abs_mul, hcs, inv_mul_le_iff₀ hpow]
    exact hl y hy
  have b1 := bsc p1 _ (-(2 ^ s)⁻¹) (by rw [abs_neg, abs_of_pos (by positivity)]) bp1
  have b2 := bsc p2 _ ((2 ^ s)⁻¹) (abs_of_pos (by positivity)) bp2
  have b0 : ∀ x ∈ p0, |x| ≤ 12289 := by
    intro x hx
    apply (bp0 x hx).trans
    rw [abs_of_pos (by positivity), inv_mul_le_iff₀ hpow]
    have : (1 : ℝ) ≤ 2 ^ s := one_le_pow₀ (by norm_num)
    linarith
  have bD := abs_zipWith_add p0 _ _ _ b0 (abs_zipWith_add _ _ _ _ b1 b2)
  have pD : poly (List.zipWith (fun x y : ℝ => x + y) p0 (List.zipWith (fun x y : ℝ => x + y) (p1.map fun x : ℝ => -(2 ^ s)⁻¹ * x)
      (p2.map fun x : ℝ => (2 ^ s)⁻¹ * x))) = C ((2 ^ s)⁻¹) * (C 12289 - poly p1 + poly p2) := by
    rw [poly_zipWith_add _ _ (by simp [lp0, lp1, lp2]), poly_zipWith_add _ _ (by simp [lp1, lp2]), poly_smul, poly_smul, e0]
    simp only [C_neg, C_mul]
    ring
  have lD := l1_le_length _ _ bD
  generalize hD : List.zipWith (fun x y : ℝ => x + y) p0 (List.zipWith (fun x y : ℝ => x + y) (p1.map fun x : ℝ => -(2 ^ s)⁻¹ * x)
      (p2.map fun x : ℝ => (2 ^ s)⁻¹ * x)) = D at bD pD lD
  have lD' : D.length = 2 ^ k := by rw [← hD]; simp [lp0, lp1, lp2]
  rw [lD'] at lD
  have hDb : l1 D ≤ 2 ^ k * (12289 + (l1 (realI f) + l1 (realI g))) := by
    apply lD.trans
    push_cast
    exact le_refl _
  obtain ⟨cd, hcd⟩ := hdetR
  have d4 : (X ^ 2 ^ k + 1 : ℝ[X]) ∣ poly (realI f) * poly (realI (G'.map fun v : Int => v >>> s)) -
      poly (realI g) * poly (realI (F'.map fun v : Int => v >>> s)) - poly D := by
    rw [pD]
    refine ⟨C ((2 ^ s)⁻¹) * (cd - c1 + c2), ?_⟩
    rw [hrem F', hrem G'] at hcd
    have hinv : (C ((2 ^ s)⁻¹) : ℝ[X]) * C (2 ^ s) = 1 := by rw [← C_mul, inv_mul_cancel₀ hpow.ne', C_1]
    linear_combination C ((2 ^ s)⁻¹) * (hcd - e1 + e2) - (poly (realI f) * poly (realI (G'.map fun v : Int => v >>> s)) -
      poly (realI g) * poly (realI (F'.map fun v : Int => v >>> s))) * hinv
  exact ⟨D, lD', hDb, d4⟩

theorem shift_det (k : Nat) (h2 : k ≤ 10) (f g F' G' : List Int) (lF' : F'.length = 2 ^ k) (lG' : G'.length = 2 ^ k)
    (hn : sqNorm (realI f) + sqNorm (realI g) ≤ 1.17 ^ 2 * 12289)
    (hdetR : (X ^ 2 ^ k + 1 : ℝ[X]) ∣ poly (realI f) * poly (realI G') - poly (realI g) * poly (realI F') - C 12289) (s : Nat) :
    ∃ D : List ℝ, D.length = 2 ^ k ∧ l1 D ≤ 2 ^ 10 * 29113 ∧
      (X ^ 2 ^ k + 1 : ℝ[X]) ∣ poly (realI f) * poly (realI (G'.map fun v : Int => v >>> s)) -
        poly (realI g) * poly (realI (F'.map fun v : Int => v >>> s)) - poly D := by
  obtain ⟨D, lD, hD, d4⟩ := shift_det_l1 k f g F' G' lF' lG' hdetR s
  refine ⟨D, lD, hD.trans ?_, d4⟩
  have lf1 := l1_le_sqNorm f
  have lg1 := l1_le_sqNorm g
  have hk : (2 : ℝ) ^ k ≤ 2 ^ 10 := pow_le_pow_right₀ (by norm_num) h2
  have := l1_nonneg (realI f)
  have := l1_nonneg (realI g)
  apply mul_le_mul hk _ (by linarith) (by positivity)
  norm_num at hn
  linarith

/-- A number of at least `s + 45` bits does not become small by dropping `s` bits. -/
theorem shift_contra (v : Int) (s : Nat) (hv2 : 2 ^ (s + 45) ≤ v.natAbs) (hsm : |((v >>> s : Int) : ℝ)| < 2 ^ 44) : False := by
  have hsm2 : |v >>> s| < 2 ^ 44 := by exact_mod_cast hsm
  rw [abs_lt, Int.shiftRight_eq_div_pow] at hsm2
  obtain ⟨u1, u2⟩ := hsm2
  have hT : (0 : Int) < ((2 ^ s : Nat) : Int) := by positivity
  have u3 : v < 2 ^ 44 * ((2 ^ s : Nat) : Int) := Int.lt_mul_of_ediv_lt hT u2
  have u4 : -(2 ^ 44) * ((2 ^ s : Nat) : Int) ≤ v := (Int.le_ediv_iff_mul_le hT).1 u1.le
  rw [pow_add] at hv2
  generalize (2 : Nat) ^ s = T at *
  omega

/-- C57: in exact arithmetic, reducing a solution of the NTRU equation by a pair `(f, g)` that satisfies the Gram-Schmidt bound yields
coefficients of at most half the sum of the absolute values of `f` (respectively `g`) plus 130. -/
theorem C57_short (k : Nat) (h1 : 1 ≤ k) (h2 : k ≤ 10) (f g F G : List Int) (hf : f.length = 2 ^ k) (hg : g.length = 2 ^ k)
    (hF : F.length = 2 ^ k) (hG : G.length = 2 ^ k) (h0 : ∃ x ∈ f, x ≠ 0)
    (hn : sqNorm (realI f) + sqNorm (realI g) ≤ 1.17 ^ 2 * 12289) (Ft Gt : List ℝ) (hFt : Ft.length = 2 ^ k) (hGt : Gt.length = 2 ^ k)
    (d2 : (X ^ 2 ^ k + 1 : ℝ[X]) ∣ poly Ft * gramPoly (realI f) (realI g) - poly (adjList (realI f)))
    (d3 : (X ^ 2 ^ k + 1 : ℝ[X]) ∣ poly Gt * gramPoly (realI f) (realI g) - poly (adjList (realI g)))
    (hgs : 12289 ^ 2 * (sqNorm Ft + sqNorm Gt) ≤ 1.17 ^ 2 * 12289) (fuel : Nat) (F' G' : List Int)
    (h : reduce exactOps fuel f g F G = .ok (F', G')) (hdet : CongrZ (2 ^ k) (ntruDet f g F' G') (C 12289)) :
    (∀ v ∈ F', |(v : ℝ)| ≤ 1 / 2 * l1 (realI f) + 130) ∧ (∀ v ∈ G', |(v : ℝ)| ≤ 1 / 2 * l1 (realI g) + 130) := by
  have hn0 : 0 < 2 ^ k := Nat.two_pow_pos k
  have hlen : ∀ l : List Int, (realI l).length = l.length := fun l => by simp [realI]
  have hsq : ∀ l : List ℝ, 0 ≤ sqNorm l := by
    intro l
    apply List.sum_nonneg
    intro y hy
    obtain ⟨z, _, rfl⟩ := List.mem_map.1 hy
    positivity
  have hsmall : ∀ v ∈ f ++ g, v.natAbs < 2 ^ 48 := by
    intro v hv
    have hv2 : (v : ℝ) ^ 2 ≤ 1.17 ^ 2 * 12289 := by
      rcases List.mem_append.1 hv with hv | hv
      · exact (sq_le_sqNorm (realI f) v (List.mem_map_of_mem hv)).trans (by linarith [hsq (realI g)])
      · exact (sq_le_sqNorm (realI g) v (List.mem_map_of_mem hv)).trans (by linarith [hsq (realI f)])
    have hv3 : v ^ 2 < 2 ^ 15 := by
      have : (v : ℝ) ^ 2 < 2 ^ 15 := lt_of_le_of_lt hv2 (by norm_num)
      exact_mod_cast this
    have h4 : v < 2 ^ 48 := by nlinarith
    have h5 : -(2 ^ 48) < v := by nlinarith
    omega
  obtain ⟨-, hok⟩ := reduce_ok (O := exactOps) k h2 f g hf hg fuel F G hF hG
  obtain ⟨lF', lG', -⟩ := hok F' G' h
  obtain ⟨s, κ, hs, lκ, bκ, dκ⟩ := C57_reduced k h1 h2 f g F G hf hg hF hG hsmall h0 fuel F' G' h
  have hne : ∀ w ∈ rootsC k, evalR (realI f) w ≠ 0 ∨ evalR (realI g) w ≠ 0 := by
    intro w hw
    left
    have := int_eval_ne_zero k f hf h0 w (by rw [rootsC_root k w hw]; ring)
    unfold evalR realI
    rw [List.map_map]
    convert this using 4
    funext x
    simp
  have hc := gram_coprime k (realI f) (realI g) (by rw [hlen, hf]) (by rw [hlen, hg]) hne
  have hB : ∀ l : List ℝ, sqNorm l ≤ sqNorm Ft + sqNorm Gt → ∀ x ∈ l, |x| ≤ 130 / 12289 := by
    intro l hl x hx
    have := sq_le_sqNorm l x hx
    apply abs_le_of_sq_le_sq _ (by norm_num)
    nlinarith
  have bF := hB Ft (by linarith [hsq Gt])
  have bG := hB Gt (by linarith [hsq Ft])
  -- the determinant over the reals
  have hdetR : (X ^ 2 ^ k + 1 : ℝ[X]) ∣ poly (realI f) * poly (realI G') - poly (realI g) * poly (realI F') - C 12289 := by
    obtain ⟨c, hcc⟩ := hdet
    refine ⟨c.map (Int.castRingHom ℝ), ?_⟩
    have := congrArg (Polynomial.map (Int.castRingHom ℝ)) hcc
    unfold ntruDet polyZ at this
    simp only [Polynomial.map_sub, Polynomial.map_mul, Polynomial.map_add, Polynomial.map_pow, Polynomial.map_X, Polynomial.map_one,
      Polynomial.map_C] at this
    rw [poly_realI, poly_realI, poly_realI, poly_realI]
    convert this using 2
    simp
  have lf1 := l1_le_sqNorm f
  have lg1 := l1_le_sqNorm g
  -- no low bits are dropped at the end
  have hs0 : s = 0 := by
    rcases hs with hs | ⟨v, hv, hv2⟩
    · exact hs
    exfalso
    obtain ⟨D, lD', hDb, d4⟩ := shift_det k h2 f g F' G' lF' lG' hn hdetR s
    obtain ⟨r1, r2⟩ := core_bound k (realI f) (realI g) _ _ κ Ft Gt D (by rw [hlen, hf]) (by rw [hlen, hg]) (by rw [hlen, List.length_map, lF'])
      (by rw [hlen, List.length_map, lG']) lκ hFt hGt hc (1 / 2) (fun x hx => (bκ x hx).le) (130 / 12289) bF bG dκ d2 d3 d4
    have hsm : |((v >>> s : Int) : ℝ)| < 2 ^ 19 := by
      norm_num at hn
      have q1 := hsq (realI f)
      have q2 := hsq (realI g)
      rcases List.mem_append.1 hv with hv | hv
      · have := r1 ((v >>> s : Int) : ℝ) (List.mem_map_of_mem (List.mem_map_of_mem hv))
        apply lt_of_le_of_lt this
        linarith
      · have := r2 ((v >>> s : Int) : ℝ) (List.mem_map_of_mem (List.mem_map_of_mem hv))
        apply lt_of_le_of_lt this
        linarith
    exact shift_contra v s hv2 (hsm.trans (by norm_num))
  subst hs0
  have e0 : ∀ l : List Int, (l.map fun v : Int => v >>> 0) = l := by
    intro l
    conv_rhs => rw [← List.map_id l]
    apply List.map_congr_left
    intro v _
    simp
  rw [e0, e0] at dκ
  obtain ⟨r1, r2⟩ := core_bound k (realI f) (realI g) (realI F') (realI G') κ Ft Gt [12289] (by rw [hlen, hf]) (by rw [hlen, hg])
    (by rw [hlen, lF']) (by rw [hlen, lG']) lκ hFt hGt hc (1 / 2) (fun x hx => (bκ x hx).le) (130 / 12289) bF bG dκ d2 d3 (by simpa using hdetR)
  have hq : (130 / 12289 : ℝ) * l1 [12289] = 130 := by
    simp [l1]
  rw [hq] at r1 r2
  exact ⟨fun v hv => r1 v (List.mem_map_of_mem hv), fun v hv => r2 v (List.mem_map_of_mem hv)⟩

theorem NtruSolve_reduce (O : FloatOps) (k : Nat) (h1 : 1 ≤ k) (h2 : k ≤ 10) (f g : List Int) (hf : f.length = 2 ^ k) (hg : g.length = 2 ^ k)
    (fuel : Nat) (F' G' : List Int) (h : NtruSolve O fuel f g = .ok (some (F', G'))) :
    ∃ fuel' F G, F.length = 2 ^ k ∧ G.length = 2 ^ k ∧ reduce O fuel' f g F G = .ok (F', G') := by
  cases fuel with
  | zero => simp [NtruSolve] at h
  | succ fuel =>
    obtain ⟨m, rfl⟩ : ∃ m, k = m + 1 := ⟨k - 1, by omega⟩
    have h3 : 2 ≤ 2 ^ (m + 1) := by
      have := Nat.two_pow_pos m
      rw [pow_succ]; omega
    rw [NtruSolve, if_neg (by omega)] at h
    obtain ⟨fp, e1, h⟩ := Go.bind_eq_ok.1 h
    obtain ⟨gp, e2, h⟩ := Go.bind_eq_ok.1 h
    obtain ⟨r, e3, h⟩ := Go.bind_eq_ok.1 h
    match r with
    | none => simp at h
    | some (Fp, Gp) =>
      simp only at h
      obtain ⟨x, y1, lx, _⟩ := fieldNorm_ok m f hf
      obtain ⟨y, y2, ly, _⟩ := fieldNorm_ok m g hg
      rw [e1, Go.ok.injEq] at y1
      rw [e2, Go.ok.injEq] at y2
      subst y1 y2
      obtain ⟨Nf, tf, _⟩ := towerNorm_ok m fp lx
      obtain ⟨Ng, tg, _⟩ := towerNorm_ok m gp ly
      obtain ⟨_, lF, lG, _⟩ := (NtruSolve_ok (O := O) m (by omega) fp gp lx ly Nf Ng tf tg fuel).2.2 Fp Gp e3
      have llift : ∀ l : List Int, l.length = 2 ^ m → (lift l).length = 2 ^ (m + 1) := by
        intro l hl
        rw [pow_succ, ← hl]
        unfold lift
        rw [List.length_flatMap]
        simp
      obtain ⟨F, e4, l4, _⟩ := karamul_ok (m + 1) (lift Fp) (galoisConjugate g) (llift Fp lF) (by simp [galoisConjugate, hg])
      obtain ⟨G, e5, l5, _⟩ := karamul_ok (m + 1) (lift Gp) (galoisConjugate f) (llift Gp lG) (by simp [galoisConjugate, hf])
      rw [e4, Go.ok_bind, e5, Go.ok_bind] at h
      obtain ⟨q, e6, h⟩ := Go.bind_eq_ok.1 h
      simp only [Go.pure_eq, Go.ok.injEq, Option.some.injEq] at h
      exact ⟨fuel + 1, F, G, l4, l5, h ▸ e6⟩

theorem realI_int16 (f : List Int16) : realI (int16ToBigInt f) = realOf f := by
  unfold realI realOf int16ToBigInt
  rw [List.map_map]
  rfl

/-- C57: in exact arithmetic nothing is lost in the narrowing of a generated key to `int16`: as long as the gcd of the norms of `f` and `g`
does not exceed 2^64, the returned `F` and `G` satisfy `f*G - g*F = q` over the integers modulo `x^n+1`, and their coefficients are at most
half the sum of the absolute values of the coefficients of `f` (respectively `g`) plus 130, hence at most 8541. -/
theorem C57_generated (rand : Rand) (fuel : Nat) (n : UInt16) (pos : Nat) (key : PrivateKey) (pos' : Nat)
    (h : GeneratePrivateKey exactOps rand fuel n pos = .ok (.ok (key, pos')))
    (hgcd : ∀ Nf Ng, IsNorm n.toNat (polyZ (int16ToBigInt key.f)) Nf → IsNorm n.toNat (polyZ (int16ToBigInt key.g)) Ng →
      Int.gcd Nf Ng ≤ 2 ^ 64) :
    CongrZ n.toNat (ntruDet (int16ToBigInt key.f) (int16ToBigInt key.g) (int16ToBigInt key.F) (int16ToBigInt key.G)) (C 12289) ∧
    (∀ v ∈ key.F, |(v.toInt : ℝ)| ≤ 1 / 2 * l1 (realOf key.f) + 130) ∧ (∀ v ∈ key.G, |(v.toInt : ℝ)| ≤ 1 / 2 * l1 (realOf key.g) + 130) ∧
    ∀ v ∈ key.F ++ key.G, -8541 ≤ v.toInt ∧ v.toInt ≤ 8541 := by
  obtain ⟨⟨k, h1, h2, hn⟩, hkn, hq⟩ := GeneratePrivateKey_ok exactOps rand fuel n pos key pos' h
  obtain ⟨fuel', F, G, norm, r, lf, lg, -, -, -, -, hs, eF, eG⟩ := NtruGen_ok exactOps rand fuel n pos _ pos' hq
  obtain ⟨hnorm, Ft, Gt, lFt, lGt, dF, dG, hgs⟩ := C56_generated rand fuel n pos key pos' h
  obtain ⟨⟨u, hu⟩, -⟩ := C43_public_key exactOps rand fuel n pos key pos' h
  simp only at lf lg hs eF eG
  have lf' : (int16ToBigInt key.f).length = 2 ^ k := by rw [int16ToBigInt, List.length_map, lf, hn]
  have lg' : (int16ToBigInt key.g).length = 2 ^ k := by rw [int16ToBigInt, List.length_map, lg, hn]
  rw [hn] at hgcd lFt lGt dF dG hu ⊢
  obtain ⟨Nf, tf, nf⟩ := towerNorm_ok k _ lf'
  obtain ⟨Ng, tg, ng⟩ := towerNorm_ok k _ lg'
  obtain ⟨lF, lG, hdet⟩ := C40_solution_partial exactOps k h1 h2 _ _ lf' lg' Nf Ng nf ng (hgcd Nf Ng nf ng) fuel' F G hs
  obtain ⟨fuel'', F0, G0, lF0, lG0, hred⟩ := NtruSolve_reduce exactOps k h1 h2 _ _ lf' lg' fuel' F G hs
  have hf0 : ∃ x ∈ int16ToBigInt key.f, x ≠ 0 := by
    by_contra hc
    push Not at hc
    have hz : polyQ key.f = 0 := by
      unfold polyQ
      unfold int16ToBigInt at hc
      generalize key.f = l at hc
      induction l with
      | nil => rfl
      | cons a f ih =>
        rw [List.map_cons, poly_cons, ih fun x hx => hc x (List.mem_cons_of_mem _ hx)]
        have := hc a.toInt (List.mem_cons_self)
        simp [zq, this]
    rw [hz, zero_mul, zero_sub, dvd_neg] at hu
    have hd := degree_le_of_dvd hu one_ne_zero
    rw [degree_one] at hd
    have := degree_X_pow_add_C (Nat.two_pow_pos k) (1 : Zq)
    rw [map_one] at this
    rw [this] at hd
    have h3 : (2 ^ k : Nat) ≤ 0 := by exact_mod_cast hd
    have := Nat.two_pow_pos k
    omega
  obtain ⟨bF, bG⟩ := C57_short k h1 h2 _ _ F0 G0 lf' lg' lF0 lG0 hf0 (by rw [realI_int16, realI_int16]; exact hnorm) Ft Gt lFt lGt
    (by rw [realI_int16, realI_int16]; exact dF) (by rw [realI_int16, realI_int16]; exact dG) hgs fuel'' F G hred hdet
  have small : ∀ (l a b : List Int), l1 (realI a) ≤ sqNorm (realI a) → sqNorm (realI a) + sqNorm (realI b) ≤ 1.17 ^ 2 * 12289 →
      (∀ v ∈ l, |(v : ℝ)| ≤ 1 / 2 * l1 (realI a) + 130) → ∀ v ∈ l, -8541 ≤ v ∧ v ≤ 8541 := by
    intro l a b hl hn hv v hm
    have h3 := hv v hm
    have h4 : 0 ≤ sqNorm (realI b) := by
      apply List.sum_nonneg
      intro y hy
      obtain ⟨z, _, rfl⟩ := List.mem_map.1 hy
      positivity
    have h5 : |(v : ℝ)| < 8542 := by
      apply lt_of_le_of_lt h3
      norm_num at hn
      linarith
    have h6 : |v| < 8542 := by exact_mod_cast h5
    rw [abs_lt] at h6
    omega
  have sF := small F (int16ToBigInt key.f) (int16ToBigInt key.g) (l1_le_sqNorm _) (by rw [realI_int16, realI_int16]; exact hnorm) bF
  have sG := small G (int16ToBigInt key.g) (int16ToBigInt key.f) (l1_le_sqNorm _) (by rw [realI_int16, realI_int16, add_comm]; exact hnorm) bG
  have fF : int16ToBigInt key.F = F := by
    rw [eF]
    exact bigIntToInt16_fits F fun v hv => by have := sF v hv; omega
  have fG : int16ToBigInt key.G = G := by
    rw [eG]
    exact bigIntToInt16_fits G fun v hv => by have := sG v hv; omega
  rw [realI_int16] at bF bG
  have memF : ∀ v ∈ key.F, v.toInt ∈ F := fun v hv => by rw [← fF]; exact List.mem_map_of_mem hv
  have memG : ∀ v ∈ key.G, v.toInt ∈ G := fun v hv => by rw [← fG]; exact List.mem_map_of_mem hv
  refine ⟨by rw [fF, fG]; exact hdet, fun v hv => bF _ (memF v hv), fun v hv => bG _ (memG v hv), fun v hv => ?_⟩
  rcases List.mem_append.1 hv with hv | hv
  · exact sF _ (memF v hv)
  · exact sG _ (memG v hv)

/-- The hypotheses hold for the run at degree 2: the norms of `f` and `g` are 5209 and 4561. -/
example : CongrZ 2 (ntruDet [72, 5] [60, 31] [-40, 31] [124, 0]) (C 12289) :=
  (C57_generated runRand 20 2 0 _ _ exact_run_key (by
    intro Nf Ng hf hg
    obtain ⟨N, t, hN⟩ := towerNorm_ok 1 [72, 5] rfl
    obtain ⟨M, t', hM⟩ := towerNorm_ok 1 [60, 31] rfl
    have e1 : N = 5209 := (Go.ok.inj (t.symm.trans (by decide +kernel : towerNorm 1 [72, 5] = .ok 5209)))
    have e2 : M = 4561 := (Go.ok.inj (t'.symm.trans (by decide +kernel : towerNorm 1 [60, 31] = .ok 4561)))
    have u1 : Nf = N := by exact_mod_cast hf.trans hN.symm
    have u2 : Ng = M := by exact_mod_cast hg.trans hM.symm
    rw [u1, u2, e1, e2]
    decide +kernel)).1

/-- A reduction with a non-zero quotient: `(F, G) + (3 - 2x)(f, g)` is reduced to `(F, G)`. -/
example : reduce exactOps 5 [72, 5] [60, 31] [186, -98] [366, -27] = .ok ([-40, 31], [124, 0]) := by
  rw [hom_reduce ratHom _ _ _ _ rfl rfl 5 rfl rfl]
  decide +kernel

end Falcon
