import Verif.Props.HaltAll
import Verif.Props.Degree2
import Mathlib.Algebra.Polynomial.Expand
/-!
# The NTRU equation by degree (C42)

The pair of degree 16 of `C42_violated` gives one of degree `16 m` for which no key is correct, by substituting `x^m` for `x`.
-/

namespace Falcon
open Spec Polynomial ComplexConjugate F64

/-! ### Acceptance of `f(x^m)`, `g(x^m)`, with the inverse of `f f* + g g*` given -/

theorem pair_accepts (b j : Nat) (h1 : 1 ≤ b) (h2 : b + j ≤ 10) (f g : List Int16) (fa ga ff gg D E Pf Pg : List Int) (N : Int) (hN : 0 < N)
    (lf : f.length = 2 ^ b) (lg : g.length = 2 ^ b) (lfa : fa.length = 2 ^ b) (lga : ga.length = 2 ^ b) (lE : E.length = 2 ^ b)
    (lP : Pf.length = 2 ^ b) (lP' : Pg.length = 2 ^ b)
    (af : adjList (realI (int16ToBigInt f)) = realI fa) (ag : adjList (realI (int16ToBigInt g)) = realI ga)
    (kf : karamul (int16ToBigInt f) fa = .ok ff) (kg : karamul (int16ToBigInt g) ga = .ok gg) (lff : ff.length = gg.length) (lD : D.length = 2 ^ b)
    (hD : D = List.zipWith (· + ·) ff gg) (kE : karamul D E = .ok (N :: List.replicate (2 ^ b - 1) 0)) (pf : karamul fa E = .ok Pf)
    (pg : karamul ga E = .ok Pg) (hl : l1 (realI E) * (87 / 10) ≤ N) (hn : sqNorm (realI (int16ToBigInt f)) + sqNorm (realI (int16ToBigInt g)) ≤ 16822)
    (hs : 12289 ^ 2 * (sqNorm (realI Pf) + sqNorm (realI Pg)) ≤ 16760 * (N : ℝ) ^ 2) :
    ∃ norm, GsNorm ieeeOps (Int16ToFloat64 ieeeOps (spread (2 ^ j) f)) (Int16ToFloat64 ieeeOps (spread (2 ^ j) g)) (ieeeOps.ofInt Q) = .ok norm ∧
      ieeeOps.lt (ieeeOps.mul (ieeeOps.pow2 (ieeeOps.lit 1.17)) (ieeeOps.ofInt Q)) norm = false := by
  have hNr : (0 : ℝ) < N := by exact_mod_cast hN
  have hNc : (N : ℂ) ≠ 0 := by exact_mod_cast hN.ne'
  have lfI : (int16ToBigInt f).length = 2 ^ b := by simp [int16ToBigInt, lf]
  have lgI : (int16ToBigInt g).length = 2 ^ b := by simp [int16ToBigInt, lg]
  have cf : ∀ w ∈ rootsC b, evalR (realI fa) w = conj (evalR (realI (int16ToBigInt f)) w) := fun w hw => by
    rw [← af, evalR_adj b _ (by simp [realI, lfI]) w hw]
  have cg : ∀ w ∈ rootsC b, evalR (realI ga) w = conj (evalR (realI (int16ToBigInt g)) w) := fun w hw => by
    rw [← ag, evalR_adj b _ (by simp [realI, lgI]) w hw]
  have hadd : ∀ (w : ℂ) (x y : List Int), x.length = y.length → evalR (realI (List.zipWith (· + ·) x y)) w = evalR (realI x) w + evalR (realI y) w := by
    intro w x
    induction x with
    | nil =>
      intro y h
      cases y with
      | nil => simp [evalR, realI]
      | cons a y => simp at h
    | cons a x ih =>
      intro y h
      cases y with
      | nil => simp at h
      | cons c y =>
        have := ih y (by simpa using h)
        simp only [realI, List.zipWith_cons_cons, List.map_cons, evalR_cons] at this ⊢
        rw [this]
        push_cast
        ring
  have gram : ∀ w ∈ rootsC b, (gramAt (int16ToBigInt f) (int16ToBigInt g) w : ℂ) = evalR (realI D) w := by
    intro w hw
    have e1 := karamul_eval b _ _ _ lfI lfa kf w hw
    have e2 := karamul_eval b _ _ _ lgI lga kg w hw
    rw [cf w hw, Complex.mul_conj] at e1
    rw [cg w hw, Complex.mul_conj] at e2
    unfold gramAt
    rw [Complex.ofReal_add, e1, e2, hD, hadd w _ _ lff]
  have hone : ∀ w ∈ rootsC b, (gramAt (int16ToBigInt f) (int16ToBigInt g) w : ℂ) * evalR (realI E) w = N := by
    intro w hw
    have e := karamul_eval b _ _ _ lD lE kE w hw
    rw [gram w hw, e]
    have z : ∀ m, evalR (realI (List.replicate m 0)) w = 0 := by
      intro m
      induction m with
      | zero => simp [evalR, realI]
      | succ m ih =>
        rw [List.replicate_succ, show realI ((0 : Int) :: List.replicate m 0) = 0 :: realI (List.replicate m 0) by simp [realI], evalR_cons, ih]
        simp
    rw [show realI (N :: List.replicate (2 ^ b - 1) 0) = (N : ℝ) :: realI (List.replicate (2 ^ b - 1) 0) by simp [realI], evalR_cons, z]
    simp
  have ediv : ∀ (w : ℂ) (l : List ℝ), evalR (l.map fun x => x / N) w = evalR l w / N := by
    intro w l
    induction l with
    | nil => simp [evalR]
    | cons a l ih =>
      rw [List.map_cons, evalR_cons, evalR_cons, ih]
      push_cast
      ring
  have sdiv : ∀ l : List ℝ, sqNorm (l.map fun x => x / N) = sqNorm l / (N : ℝ) ^ 2 := by
    intro l
    unfold sqNorm
    rw [List.map_map]
    induction l with
    | nil => simp
    | cons a l ih => rw [List.map_cons, List.sum_cons, ih, List.map_cons, List.sum_cons, Function.comp_apply, add_div, div_pow]
  refine spread_accepts b j h1 h2 f g lf lg hn ?_ ((realI Pf).map fun x => x / N) ((realI Pg).map fun x => x / N) (by simp [realI, lP])
    (by simp [realI, lP']) ?_ ?_ ?_
  · intro w hw
    have h := congrArg norm (hone w hw)
    have g0 : 0 ≤ gramAt (int16ToBigInt f) (int16ToBigInt g) w := add_nonneg (Complex.normSq_nonneg _) (Complex.normSq_nonneg _)
    rw [norm_mul, Complex.norm_real, Real.norm_of_nonneg g0, Complex.norm_intCast, abs_of_pos hNr] at h
    have b2 := evalR_norm (realI E) w (rootsC_norm b w hw)
    by_contra hc
    push Not at hc
    have h3 : (0 : ℝ) < ‖evalR (realI E) w‖ := by
      rcases (norm_nonneg (evalR (realI E) w)).lt_or_eq with h4 | h4
      · exact h4
      · rw [← h4, mul_zero] at h
        linarith
    have h4 : gramAt (int16ToBigInt f) (int16ToBigInt g) w * ‖evalR (realI E) w‖ < 87 / 10 * ‖evalR (realI E) w‖ := mul_lt_mul_of_pos_right hc h3
    linarith
  · intro w hw
    have e1 := karamul_eval b _ _ _ lfa lE pf w hw
    rw [ediv, ← e1, cf w hw, div_mul_eq_mul_div, mul_assoc, mul_comm (evalR (realI E) w), hone w hw, mul_div_assoc, div_self hNc, mul_one]
  · intro w hw
    have e1 := karamul_eval b _ _ _ lga lE pg w hw
    rw [ediv, ← e1, cg w hw, div_mul_eq_mul_div, mul_assoc, mul_comm (evalR (realI E) w), hone w hw, mul_div_assoc, div_self hNc, mul_one]
  · rw [sdiv, sdiv, ← add_div, ← mul_div_assoc, div_le_iff₀ (by positivity)]
    exact hs

/-! ### Norms, residues and the equation for `f(x^m)` -/

theorem isNorm_spread (n : Nat) (hn : 0 < n) (p : ℤ[X]) (N : ℤ) (h : IsNorm n p N) (j : Nat) : IsNorm (2 ^ j * n) (p.comp (X ^ 2 ^ j)) (N ^ 2 ^ j) := by
  induction j with
  | zero => simpa using h
  | succ j ih =>
    have h2 := isNorm_mul ih ih
    rw [show 2 ^ (j + 1) * n = 2 * (2 ^ j * n) by ring, show N ^ 2 ^ (j + 1) = N ^ 2 ^ j * N ^ 2 ^ j by rw [← pow_add]; congr 1; ring]
    refine isNorm_step _ (Nat.mul_pos (Nat.two_pow_pos j) hn) _ (p.comp (X ^ 2 ^ j) * p.comp (X ^ 2 ^ j)) ?_ _ h2
    have e : p.comp (X ^ 2 ^ (j + 1)) = (p.comp (X ^ 2 ^ j)).comp (X ^ 2) := by
      rw [comp_assoc, X_pow_comp, ← pow_mul]
      congr 2
      ring
    have e2 : (p.comp (X ^ 2 ^ (j + 1))).comp (-X) = p.comp (X ^ 2 ^ (j + 1)) := by
      rw [comp_assoc, X_pow_comp, Even.neg_pow ⟨2 ^ j, by ring⟩]
    rw [e2, e, ← mul_comp]
    exact ⟨0, by ring⟩

/-- If `f(x^m) G - g(x^m) F = q` has a solution then so has `f G - g F = q`. -/
theorem equation_contract (n m : Nat) (hm : m ≠ 0) (f g F G : ℤ[X]) (c : ℤ)
    (h : CongrZ (m * n) (f.comp (X ^ m) * G - g.comp (X ^ m) * F) (C c)) : ∃ F' G' : ℤ[X], CongrZ n (f * G' - g * F') (C c) := by
  obtain ⟨d, hd⟩ := h
  refine ⟨contract m F, contract m G, contract m d, ?_⟩
  have e : ∀ p : ℤ[X], p.comp (X ^ m) = expand ℤ m p := fun p => (expand_eq_comp_X_pow m).symm
  have e1 : (X ^ (m * n) + 1 : ℤ[X]) = expand ℤ m (X ^ n + 1) := by simp [pow_mul]
  have h2 := congrArg (contract m) hd
  rw [e, e, e1] at h2
  rw [mul_comm _ G, mul_comm _ F, mul_comm _ d, contract_mul_expand hm, sub_eq_add_neg, sub_eq_add_neg, contract_add hm, contract_add hm,
    ← neg_mul, contract_mul_expand hm, contract_mul_expand hm, ← map_neg, contract_C] at h2
  have e2 : contract m (-F) = -contract m F := by
    ext i
    simp [coeff_contract hm]
  rw [e2] at h2
  rw [map_neg] at h2
  linear_combination h2

/-- The transform of a unit modulo `q` has no zero. -/
theorem unit_ntt_q (k : Nat) (h1 : 1 ≤ k) (h2 : k ≤ 10) (f : List Int16) (hf : f.length = 2 ^ k)
    (hu : ∃ u : Zq[X], (X ^ 2 ^ k + 1 : Zq[X]) ∣ polyQ f * u - 1) : ∃ t, NTT wrap64 f = .ok t ∧ anyZeroes t = false := by
  obtain ⟨t, e, -, ht, -, -, hr⟩ := C09_ntt_is_evaluation k h1 h2 f hf
  refine ⟨t, e, ?_⟩
  by_contra hc
  rw [Bool.not_eq_false, C55_anyZeroes] at hc
  obtain ⟨v, hv, rfl⟩ := hc
  have hz : zq 0 ∈ t.map zq := List.mem_map_of_mem hv
  rw [ht] at hz
  obtain ⟨a, ha, e0⟩ := List.mem_map.1 hz
  obtain ⟨u, c, hc⟩ := hu
  have h3 := congrArg (eval (a : Zq)) hc
  simp only [eval_sub, eval_mul, eval_add, eval_one, eval_pow, eval_X] at h3
  rw [hr a ha, zero_mul, e0] at h3
  simp [zq] at h3

theorem spread_unit_q (b j : Nat) (f : List Int16) (h : ∃ u : Zq[X], (X ^ 2 ^ b + 1 : Zq[X]) ∣ polyQ f * u - 1) :
    ∃ u : Zq[X], (X ^ 2 ^ (b + j) + 1 : Zq[X]) ∣ polyQ (spread (2 ^ j) f) * u - 1 := by
  obtain ⟨u, c, hc⟩ := h
  refine ⟨u.comp (X ^ 2 ^ j), c.comp (X ^ 2 ^ j), ?_⟩
  have e : polyQ (spread (2 ^ j) f) = (polyQ f).comp (X ^ 2 ^ j) := by
    unfold polyQ
    rw [spread_map _ _ (by simp [zq]), spread_poly _ Nat.one_le_two_pow]
  rw [e, ← mul_comp, ← one_comp (p := (X ^ 2 ^ j : Zq[X])), ← sub_comp, hc, mul_comp, add_comp, X_pow_comp, one_comp, ← pow_mul, ← pow_add,
    Nat.add_comm j b]

/-! ### The pair of degree 16 -/

theorem bad_accepts (j : Nat) (h : 4 + j ≤ 10) :
    ∃ norm, GsNorm ieeeOps (Int16ToFloat64 ieeeOps (spread (2 ^ j) badF)) (Int16ToFloat64 ieeeOps (spread (2 ^ j) badG)) (ieeeOps.ofInt Q) = .ok norm ∧
      ieeeOps.lt (ieeeOps.mul (ieeeOps.pow2 (ieeeOps.lit 1.17)) (ieeeOps.ofInt Q)) norm = false := by
  refine pair_accepts 4 j (by decide) h badF badG
    [-15, 15, 33, 18, -31, 30, 34, -14, -17, 31, 2, 16, 33, 34, 34, -14]
    [17, -15, 15, -15, 15, 33, -14, 15, -15, -33, -34, -18, -17, 15, 1, -16]
    [10183, 1845, -756, 3180, 2538, -3502, -1108, 2249, 0, -2249, 1108, 3502, -2538, -3180, 756, -1845]
    [6264, 1219, 1108, 482, -1510, -32, 980, -707, 0, 707, -980, 32, 1510, -482, -1108, -1219]
    [16447, 3064, 352, 3662, 1028, -3534, -128, 1542, 0, -1542, 128, 3534, -1028, -3662, -352, -3064]
    [120636145497260552128515262087, -20048150989857651156006951104, -8606158013024709098352117020, -24441785441386195943559450310,
      2351433889330982425167520380, 34456065593219984937127276558, -12966605673102023019288118024, -12761721149827435916878644150, 0,
      12761721149827435916878644150, 12966605673102023019288118024, -34456065593219984937127276558, -2351433889330982425167520380,
      24441785441386195943559450310, 8606158013024709098352117020, 20048150989857651156006951104]
    [-1500024616498709527705247413867, 3418515663990460634539495311551, 1442861845855570064329472795885, -43062889591737645664602788168,
      -3183166700769819609319055903921, 2417447369988097771610363781914, 3300783331275249368934343988030, -369675763222483374147302993494,
      -2910882881675225793409517681209, 1975061762476735150843665729145, -447149961278731140056717289532, 2498340553619916928568060079124,
      1083217181491188021810611316915, 225919331425559269646262702878, 4018146210354711723660006975346, -1064553967946447362495856677414]
    [3604144174581864970961520852333, -3326550850598254974820940725121, 1068163266671166280563347275097, -2278279179779536956510030599161,
      1733987055825244263872502421477, 3517966900690211561288183848789, -3055352347406476262423314689614, 2479112054319861651970961748855,
      -1218761864540721283287800909617, -1123465485839302611217497383893, -2955912067379272732130117996720,
      -2344785617642145842778692559392, 212885713240132422820932472759, 2574536993597544522133347569509, 389898734888893569840132201557,
      -1912299338546040672321638755156]
    1401438623403546672133623465571937
    (by decide) rfl rfl rfl rfl rfl rfl rfl (by simp [adjList, realI, int16ToBigInt, badF]) (by simp [adjList, realI, int16ToBigInt, badG])
    (by decide +kernel) (by decide +kernel) rfl rfl rfl (by decide +kernel) (by decide +kernel) (by decide +kernel) ?_ ?_ ?_
  · simp [l1, realI]
    norm_num [abs_of_pos, abs_of_neg]
  · simp [sqNorm, realI, int16ToBigInt, badF, badG]
    norm_num
  · simp [sqNorm, realI]
    norm_num

/-- The NTRU equation has no solution for the pair: both polynomials and `x^16 + 1` vanish at `2^60` modulo `2^64 + 1`. -/
theorem bad_no_solution (F G : ℤ[X]) : ¬ CongrZ (2 ^ 4) (polyZ (int16ToBigInt badF) * G - polyZ (int16ToBigInt badG) * F) (C 12289) := by
  rintro ⟨c, hc⟩
  have h := congrArg (eval (2 ^ 60 : Int)) hc
  simp only [eval_sub, eval_mul, eval_add, eval_pow, eval_X, eval_one, eval_C] at h
  have ev : ∀ (t : Int) (l : List Int), (polyZ l).eval t = l.foldr (fun a acc => a + t * acc) 0 := by
    intro t l
    induction l with
    | nil => simp [polyZ]
    | cons a l ih =>
      unfold polyZ at ih ⊢
      simp [ih]
  have e1 : (2 ^ 64 + 1 : Int) ∣ (polyZ (int16ToBigInt badF)).eval (2 ^ 60 : Int) := by
    rw [ev]
    decide +kernel
  have e2 : (2 ^ 64 + 1 : Int) ∣ (polyZ (int16ToBigInt badG)).eval (2 ^ 60 : Int) := by
    rw [ev]
    decide +kernel
  have e3 : (2 ^ 64 + 1 : Int) ∣ (2 ^ 60 : Int) ^ 2 ^ 4 + 1 := by decide +kernel
  have e4 : (2 ^ 64 + 1 : Int) ∣ 12289 := by
    have h5 := dvd_sub (dvd_sub (e1.mul_right (G.eval (2 ^ 60 : Int))) (e2.mul_right (F.eval (2 ^ 60 : Int)))) (e3.mul_right (c.eval (2 ^ 60 : Int)))
    rw [← h, sub_sub_cancel] at h5
    exact h5
  revert e4
  decide +kernel

theorem spread_big (j : Nat) (l : List Int16) : int16ToBigInt (spread (2 ^ j) l) = spread (2 ^ j) (int16ToBigInt l) := by
  unfold int16ToBigInt
  rw [spread_map _ _ rfl]

/-- The solver never rejects `f(x^m)`, `g(x^m)`: the greatest common divisor of the norms is `(2^64 + 1)^m`, or at least 1 modulo `2^64`. -/
theorem bad_not_rejected (O : FloatOps) (j : Nat) (h : 4 + j ≤ 10) (fuel : Nat) :
    NtruSolve O fuel (int16ToBigInt (spread (2 ^ j) badF)) (int16ToBigInt (spread (2 ^ j) badG)) ≠ .ok none := by
  intro hc
  have hm : 1 ≤ 2 ^ j := Nat.one_le_two_pow
  have lf : (int16ToBigInt (spread (2 ^ j) badF)).length = 2 ^ (4 + j) := by
    rw [spread_big, spread_length _ hm, pow_add, Nat.mul_comm]
    rfl
  have lg : (int16ToBigInt (spread (2 ^ j) badG)).length = 2 ^ (4 + j) := by
    rw [spread_big, spread_length _ hm, pow_add, Nat.mul_comm]
    rfl
  obtain ⟨Nf, nf⟩ := exists_isNorm 4 (int16ToBigInt badF) rfl
  obtain ⟨Ng, ng⟩ := exists_isNorm 4 (int16ToBigInt badG) rfl
  have h1 := ((NtruSolve_ok (O := ieeeOps) 4 (by decide) _ _ rfl rfl _ _ (towerNorm_of_isNorm 4 _ rfl _ nf) (towerNorm_of_isNorm 4 _ rfl _ ng) 20).2.2 _ _
    bad_solve16).1
  rw [xgcd_eq_gcd 3 (int16ToBigInt badF) (int16ToBigInt badG) rfl rfl Nf Ng (towerNorm_of_isNorm 4 _ rfl _ nf) (towerNorm_of_isNorm 4 _ rfl _ ng),
    bigInt64_eq_one] at h1
  have sp : ∀ (l : List Int16) (N : Int), IsNorm (2 ^ 4) (polyZ (int16ToBigInt l)) N →
      IsNorm (2 ^ (4 + j)) (polyZ (int16ToBigInt (spread (2 ^ j) l))) (N ^ 2 ^ j) := by
    intro l N hN
    have := isNorm_spread (2 ^ 4) (by decide) _ N hN j
    rw [spread_big]
    unfold polyZ at *
    rwa [spread_poly _ hm, pow_add, Nat.mul_comm]
  have h2 := (C41_iff O (4 + j) (by omega) h _ _ lf lg _ _ (sp _ _ nf) (sp _ _ ng)).1 ⟨fuel, hc⟩
  apply h2
  rw [Int.gcd, Int.natAbs_pow, Int.natAbs_pow, Nat.pow_gcd_pow, ← Int.gcd]
  have h3 : Int.gcd Nf Ng % 2 ^ 64 = 1 := by omega
  rw [Nat.pow_mod, h3, one_pow]
  rfl

/-- C42 is violated at every degree from 16 on: some 8192 draws, of which no byte is rejected by the sampler, make key generation in IEEE arithmetic
either not return at all or return a key that does not satisfy the NTRU equation. No other pair is ever tried. -/
theorem C42_violated_all (k : Nat) (h1 : 4 ≤ k) (h2 : k ≤ 10) : ∃ d : Fin 8192 → Draw, ∀ fuel,
    GeneratePrivateKey ieeeOps (source d) fuel (UInt16.ofNat (2 ^ k)) 0 = .diverge ∨
    ∃ key, GeneratePrivateKey ieeeOps (source d) fuel (UInt16.ofNat (2 ^ k)) 0 = .ok (.ok (key, 8192)) ∧
      ¬ CongrZ (2 ^ k) (ntruDet (int16ToBigInt key.f) (int16ToBigInt key.g) (int16ToBigInt key.F) (int16ToBigInt key.G)) (C 12289) := by
  obtain ⟨j, rfl⟩ : ∃ j, k = 4 + j := ⟨k - 4, by omega⟩
  have hm : 1 ≤ 2 ^ j := Nat.one_le_two_pow
  have hj : j ≤ 6 := by omega
  have hn : (UInt16.ofNat (2 ^ (4 + j))).toNat = 2 ^ (4 + j) := by
    rw [UInt16.toNat_ofNat']
    exact Nat.mod_eq_of_lt (Nat.pow_lt_pow_right (by decide) (by omega))
  have lf : (spread (2 ^ j) badF).length = 2 ^ (4 + j) := by rw [spread_length _ hm, pow_add, Nat.mul_comm]; rfl
  have lg : (spread (2 ^ j) badG).length = 2 ^ (4 + j) := by rw [spread_length _ hm, pow_add, Nat.mul_comm]; rfl
  have hb : 4 ≤ 4096 / 2 ^ (4 + j) := by
    rw [show (4096 : Nat) = 2 ^ 12 by rfl, Nat.pow_div (by omega) (by decide), show (4 : Nat) = 2 ^ 2 by rfl]
    exact Nat.pow_le_pow_right (by decide) (by omega)
  have cf : ∀ l : List Int16, (∀ c ∈ l, -72 ≤ c.toInt ∧ c.toInt ≤ 72) → ∀ c ∈ spread (2 ^ j) l,
      -18 * ((4096 / 2 ^ (4 + j) : Nat) : Int) ≤ c.toInt ∧ c.toInt ≤ 19 * ((4096 / 2 ^ (4 + j) : Nat) : Int) := by
    intro l hl c hc
    have h0 : -72 ≤ c.toInt ∧ c.toInt ≤ 72 := by
      rcases spread_mem _ _ _ hc with h | rfl
      · exact hl c h
      · decide
    generalize 4096 / 2 ^ (4 + j) = m at hb
    omega
  obtain ⟨d, hr⟩ := C73_source key_ieee (UInt16.ofNat (2 ^ (4 + j))) (by rw [hn]; exact Nat.one_le_two_pow)
    (by rw [hn]; exact (Nat.pow_le_pow_right (by decide) h2).trans (by decide)) (spread (2 ^ j) badF) (spread (2 ^ j) badG) (by rw [lf, hn]) (by rw [lg, hn])
    (by rw [hn]; exact cf _ (by decide +kernel)) (by rw [hn]; exact cf _ (by decide +kernel))
  obtain ⟨v, hv, hl⟩ := bad_accepts j h2
  have hu := (C43_public_key ieeeOps _ _ _ _ _ _ bad_run).1
  obtain ⟨t, ht, hz⟩ := unit_ntt_q (4 + j) (by omega) h2 _ lf (spread_unit_q 4 j badF hu)
  refine ⟨d, fun fuel => ?_⟩
  rcases fuel with _ | fuel
  · left
    unfold GeneratePrivateKey
    rw [if_neg (by
      clear * - hj
      interval_cases j <;> decide)]
    rfl
  obtain ⟨hf, hg⟩ := hr fuel
  have step := NtruGen_step ieeeOps (source d) fuel (UInt16.ofNat (2 ^ (4 + j))) 0 4096 8192 _ _ v t hf hg hv ht
  rw [if_neg (fun hc => Bool.noConfusion (hl.symm.trans hc)), hz, if_neg (by decide)] at step
  have gen : ∀ r, NtruGen ieeeOps (source d) (fuel + 1) (UInt16.ofNat (2 ^ (4 + j))) 0 = r →
      GeneratePrivateKey ieeeOps (source d) (fuel + 1) (UInt16.ofNat (2 ^ (4 + j))) 0 =
        r >>= fun x => pure (.ok (⟨UInt16.ofNat (2 ^ (4 + j)), x.1.f, x.1.g, x.1.F, x.1.G⟩, x.2)) := by
    rintro r rfl
    unfold GeneratePrivateKey
    rw [if_neg (by
      clear * - hj
      interval_cases j <;> decide)]
  have lfI : (int16ToBigInt (spread (2 ^ j) badF)).length = 2 ^ (4 + j) := by simp [int16ToBigInt, lf]
  have lgI : (int16ToBigInt (spread (2 ^ j) badG)).length = 2 ^ (4 + j) := by simp [int16ToBigInt, lg]
  obtain ⟨Nf, nf⟩ := exists_isNorm (4 + j) _ lfI
  obtain ⟨Ng, ng⟩ := exists_isNorm (4 + j) _ lgI
  have hp := (NtruSolve_ok (O := ieeeOps) (4 + j) h2 _ _ lfI lgI _ _ (towerNorm_of_isNorm _ _ lfI _ nf) (towerNorm_of_isNorm _ _ lgI _ ng) (fuel + 1)).1
  have hno := bad_not_rejected ieeeOps j h2 (fuel + 1)
  generalize NtruSolve ieeeOps (fuel + 1) (int16ToBigInt (spread (2 ^ j) badF)) (int16ToBigInt (spread (2 ^ j) badG)) = s at step hp hno
  match s with
  | .panic => exact absurd rfl hp
  | .diverge =>
    left
    rw [Go.diverge_bind] at step
    rw [gen _ step, Go.diverge_bind]
  | .ok none => exact absurd rfl hno
  | .ok (some (F, G)) =>
    right
    rw [Go.ok_bind] at step
    refine ⟨_, gen _ step, fun hc => ?_⟩
    unfold ntruDet at hc
    simp only [spread_big] at hc
    unfold polyZ at hc
    rw [spread_poly _ hm, spread_poly _ hm, pow_add, Nat.mul_comm] at hc
    obtain ⟨F', G', h⟩ := equation_contract _ _ (by omega) _ _ _ _ _ hc
    exact bad_no_solution F' G' h

/-- At degree 16 the key is returned. -/
example : ∃ (rand : Rand) (fuel : Nat) (key : PrivateKey) (pos : Nat), GeneratePrivateKey ieeeOps rand fuel 16 0 = .ok (.ok (key, pos)) ∧
    ¬ CongrZ 16 (ntruDet (int16ToBigInt key.f) (int16ToBigInt key.g) (int16ToBigInt key.F) (int16ToBigInt key.G)) (C 12289) := C42_violated

end Falcon
