import Verif.Props.Halt
import Verif.Props.Reach
import Verif.Props.GsAccept
/-!
# Key generation of every degree from 8 on may not terminate (C70)

The pair of degree 8 of `C70_violated_keygen` gives one of degree `8 m`, by substituting `x^m` for `x`.
-/

namespace Falcon
open Spec Polynomial ComplexConjugate F64

/-! ### Substituting `x^m` -/

/-- The coefficients of `f(x^m)`. -/
def spread {α : Type} [Zero α] (m : Nat) (l : List α) : List α := l.flatMap fun c => c :: List.replicate (m - 1) 0

theorem spread_cons {α : Type} [Zero α] (m : Nat) (a : α) (l : List α) : spread m (a :: l) = (a :: List.replicate (m - 1) 0) ++ spread m l := rfl

theorem spread_length {α : Type} [Zero α] (m : Nat) (hm : 1 ≤ m) (l : List α) : (spread m l).length = m * l.length := by
  induction l with
  | nil => rfl
  | cons a l ih =>
    rw [spread_cons, List.length_append, ih, List.length_cons, List.length_cons, List.length_replicate, Nat.mul_add]
    omega

theorem spread_map {α β : Type} [Zero α] [Zero β] (m : Nat) (h : α → β) (h0 : h 0 = 0) (l : List α) : (spread m l).map h = spread m (l.map h) := by
  induction l with
  | nil => rfl
  | cons a l ih => rw [spread_cons, List.map_append, ih, List.map_cons, List.map_cons, List.map_replicate, h0, spread_cons]

theorem spread_mem {α : Type} [Zero α] (m : Nat) (l : List α) (c : α) (h : c ∈ spread m l) : c ∈ l ∨ c = 0 := by
  induction l with
  | nil => cases h
  | cons a l ih =>
    rw [spread_cons, List.mem_append, List.mem_cons] at h
    rcases h with (rfl | h) | h
    · exact .inl List.mem_cons_self
    · exact .inr (List.eq_of_mem_replicate h)
    · rcases ih h with h | h
      · exact .inl (List.mem_cons_of_mem _ h)
      · exact .inr h

theorem spread_zeros {S : Type} [CommRing S] (m : Nat) : poly (List.replicate m (0 : S)) = 0 := by
  induction m with
  | zero => rfl
  | succ m ih => rw [List.replicate_succ, poly_cons, ih, map_zero, mul_zero, add_zero]

theorem spread_poly {S : Type} [CommRing S] (m : Nat) (hm : 1 ≤ m) (l : List S) : poly (spread m l) = (poly l).comp (X ^ m) := by
  induction l with
  | nil => simp [spread]
  | cons a l ih =>
    rw [spread_cons, poly_append, ih, poly_cons, spread_zeros, List.length_cons, List.length_replicate, Nat.sub_add_cancel hm, poly_cons, add_comp, mul_comp,
      C_comp, X_comp, mul_zero, add_zero]

theorem spread_sqNorm (m : Nat) (l : List ℝ) : sqNorm (spread m l) = sqNorm l := by
  induction l with
  | nil => rfl
  | cons a l ih =>
    have e : ∀ a b : List ℝ, sqNorm (a ++ b) = sqNorm a + sqNorm b := fun a b => by simp [sqNorm]
    have e0 : sqNorm (a :: List.replicate (m - 1) 0) = a ^ 2 := by simp [sqNorm]
    have e1 : sqNorm (a :: l) = a ^ 2 + sqNorm l := by simp [sqNorm]
    rw [spread_cons, e, ih, e0, e1]

theorem spread_evalR (m : Nat) (hm : 1 ≤ m) (l : List ℝ) (w : ℂ) : evalR (spread m l) w = evalR l (w ^ m) := by
  rw [evalR_eq, evalR_eq, spread_poly m hm, eval₂_comp, eval₂_X_pow]

theorem spread_real (m : Nat) (l : List Int16) : realI (int16ToBigInt (spread m l)) = spread m (realI (int16ToBigInt l)) := by
  unfold realI int16ToBigInt
  rw [spread_map m _ rfl, spread_map m _ (by simp)]

theorem spread_root (b j : Nat) (w : ℂ) (hw : w ∈ rootsC (b + j)) : w ^ 2 ^ j ∈ rootsC b := by
  rw [mem_rootsC] at hw ⊢
  rw [← pow_mul, ← pow_add, Nat.add_comm]
  exact hw

/-- The quality check accepts `f(x^m)`, `g(x^m)`. -/
theorem spread_accepts (b j : Nat) (h1 : 1 ≤ b) (h2 : b + j ≤ 10) (f g : List Int16) (hf : f.length = 2 ^ b) (hg : g.length = 2 ^ b)
    (hn : sqNorm (realI (int16ToBigInt f)) + sqNorm (realI (int16ToBigInt g)) ≤ 16822)
    (hsp : ∀ w ∈ rootsC b, 87 / 10 ≤ gramAt (int16ToBigInt f) (int16ToBigInt g) w) (Ft Gt : List ℝ) (lFt : Ft.length = 2 ^ b) (lGt : Gt.length = 2 ^ b)
    (dF : ∀ w ∈ rootsC b, evalR Ft w * (gramAt (int16ToBigInt f) (int16ToBigInt g) w : ℂ) = conj (evalR (realI (int16ToBigInt f)) w))
    (dG : ∀ w ∈ rootsC b, evalR Gt w * (gramAt (int16ToBigInt f) (int16ToBigInt g) w : ℂ) = conj (evalR (realI (int16ToBigInt g)) w))
    (hs : 12289 ^ 2 * (sqNorm Ft + sqNorm Gt) ≤ 16760) :
    ∃ norm, GsNorm ieeeOps (Int16ToFloat64 ieeeOps (spread (2 ^ j) f)) (Int16ToFloat64 ieeeOps (spread (2 ^ j) g)) (ieeeOps.ofInt Q) = .ok norm ∧
      ieeeOps.lt (ieeeOps.mul (ieeeOps.pow2 (ieeeOps.lit 1.17)) (ieeeOps.ofInt Q)) norm = false := by
  have hm : 1 ≤ 2 ^ j := Nat.one_le_two_pow
  have len : ∀ {α : Type} [Zero α] (l : List α), l.length = 2 ^ b → (spread (2 ^ j) l).length = 2 ^ (b + j) := by
    intro α _ l hl
    rw [spread_length _ hm, hl, pow_add, Nat.mul_comm]
  have hgram : ∀ w, gramAt (int16ToBigInt (spread (2 ^ j) f)) (int16ToBigInt (spread (2 ^ j) g)) w =
      gramAt (int16ToBigInt f) (int16ToBigInt g) (w ^ 2 ^ j) := by
    intro w
    unfold gramAt
    rw [spread_real, spread_real, spread_evalR _ hm, spread_evalR _ hm]
  refine gs_accepts (b + j) (by omega) h2 _ _ (len f hf) (len g hg) ?_ ?_ (spread (2 ^ j) Ft) (spread (2 ^ j) Gt) (len Ft lFt) (len Gt lGt) ?_ ?_ ?_
  · rw [spread_real, spread_real, spread_sqNorm, spread_sqNorm]
    exact hn
  · intro w hw
    rw [hgram]
    exact hsp _ (spread_root b j w hw)
  · intro w hw
    rw [hgram, spread_real, spread_evalR _ hm, spread_evalR _ hm]
    exact dF _ (spread_root b j w hw)
  · intro w hw
    rw [hgram, spread_real, spread_evalR _ hm, spread_evalR _ hm]
    exact dG _ (spread_root b j w hw)
  · rw [spread_sqNorm, spread_sqNorm]
    exact hs

theorem spread_congr (b j : Nat) (p q : ℤ[X]) (h : CongrZ (2 ^ b) p q) : CongrZ (2 ^ (b + j)) (p.comp (X ^ 2 ^ j)) (q.comp (X ^ 2 ^ j)) := by
  obtain ⟨c, hc⟩ := h
  refine ⟨c.comp (X ^ 2 ^ j), ?_⟩
  rw [← sub_comp, hc, mul_comp, add_comp, X_pow_comp, one_comp, ← pow_mul, ← pow_add, Nat.add_comm j b]

theorem spread_unit (b j : Nat) (f : List Int) (h : IsUnitZ (2 ^ b) f) : IsUnitZ (2 ^ (b + j)) (spread (2 ^ j) f) := by
  obtain ⟨u, lu, hu⟩ := h
  have hm : 1 ≤ 2 ^ j := Nat.one_le_two_pow
  refine ⟨spread (2 ^ j) u, by rw [spread_length _ hm, lu, pow_add, Nat.mul_comm], ?_⟩
  have := spread_congr b j _ _ hu
  rw [mul_comp, one_comp] at this
  unfold polyZ at *
  rw [spread_poly _ hm, spread_poly _ hm]
  exact this

/-- The transform of a unit has no zero. -/
theorem unit_ntt (k : Nat) (h1 : 1 ≤ k) (h2 : k ≤ 10) (f : List Int16) (hf : f.length = 2 ^ k) (hu : IsUnitZ (2 ^ k) (int16ToBigInt f)) :
    ∃ t, NTT wrap64 f = .ok t ∧ anyZeroes t = false := by
  obtain ⟨t, e, -, ht, -, -, hr⟩ := C09_ntt_is_evaluation k h1 h2 f hf
  refine ⟨t, e, ?_⟩
  by_contra hc
  rw [Bool.not_eq_false, C55_anyZeroes] at hc
  obtain ⟨v, hv, rfl⟩ := hc
  have hz : zq 0 ∈ t.map zq := List.mem_map_of_mem hv
  rw [ht] at hz
  obtain ⟨a, ha, e0⟩ := List.mem_map.1 hz
  obtain ⟨u, -, c, hc⟩ := hu
  have h3 := congrArg (fun p : ℤ[X] => p.eval₂ (Int.castRingHom Zq) (a : Zq)) hc
  simp only [eval₂_sub, eval₂_mul, eval₂_add, eval₂_one, eval₂_X_pow] at h3
  rw [hr a ha, zero_mul] at h3
  have h4 : (polyZ (int16ToBigInt f)).eval₂ (Int.castRingHom Zq) (a : Zq) = (polyQ f).eval (a : Zq) := by
    unfold polyQ int16ToBigInt
    clear * -
    induction f with
    | nil => simp
    | cons x f ih => simp [eval₂_add, eval₂_mul, ih, zq]
  rw [h4, e0] at h3
  simp [zq] at h3

/-! ### The pair -/

theorem realI_eval₂ (l : List Int) (w : ℂ) : evalR (realI l) w = (poly l).eval₂ (Int.castRingHom ℂ) w := by
  induction l with
  | nil => simp [evalR, realI]
  | cons a l ih =>
    have e : realI (a :: l) = (a : ℝ) :: realI l := rfl
    rw [e, evalR_cons, ih, poly_cons, eval₂_add, eval₂_mul, eval₂_C, eval₂_X]
    simp

theorem karamul_eval (k : Nat) (a b r : List Int) (ha : a.length = 2 ^ k) (hb : b.length = 2 ^ k) (h : karamul a b = .ok r) (w : ℂ) (hw : w ∈ rootsC k) :
    evalR (realI a) w * evalR (realI b) w = evalR (realI r) w := by
  obtain ⟨r', h1, -, c, hc⟩ := karamul_ok k a b ha hb
  rw [h, Go.ok.injEq] at h1
  subst h1
  have h3 := congrArg (fun p : ℤ[X] => p.eval₂ (Int.castRingHom ℂ) w) hc
  simp only [eval₂_sub, eval₂_mul, eval₂_add, eval₂_one, eval₂_X_pow] at h3
  rw [(mem_rootsC k w).1 hw, neg_add_cancel, zero_mul, sub_eq_zero, ← realI_eval₂, ← realI_eval₂, ← realI_eval₂] at h3
  exact h3

/-- The adjoints of `loopF` and `loopG`, and the inverse of `f f* + g g*` times `loopN`. -/
def loopFa : List Int := [37, -7, 8, 53, 8, -7, 37, 0]

def loopGa : List Int := [-45, -18, 0, 18, 45, -41, -1, -41]

def loopE : List Int := [304576286057, 59754418653, 50246720954, 28860210737, 0, -28860210737, -50246720954, -59754418653]

def loopN : Int := 3775997222885474

/-- `f* loopE` and `g* loopE`. -/
def loopPf : List Int := [11125499390092, 2383044936175, 7244394514265, 18530815360651, 7244394514265, 2383044936175, 11125499390092, 0]

def loopPg : List Int := [-10578582089109, -3879195758223, 0, 3879195758223, 10578582089109, -9715398406382, 356733856789, -9715398406382]

theorem loop_products : karamul (int16ToBigInt loopF) loopFa = .ok [5773, 218, -1455, 4328, 0, -4328, 1455, -218] ∧
    karamul (int16ToBigInt loopG) loopGa = .ok [8061, -1988, -209, -5346, 0, 5346, 209, 1988] ∧
    karamul [13834, -1770, -1664, -1018, 0, 1018, 1664, 1770] loopE = .ok [loopN, 0, 0, 0, 0, 0, 0, 0] ∧
    karamul loopFa loopE = .ok loopPf ∧ karamul loopGa loopE = .ok loopPg ∧
    karamul (int16ToBigInt loopF) [676, -1250, 1633, -1767, 1633, -1250, 676, 0] = .ok [1, 0, 0, 0, 0, 0, 0, 0] ∧
    karamul (int16ToBigInt loopG) [1874, -2449, 0, 2449, -1874, -1014, 2651, -1014] = .ok [1, 0, 0, 0, 0, 0, 0, 0] := by decide +kernel

theorem loop_unit (f u : List Int) (hf : f.length = 2 ^ 3) (hu : u.length = 2 ^ 3) (h : karamul f u = .ok [1, 0, 0, 0, 0, 0, 0, 0]) : IsUnitZ (2 ^ 3) f := by
  obtain ⟨r, h1, -, hc⟩ := karamul_ok 3 f u hf hu
  rw [h, Go.ok.injEq] at h1
  subst h1
  refine ⟨u, hu, ?_⟩
  simpa using hc

theorem loop_conj (f fa : List Int) (hf : f.length = 2 ^ 3) (h : adjList (realI f) = realI fa) (w : ℂ) (hw : w ∈ rootsC 3) :
    evalR (realI fa) w = conj (evalR (realI f) w) := by
  rw [← h, evalR_adj 3 _ (by simp [realI, hf]) w hw]

theorem loop_gram (w : ℂ) (hw : w ∈ rootsC 3) : (gramAt (int16ToBigInt loopF) (int16ToBigInt loopG) w : ℂ) =
    evalR (realI [13834, -1770, -1664, -1018, 0, 1018, 1664, 1770]) w := by
  obtain ⟨p1, p2, -⟩ := loop_products
  have e1 := karamul_eval 3 _ _ _ rfl rfl p1 w hw
  have e2 := karamul_eval 3 _ _ _ rfl rfl p2 w hw
  rw [loop_conj (int16ToBigInt loopF) loopFa rfl (by simp [adjList, realI, loopFa, int16ToBigInt, loopF]) w hw, Complex.mul_conj] at e1
  rw [loop_conj (int16ToBigInt loopG) loopGa rfl (by simp [adjList, realI, loopGa, int16ToBigInt, loopG]) w hw, Complex.mul_conj] at e2
  unfold gramAt
  rw [Complex.ofReal_add, e1, e2]
  have e0 : evalR [] w = 0 := by simp [evalR]
  simp only [realI, List.map_cons, List.map_nil, evalR_cons, e0]
  push_cast
  ring

theorem loop_quot (f fa P : List Int) (hf : f.length = 2 ^ 3) (lfa : fa.length = 2 ^ 3) (h : adjList (realI f) = realI fa) (hP : karamul fa loopE = .ok P) (w : ℂ)
    (hw : w ∈ rootsC 3) : evalR ((realI P).map fun x => x / loopN) w * (gramAt (int16ToBigInt loopF) (int16ToBigInt loopG) w : ℂ) =
      conj (evalR (realI f) w) := by
  have e : ∀ l : List ℝ, evalR (l.map fun x => x / loopN) w = evalR l w / loopN := by
    intro l
    induction l with
    | nil => simp [evalR]
    | cons a l ih =>
      rw [List.map_cons, evalR_cons, evalR_cons, ih]
      push_cast
      ring
  have e1 := karamul_eval 3 _ _ _ lfa rfl hP w hw
  have e2 := karamul_eval 3 _ _ _ rfl rfl loop_products.2.2.1 w hw
  rw [← loop_gram w hw] at e2
  have e3 : evalR (realI [loopN, 0, 0, 0, 0, 0, 0, 0]) w = loopN := by simp [realI, evalR]
  rw [e3] at e2
  have n0 : (loopN : ℂ) ≠ 0 := by simp [loopN]
  rw [e, ← e1, loop_conj _ _ hf h w hw, div_mul_eq_mul_div, mul_assoc, mul_comm (evalR (realI loopE) w), e2, mul_div_assoc, div_self n0, mul_one]

theorem loop_spread (w : ℂ) (hw : w ∈ rootsC 3) : 87 / 10 ≤ gramAt (int16ToBigInt loopF) (int16ToBigInt loopG) w := by
  have h := congrArg Complex.re (loop_gram w hw)
  rw [Complex.ofReal_re] at h
  have e : evalR (realI [13834, -1770, -1664, -1018, 0, 1018, 1664, 1770]) w = 13834 + w * evalR (realI [-1770, -1664, -1018, 0, 1018, 1664, 1770]) w := by
    have : realI [13834, -1770, -1664, -1018, 0, 1018, 1664, 1770] = ((13834 : ℝ)) :: realI [-1770, -1664, -1018, 0, 1018, 1664, 1770] := by simp [realI]
    rw [this, evalR_cons]
    push_cast
    rfl
  have w1 := rootsC_norm 3 w hw
  have b := evalR_norm (realI [-1770, -1664, -1018, 0, 1018, 1664, 1770]) w w1
  have l : l1 (realI [-1770, -1664, -1018, 0, 1018, 1664, 1770]) = 8904 := by simp [l1, realI]; norm_num
  rw [l] at b
  have b2 := Complex.abs_re_le_norm (w * evalR (realI [-1770, -1664, -1018, 0, 1018, 1664, 1770]) w)
  rw [norm_mul, w1, one_mul, abs_le] at b2
  rw [h, e, Complex.add_re]
  have : (13834 : ℂ).re = 13834 := by norm_num
  rw [this]
  linarith [b2.1]

theorem loop_norms : sqNorm (realI (int16ToBigInt loopF)) + sqNorm (realI (int16ToBigInt loopG)) ≤ 16822 ∧
    12289 ^ 2 * (sqNorm ((realI loopPf).map fun x => x / loopN) + sqNorm ((realI loopPg).map fun x => x / loopN)) ≤ 16760 := by
  constructor
  · simp [sqNorm, realI, int16ToBigInt, loopF, loopG]
    norm_num
  · simp [sqNorm, realI, loopPf, loopPg, loopN]
    norm_num

/-- C70 is violated: for every supported degree from 8 on, 512 and 1024 included, there is a finite source of random bytes, of
which no byte is rejected by the sampler, for which key generation in IEEE arithmetic does not return, with any number of steps. -/
theorem C70_violated_keygen_all (k : Nat) (h1 : 3 ≤ k) (h2 : k ≤ 10) : ∃ d : Fin 8192 → Draw, ∀ fuel,
    GeneratePrivateKey ieeeOps (source d) fuel (UInt16.ofNat (2 ^ k)) 0 = .diverge := by
  obtain ⟨j, rfl⟩ : ∃ j, k = 3 + j := ⟨k - 3, by omega⟩
  obtain ⟨-, -, -, p4, p5, p6, p7⟩ := loop_products
  have hm : 1 ≤ 2 ^ j := Nat.one_le_two_pow
  have hj : j ≤ 7 := by omega
  have hn : (UInt16.ofNat (2 ^ (3 + j))).toNat = 2 ^ (3 + j) := by
    rw [UInt16.toNat_ofNat']
    exact Nat.mod_eq_of_lt (Nat.pow_lt_pow_right (by decide) (by omega))
  have lf : (spread (2 ^ j) loopF).length = 2 ^ (3 + j) := by rw [spread_length _ hm, pow_add, Nat.mul_comm]; rfl
  have lg : (spread (2 ^ j) loopG).length = 2 ^ (3 + j) := by rw [spread_length _ hm, pow_add, Nat.mul_comm]; rfl
  have hb : 4 ≤ 4096 / 2 ^ (3 + j) := by
    rw [show (4096 : Nat) = 2 ^ 12 by rfl, Nat.pow_div (by omega) (by decide), show (4 : Nat) = 2 ^ 2 by rfl]
    exact Nat.pow_le_pow_right (by decide) (by omega)
  have cf : ∀ l : List Int16, (∀ c ∈ l, -72 ≤ c.toInt ∧ c.toInt ≤ 72) → ∀ c ∈ spread (2 ^ j) l,
      -18 * ((4096 / 2 ^ (3 + j) : Nat) : Int) ≤ c.toInt ∧ c.toInt ≤ 19 * ((4096 / 2 ^ (3 + j) : Nat) : Int) := by
    intro l hl c hc
    have h0 : -72 ≤ c.toInt ∧ c.toInt ≤ 72 := by
      rcases spread_mem _ _ _ hc with h | rfl
      · exact hl c h
      · decide
    generalize 4096 / 2 ^ (3 + j) = m at hb
    omega
  obtain ⟨d, hr⟩ := C73_source key_ieee (UInt16.ofNat (2 ^ (3 + j))) (by rw [hn]; exact Nat.one_le_two_pow)
    (by rw [hn]; exact (Nat.pow_le_pow_right (by decide) h2).trans (by decide)) (spread (2 ^ j) loopF) (spread (2 ^ j) loopG) (by rw [lf, hn]) (by rw [lg, hn])
    (by rw [hn]; exact cf _ (by decide +kernel)) (by rw [hn]; exact cf _ (by decide +kernel))
  obtain ⟨v, hv, hl⟩ := spread_accepts 3 j (by decide) h2 loopF loopG rfl rfl loop_norms.1 loop_spread _ _ rfl rfl
    (loop_quot _ loopFa loopPf rfl rfl (by simp [adjList, realI, loopFa, int16ToBigInt, loopF]) p4)
    (loop_quot _ loopGa loopPg rfl rfl (by simp [adjList, realI, loopGa, int16ToBigInt, loopG]) p5) loop_norms.2
  have big : ∀ l : List Int16, int16ToBigInt (spread (2 ^ j) l) = spread (2 ^ j) (int16ToBigInt l) := by
    intro l
    unfold int16ToBigInt
    rw [spread_map _ _ rfl]
  have uf : IsUnitZ (2 ^ (3 + j)) (int16ToBigInt (spread (2 ^ j) loopF)) := by
    rw [big]
    exact spread_unit 3 j _ (loop_unit _ _ rfl rfl p6)
  have ug : IsUnitZ (2 ^ (3 + j)) (int16ToBigInt (spread (2 ^ j) loopG)) := by
    rw [big]
    exact spread_unit 3 j _ (loop_unit _ _ rfl rfl p7)
  refine ⟨d, fun fuel => ?_⟩
  unfold GeneratePrivateKey
  rw [if_neg (by
    clear * - hj
    interval_cases j <;> decide)]
  rcases fuel with _ | fuel
  · rfl
  obtain ⟨hf, hg⟩ := hr fuel
  obtain ⟨t, ht, hz⟩ := unit_ntt (3 + j) (by omega) h2 _ lf uf
  have h : NtruGen ieeeOps (source d) (fuel + 1) (UInt16.ofNat (2 ^ (3 + j))) 0 = .diverge := by
    rw [NtruGen, hf, Go.ok_bind]
    simp only [hg, hv, Go.ok_bind]
    rw [if_neg (fun hc => Bool.noConfusion (hl.symm.trans hc)), ht, Go.ok_bind, hz, if_neg (by decide),
      C70_violated_units (3 + j) (by omega) _ _ (by simp [int16ToBigInt, lf]) (by simp [int16ToBigInt, lg]) uf ug]
    rfl
  rw [h]
  rfl

end Falcon
