import Verif.Model.Util2
import Verif.Model.Params
import Verif.Model.Ntrugen
import Verif.Lemmas.Ieee
import Mathlib.Tactic.FinCases
import Mathlib.Tactic.IntervalCases
import Mathlib.Data.Rat.Floor
/-!
# Conversions and random helpers of `src/util/util.go` (C55, C64, C65)
-/

namespace Falcon
open F64

/-! ### C64: conversions -/

theorem int16_range (x : Int16) : -32768 ≤ x.toInt ∧ x.toInt ≤ 32767 := by
  have h1 := Int16.le_toInt x
  have h2 := Int16.toInt_lt x
  omega

theorem toI16_int (k : Int) (h : -32768 ≤ k) (h' : k ≤ 32767) : toI16 (ofRat (k : ℚ)) = Int16.ofInt k := by
  rw [ofRat_int k (by omega) (by omega)]
  by_cases h0 : k = 0
  · subst h0; decide
  · rw [if_neg h0]
    unfold toI16
    have e : val (.fin k) = (k : ℚ) := rfl
    rw [e, truncInt_int]
    have : -(2 ^ 31) ≤ k ∧ k < 2 ^ 31 := by omega
    rw [decide_eq_true this.1, decide_eq_true this.2]
    rfl

/-- C64: in IEEE arithmetic, converting `int16` values to `float64` (or to `complex128`) and back loses nothing, for every vector. -/
theorem C64_int16_float (l : List Int16) :
    Float64ToInt16 ieeeOps (Int16ToFloat64 ieeeOps l) = l ∧
    RoundFFTtoInt16 ieeeOps (Float64ToComplexReal ieeeOps (Int16ToFloat64 ieeeOps l)) = l ∧
    ComplexRealToFloat64 ieeeOps (Float64ToComplexReal ieeeOps (Int16ToFloat64 ieeeOps l)) = Int16ToFloat64 ieeeOps l := by
  have e : ∀ x : Int16, toI16 (ofRat (x.toInt : ℚ)) = x := by
    intro x
    obtain ⟨h1, h2⟩ := int16_range x
    rw [toI16_int x.toInt h1 h2, Int16.ofInt_toInt]
  refine ⟨?_, ?_, ?_⟩
  · unfold Float64ToInt16 Int16ToFloat64
    rw [List.map_map]
    conv_rhs => rw [← List.map_id l]
    exact List.map_congr_left fun x _ => e x
  · unfold RoundFFTtoInt16 Float64ToComplexReal Int16ToFloat64
    rw [List.map_map, List.map_map]
    conv_rhs => rw [← List.map_id l]
    exact List.map_congr_left fun x _ => e x
  · unfold ComplexRealToFloat64 Float64ToComplexReal
    rw [List.map_map]
    conv_rhs => rw [← List.map_id (Int16ToFloat64 ieeeOps l)]
    exact List.map_congr_left fun x _ => rfl

theorem truncInt_spec (x : ℚ) : |(truncInt x : ℚ)| ≤ |x| ∧ |x - truncInt x| < 1 ∧ 0 ≤ x * truncInt x := by
  unfold truncInt
  split
  · rename_i h
    have h1 := Int.floor_le x
    have h2 := Int.lt_floor_add_one x
    have h3 : 0 ≤ ⌊x⌋ := Int.floor_nonneg.2 h
    have h3' : (0 : ℚ) ≤ (⌊x⌋ : ℚ) := by exact_mod_cast h3
    have e : Rat.floor x = ⌊x⌋ := rfl
    rw [e]
    refine ⟨?_, ?_, ?_⟩
    · rw [abs_of_nonneg h3', abs_of_nonneg h]; exact h1
    · rw [abs_lt]; constructor <;> linarith
    · exact mul_nonneg h h3'
  · rename_i h
    have h : x < 0 := lt_of_not_ge h
    have h1 := Int.floor_le (-x)
    have h2 := Int.lt_floor_add_one (-x)
    have h3 : 0 ≤ ⌊-x⌋ := Int.floor_nonneg.2 (by linarith)
    have h3' : (0 : ℚ) ≤ (⌊-x⌋ : ℚ) := by exact_mod_cast h3
    have e : Rat.floor (-x) = ⌊-x⌋ := rfl
    rw [e]
    push_cast
    refine ⟨?_, ?_, ?_⟩
    · rw [abs_neg, abs_of_nonneg h3', abs_of_neg h]; exact h1
    · rw [abs_lt]; constructor <;> linarith
    · nlinarith

/-- C64, IEEE arithmetic: `Float64ToInt16` and `RoundFFTtoInt16` truncate every finite value of absolute value below 32768 toward zero: the
result is the integer `t` with `|t| <= |x| < |t|+1` and the sign of `x`. -/
theorem C64_truncates (x : F64) (hx : x.isFinite = true) (h : |x.val| < 32768) :
    ∃ t : Int, ieeeOps.toInt16 x = Int16.ofInt t ∧ (ieeeOps.toInt16 x).toInt = t ∧ |(t : ℚ)| ≤ |x.val| ∧ |x.val - t| < 1 ∧ 0 ≤ x.val * t := by
  obtain ⟨h1, h2, h3⟩ := truncInt_spec x.val
  have hb : |(truncInt x.val : ℚ)| < 32768 := h1.trans_lt h
  have hb' : |truncInt x.val| < 32768 := by exact_mod_cast hb
  rw [abs_lt] at hb'
  have e : ieeeOps.toInt16 x = Int16.ofInt (truncInt x.val) := by
    show toI16 x = _
    unfold toI16
    have : -(2 ^ 31) ≤ truncInt x.val ∧ truncInt x.val < 2 ^ 31 := by omega
    rw [decide_eq_true this.1, decide_eq_true this.2, hx]
    rfl
  refine ⟨_, e, ?_, h1, h2, h3⟩
  rw [e, Int16.toInt_ofInt, show Int16.size = 65536 from rfl, Int.bmod_def]
  split <;> omega

/-- C64 is violated: `RoundFFTtoInt16` does not round to the nearest integer: `0.99` (and every smaller positive value) becomes 0. -/
theorem C64_violated_round : RoundFFTtoInt16 ieeeOps [(ofRat (99 / 100), ofRat 0)] = [0] ∧ |(ofRat (99 / 100)).val - 1| < 1 / 50 := by
  decide +kernel

/-- C64: `IntToBigInt` keeps the length, the order and every value. -/
theorem C64_intToBigInt (s : List Int) : (IntToBigInt s).length = s.length ∧ (∀ i : Nat, (IntToBigInt s)[i]? = s[i]?) := ⟨rfl, fun _ => rfl⟩

/-- C64: `Int16ToBigInt` followed by `BigIntToInt16` loses nothing, and `BigIntToInt16` in general keeps the residue modulo `2^16`, so it
keeps the value exactly on the `int16` range. -/
theorem C64_bigint (l : List Int16) (v : Int) :
    bigIntToInt16 (int16ToBigInt l) = l ∧
    (∃ r, bigIntToInt16 [v] = [r] ∧ (2 ^ 16 : Int) ∣ r.toInt - v ∧ (r.toInt = v ↔ -32768 ≤ v ∧ v ≤ 32767)) := by
  have key : ∀ v : Int, (2 ^ 16 : Int) ∣ (Int16.ofInt (bigInt64 v)).toInt - v := by
    intro v
    have h1 : (2 ^ 64 : Int) ∣ bigInt64 v - v := by
      have hi : ∀ y : Int, (2 ^ 64 : Int) ∣ i64 y - y := by
        intro y
        unfold i64
        rw [Int.bmod_def]
        split <;> omega
      unfold bigInt64
      have e1 := hi v.natAbs
      have e2 := hi (-i64 v.natAbs)
      show _ ∣ (if v < 0 then i64 (-i64 v.natAbs) else i64 v.natAbs) - v
      split <;> omega
    rw [Int16.toInt_ofInt, show Int16.size = 65536 from rfl, Int.bmod_def]
    split <;> omega
  have iff : ∀ v : Int, (Int16.ofInt (bigInt64 v)).toInt = v ↔ -32768 ≤ v ∧ v ≤ 32767 := by
    intro v
    have hr := int16_range (Int16.ofInt (bigInt64 v))
    have hk := key v
    constructor
    · intro h; rw [h] at hr; exact hr
    · rintro ⟨h1, h2⟩; omega
  refine ⟨?_, _, rfl, key v, iff v⟩
  unfold bigIntToInt16 int16ToBigInt
  rw [List.map_map]
  conv_rhs => rw [← List.map_id l]
  refine List.map_congr_left fun x _ => ?_
  apply Int16.toInt_inj.1
  exact (iff x.toInt).2 (int16_range x)

/-- C64: `IntToInt16` keeps every value of the `int16` range and changes every other value. -/
theorem C64_intToInt16 (l : List Int) (i : Nat) (hi : i < l.length) :
    ∃ r, (intToInt16 l)[i]? = some r ∧ (r.toInt = l[i] ↔ -32768 ≤ l[i] ∧ l[i] ≤ 32767) := by
  refine ⟨Int16.ofInt l[i], by simp [intToInt16, hi], ?_⟩
  rw [Int16.toInt_ofInt, show Int16.size = 65536 from rfl, Int.bmod_def]
  generalize l[i] = v
  constructor
  · intro h
    split at h <;> omega
  · rintro ⟨h1, h2⟩
    split <;> omega

/-- C64: the `int16` helpers compute the exact integer result exactly when it fits: subtraction, negation, squaring. -/
theorem C64_int16_ops (x y : Int16) :
    ((x - y).toInt = x.toInt - y.toInt ↔ -32768 ≤ x.toInt - y.toInt ∧ x.toInt - y.toInt ≤ 32767) ∧
    ((-x).toInt = -x.toInt ↔ x ≠ -32768) ∧
    ((SquareInt16 x).toInt = x.toInt ^ 2 ↔ |x.toInt| ≤ 181) := by
  obtain ⟨a1, a2⟩ := int16_range x
  obtain ⟨b1, b2⟩ := int16_range y
  refine ⟨?_, ?_, ?_⟩
  · rw [Int16.toInt_sub, Int.bmod_def]
    constructor
    · intro h; split at h <;> omega
    · rintro ⟨h1, h2⟩; split <;> omega
  · rw [Int16.toInt_neg, Int.bmod_def, ← not_iff_not, not_not]
    have e : x = -32768 ↔ x.toInt = -32768 := by
      rw [← Int16.toInt_inj]; rfl
    rw [e]
    constructor
    · intro h; split at h <;> omega
    · intro h; split <;> omega
  · unfold SquareInt16
    have hr := int16_range (x * x)
    have hk : (2 ^ 16 : Int) ∣ (x * x).toInt - x.toInt * x.toInt := by
      rw [Int16.toInt_mul, Int.bmod_def]
      split <;> omega
    rw [sq, abs_le]
    generalize (x * x).toInt = r at *
    generalize x.toInt = v at *
    constructor
    · intro h
      constructor <;> nlinarith
    · rintro ⟨h1, h2⟩
      have : v * v ≤ 32767 := by nlinarith
      have : 0 ≤ v * v := by nlinarith
      omega

/-- C64: the vector versions work coefficient by coefficient and panic exactly when the second operand is shorter. -/
theorem C64_subInt16 (x y : List Int16) : (y.length < x.length → SubInt16 x y = .panic) ∧
    (x.length ≤ y.length → SubInt16 x y = .ok (List.zipWith (· - ·) x y)) := by
  unfold SubInt16
  induction x generalizing y with
  | nil => simp [subVec]
  | cons a x ih =>
    cases y with
    | nil => simp [subVec]
    | cons b y =>
      obtain ⟨i1, i2⟩ := ih y
      simp only [List.length_cons, Nat.add_lt_add_iff_right, Nat.add_le_add_iff_right, subVec, List.zipWith_cons_cons]
      exact ⟨fun h => by rw [i1 h]; rfl, fun h => by rw [i2 h]; rfl⟩

/-- C64: `Int8ToFloat64` is exact on every vector. -/
theorem C64_int8_float (l : List Int8) : Int8ToFloat64 ieeeOps l = l.map (fun x => ieeeOps.ofInt x.toInt) ∧
    (Int8ToFloat64 ieeeOps l).map ieeeOps.toInt = l.map Int8.toInt := by
  refine ⟨rfl, ?_⟩
  unfold Int8ToFloat64
  rw [List.map_map]
  refine List.map_congr_left fun x _ => ?_
  have h1 := Int8.le_toInt x
  have h2 := Int8.toInt_lt x
  exact (ieee_exactInts x.toInt (by omega) (by omega)).1

theorem fsub_int (a b : Int) (ha : |a| ≤ 2 ^ 52) (hb : |b| ≤ 2 ^ 52) :
    F64.sub (ofRat (a : ℚ)) (ofRat (b : ℚ)) = ofRat ((a - b : Int) : ℚ) := by
  rw [abs_le] at ha hb
  have va : (ofRat (a : ℚ)).val = a ∧ (ofRat (a : ℚ)).isNaN = false ∧ (ofRat (a : ℚ)).isInf = false ∧ (a = 0 → (ofRat (a : ℚ)).sign = false) := by
    rw [ofRat_int a (by omega) (by omega)]
    split
    · rename_i h; subst h; simp [val, isNaN, isInf, sign]
    · rename_i h; simp [val, isNaN, isInf, h]
  have vb : (ofRat (b : ℚ)).neg.val = -b ∧ (ofRat (b : ℚ)).neg.isNaN = false ∧ (ofRat (b : ℚ)).neg.isInf = false ∧
      (0 < b → (ofRat (b : ℚ)).neg.sign = true) ∧ (b < 0 → (ofRat (b : ℚ)).neg.sign = false) := by
    rw [ofRat_int b (by omega) (by omega)]
    split
    · rename_i h; subst h; simp [val, isNaN, isInf, neg]
    · rename_i h
      refine ⟨rfl, rfl, rfl, fun hp => ?_, fun hn => ?_⟩
      · have : (0 : ℚ) < b := by exact_mod_cast hp
        simp [neg, sign, this]
      · have : (b : ℚ) < 0 := by exact_mod_cast hn
        simp only [neg, sign, decide_eq_false_iff_not, not_lt]
        linarith
  have sa : a < 0 → (ofRat (a : ℚ)).sign = true := by
    intro h
    have : (a : ℚ) < 0 := by exact_mod_cast h
    rw [ofRat_int a (by omega) (by omega), if_neg (by omega)]
    simp [sign, this]
  have sa' : 0 < a → (ofRat (a : ℚ)).sign = false := by
    intro h
    have : (0 : ℚ) < a := by exact_mod_cast h
    rw [ofRat_int a (by omega) (by omega), if_neg (by omega)]
    simp only [sign, decide_eq_false_iff_not, not_lt]
    linarith
  unfold F64.sub F64.add
  rw [va.2.1, vb.2.1, va.2.2.1, vb.2.2.1, va.1, vb.1]
  simp only [Bool.or_self, Bool.false_eq_true, if_false]
  by_cases h : a = b
  · subst h
    rw [if_pos (by ring)]
    have : ((ofRat (a : ℚ)).sign && (ofRat (a : ℚ)).neg.sign) = false := by
      rcases lt_trichotomy a 0 with h | h | h
      · rw [vb.2.2.2.2 h, Bool.and_false]
      · rw [va.2.2.2 h, Bool.false_and]
      · rw [sa' h, Bool.false_and]
    rw [this]
    simp [ofRat]
  · have hne : (a : ℚ) + -b ≠ 0 := by
      intro hc
      apply h
      have : (a : ℚ) = b := by linarith
      exact_mod_cast this
    rw [if_neg hne]
    unfold ofRat
    have e : ((a - b : Int) : ℚ) = (a : ℚ) + -b := by push_cast; ring
    rw [e, if_neg hne]

/-- C64: `SubFloat64` panics exactly when the second operand is shorter; on vectors of integers of at most 52 bits the differences are
exact, in IEEE arithmetic. -/
theorem C64_subFloat64 (x y : List Int) (hx : ∀ a ∈ x, |a| ≤ 2 ^ 52) (hy : ∀ a ∈ y, |a| ≤ 2 ^ 52) :
    (y.length < x.length → SubFloat64 ieeeOps (x.map ieeeOps.ofInt) (y.map ieeeOps.ofInt) = .panic) ∧
    (x.length ≤ y.length → SubFloat64 ieeeOps (x.map ieeeOps.ofInt) (y.map ieeeOps.ofInt) =
      .ok ((List.zipWith (· - ·) x y).map ieeeOps.ofInt)) := by
  unfold SubFloat64
  induction x generalizing y with
  | nil => simp [subVec]
  | cons a x ih =>
    cases y with
    | nil => simp [subVec]
    | cons b y =>
      obtain ⟨i1, i2⟩ := ih y (fun v hv => hx v (List.mem_cons_of_mem _ hv)) (fun v hv => hy v (List.mem_cons_of_mem _ hv))
      have e : ieeeOps.sub (ieeeOps.ofInt a) (ieeeOps.ofInt b) = ieeeOps.ofInt (a - b) :=
        fsub_int a b (hx a (List.mem_cons_self ..)) (hy b (List.mem_cons_self ..))
      simp only [List.length_cons, Nat.add_lt_add_iff_right, Nat.add_le_add_iff_right, List.map_cons, subVec, List.zipWith_cons_cons]
      refine ⟨fun h => by rw [i1 h]; rfl, fun h => ?_⟩
      rw [i2 h]
      exact congrArg (fun v => Go.ok (v :: _)) e

/-- C64: `NegFloat64` negates every value, exactly, and flips every sign bit, that of a zero included. -/
theorem C64_negFloat64 (x : List F64) : (NegFloat64 ieeeOps x).map val = x.map (fun v => -v.val) ∧
    ∀ i (h : i < x.length), ∃ r, (NegFloat64 ieeeOps x)[i]? = some r ∧ (x[i] ≠ .nan → x[i].val ≠ 0 ∨ x[i].isZero = true ∨ x[i].isInf = true →
      r.sign = !x[i].sign) := by
  refine ⟨?_, fun i h => ⟨F64.neg x[i], by simp [NegFloat64, h, ieeeOps], ?_⟩⟩
  · unfold NegFloat64
    rw [List.map_map]
    refine List.map_congr_left fun v _ => ?_
    cases v <;> simp [ieeeOps, neg, val]
  · intro _ hv
    generalize x[i] = v at hv
    cases v with
    | nan => simp [val, isZero, isInf] at hv
    | inf s => rfl
    | zero s => rfl
    | fin q =>
      simp only [val, isZero, isInf, Bool.false_eq_true, or_self, or_false] at hv
      simp only [neg, sign]
      rcases lt_trichotomy q 0 with h | h | h
      · simp [h, le_of_lt h]
      · exact absurd h hv
      · simp [h, le_of_lt h]

example : SubFloat64 ieeeOps ([3, 5].map ieeeOps.ofInt) ([7, 5, 1].map ieeeOps.ofInt) = .ok ([-4, 0].map ieeeOps.ofInt) ∧
    SubFloat64 ieeeOps ([3, 5].map ieeeOps.ofInt) ([7].map ieeeOps.ofInt) = .panic := by decide +kernel
example : NegFloat64 ieeeOps [.fin 3, .zero false] = [.fin (-3), .zero true] := by decide +kernel

/-- C64: `UintFromBytes` is the little-endian value of the first 8 bytes; it panics exactly on shorter input. -/
theorem C64_uintFromBytes (b : List UInt8) : (b.length < 8 → UintFromBytes b = .panic) ∧
    (8 ≤ b.length → ∃ v, UintFromBytes b = .ok v ∧ v.toNat = ((b.take 8).map UInt8.toNat).foldr (fun d acc => d + 256 * acc) 0) := by
  match b with
  | [] | [_] | [_, _] | [_, _, _] | [_, _, _, _] | [_, _, _, _, _] | [_, _, _, _, _, _] | [_, _, _, _, _, _, _] => simp [UintFromBytes]
  | b0 :: b1 :: b2 :: b3 :: b4 :: b5 :: b6 :: b7 :: r =>
    refine ⟨fun h => by simp at h; omega, fun _ => ⟨_, rfl, ?_⟩⟩
    have dis : ∀ (a c : Nat) (s : Nat), a < 2 ^ s → a ||| c <<< s = a + c * 2 ^ s := by
      intro a c s h
      rw [Nat.or_comm, ← Nat.shiftLeft_add_eq_or_of_lt h, Nat.shiftLeft_eq, Nat.add_comm]
    have hb : ∀ x : UInt8, x.toNat < 256 := fun x => by have := UInt8.toNat_lt x; omega
    have sh : ∀ (x : UInt8) (s : UInt64), s.toNat ≤ 56 → (x.toUInt64 <<< s).toNat = x.toNat <<< s.toNat := by
      intro x s hs
      rw [UInt64.toNat_shiftLeft, UInt8.toNat_toUInt64, Nat.mod_eq_of_lt (a := s.toNat) (by omega), Nat.mod_eq_of_lt]
      rw [Nat.shiftLeft_eq]
      calc x.toNat * 2 ^ s.toNat < 2 ^ 8 * 2 ^ s.toNat := by
            apply Nat.mul_lt_mul_of_pos_right (hb x); positivity
        _ = 2 ^ (8 + s.toNat) := by rw [pow_add]
        _ ≤ 2 ^ 64 := Nat.pow_le_pow_right (by omega) (by omega)
    simp only [UInt64.toNat_or]
    rw [sh _ _ (by decide), sh _ _ (by decide), sh _ _ (by decide), sh _ _ (by decide), sh _ _ (by decide), sh _ _ (by decide),
      sh _ _ (by decide)]
    simp only [UInt8.toNat_toUInt64, show (8 : UInt64).toNat = 8 from rfl, show (16 : UInt64).toNat = 16 from rfl,
      show (24 : UInt64).toNat = 24 from rfl, show (32 : UInt64).toNat = 32 from rfl, show (40 : UInt64).toNat = 40 from rfl,
      show (48 : UInt64).toNat = 48 from rfl, show (56 : UInt64).toNat = 56 from rfl]
    have := hb b0; have := hb b1; have := hb b2; have := hb b3; have := hb b4; have := hb b5; have := hb b6; have := hb b7
    rw [dis _ _ 8 (by omega), dis _ _ 16 (by omega), dis _ _ 24 (by omega), dis _ _ 32 (by omega), dis _ _ 40 (by omega),
      dis _ _ 48 (by omega), dis _ _ 56 (by omega)]
    simp only [List.take_succ_cons, List.take_zero, List.map_cons, List.map_nil, List.foldr_cons, List.foldr_nil]
    omega

/-- Concrete instances: a truncated value, an overflowing square, a little-endian word. -/
example : Float64ToInt16 ieeeOps [ofRat (-27 / 10), ofRat (32767 / 1)] = [-2, 32767] := by decide +kernel
example : SquareInt16 181 = 32761 ∧ SquareInt16 182 = -32412 := by decide
example : UintFromBytes [1, 2, 0, 0, 0, 0, 0, 128, 9] = .ok 9223372036854776321 := by decide

/-- C64: `NegInt16` negates every element exactly, except `-32768`. -/
theorem C64_negInt16 (l : List Int16) : (NegInt16 l).length = l.length ∧
    ∀ i (h : i < l.length), ∃ r, (NegInt16 l)[i]? = some r ∧ (r.toInt = -(l[i]).toInt ↔ l[i] ≠ -32768) :=
  ⟨by simp [NegInt16], fun i h => ⟨-l[i], by simp [NegInt16, h], (C64_int16_ops l[i] 0).2.1⟩⟩

example : NegInt16 [5, -32768, -7] = [-5, -32768, 7] := by decide

/-! ### C55: comparisons -/

/-- C55: `CmpBigInt` is equality. -/
theorem C55_cmpBigInt (x y : Int) : CmpBigInt x y = true ↔ x = y := by
  simp [CmpBigInt]

theorem flt_trans (a b c : F64) (h1 : F64.lt a b = true) (h2 : F64.lt b c = true) : F64.lt a c = true := by
  rcases a with _ | sa | sa | x <;> rcases b with _ | sb | sb | y <;> rcases c with _ | sc | sc | z <;> (try cases sa) <;> (try cases sb) <;>
    (try cases sc) <;> simp only [F64.lt, isNaN, isInf, sign, Bool.or_self, Bool.or_true, Bool.or_false, Bool.not_true, Bool.not_false,
      Bool.and_true, Bool.and_false, Bool.false_and, Bool.and_self, if_true, Bool.false_eq_true, if_false, decide_eq_true_eq] at h1 h2 ⊢ <;>
    exact lt_trans h1 h2

theorem flt_nan (a : F64) : F64.lt a .nan = false ∧ F64.lt .nan a = false := by
  simp [F64.lt, isNaN]

theorem flt_irrefl (a : F64) : F64.lt a a = false := by
  cases a with
  | inf s => cases s <;> simp [F64.lt, isNaN, isInf, sign]
  | _ => simp [F64.lt, isNaN, isInf]

theorem extreme_fold (lt : F64 → F64 → Bool) (tr : ∀ a b c, lt a b = true → lt b c = true → lt a c = true) (hn : ∀ a, lt a .nan = false)
    (l : List F64) : ∀ (x : F64), ∃ m, l.foldl (fun m v => if lt m v then v else m) x = m ∧ (m = x ∨ m ∈ l) ∧ (m = .nan → x = .nan) ∧
      (∀ y, lt x y = false → lt m y = false) ∧ ∀ v ∈ l, lt v v = false → lt m v = false := by
  induction l with
  | nil => exact fun x => ⟨x, rfl, Or.inl rfl, id, fun _ => id, by simp⟩
  | cons a l ih =>
    intro x
    rw [List.foldl_cons]
    by_cases h : lt x a = true
    · rw [if_pos h]
      obtain ⟨m, e, h1, h2, h3, h4⟩ := ih a
      have up : ∀ y, lt x y = false → lt a y = false := by
        intro y hy
        by_contra hc
        rw [tr x a y h (by simpa using hc)] at hy
        simp at hy
      refine ⟨m, e, ?_, ?_, fun y hy => h3 y (up y hy), ?_⟩
      · rcases h1 with rfl | h1
        · exact Or.inr (List.mem_cons_self ..)
        · exact Or.inr (List.mem_cons_of_mem _ h1)
      · intro hm
        rw [h2 hm, hn] at h
        simp at h
      · intro v hv hvv
        rcases List.mem_cons.1 hv with rfl | hv
        · exact h3 v hvv
        · exact h4 v hv hvv
    · rw [if_neg h]
      obtain ⟨m, e, h1, h2, h3, h4⟩ := ih x
      refine ⟨m, e, h1.imp id (List.mem_cons_of_mem _), h2, h3, ?_⟩
      intro v hv hvv
      rcases List.mem_cons.1 hv with rfl | hv
      · exact h3 v (by simpa using h)
      · exact h4 v hv hvv

/-- C55: `BiggestFloat64` panics exactly on the empty list. If the first element is NaN then the result is NaN, whatever follows. Otherwise the
result is an element which is not NaN and which no element exceeds; later NaNs are ignored. -/
theorem C55_biggestFloat64 (l : List F64) : (l = [] → BiggestFloat64 ieeeOps l = .panic) ∧
    ∀ x r, l = x :: r → (x = .nan → BiggestFloat64 ieeeOps l = .ok .nan) ∧
      (x ≠ .nan → ∃ m, BiggestFloat64 ieeeOps l = .ok m ∧ m ∈ l ∧ m ≠ .nan ∧ ∀ v ∈ l, F64.lt m v = false) := by
  refine ⟨by rintro rfl; rfl, ?_⟩
  rintro x r rfl
  obtain ⟨m, e, h1, h2, -, h4⟩ := extreme_fold F64.lt flt_trans (fun a => (flt_nan a).1) (x :: r) x
  have e' : BiggestFloat64 ieeeOps (x :: r) = .ok m := congrArg Go.ok e
  refine ⟨?_, fun hx => ⟨m, e', ?_, fun h => hx (h2 h), fun v hv => h4 v hv (flt_irrefl v)⟩⟩
  · rintro rfl
    have : ∀ l : List F64, l.foldl (fun m v => if F64.lt m v then v else m) .nan = .nan := by
      intro l
      induction l with
      | nil => rfl
      | cons a l ih => rw [List.foldl_cons, (flt_nan a).2]; exact ih
    exact congrArg Go.ok (this _)
  · rcases h1 with rfl | h1
    · exact List.mem_cons_self ..
    · exact h1

/-- C55: the same for `SmallestFloat64`. -/
theorem C55_smallestFloat64 (l : List F64) : (l = [] → SmallestFloat64 ieeeOps l = .panic) ∧
    ∀ x r, l = x :: r → (x = .nan → SmallestFloat64 ieeeOps l = .ok .nan) ∧
      (x ≠ .nan → ∃ m, SmallestFloat64 ieeeOps l = .ok m ∧ m ∈ l ∧ m ≠ .nan ∧ ∀ v ∈ l, F64.lt v m = false) := by
  refine ⟨by rintro rfl; rfl, ?_⟩
  rintro x r rfl
  obtain ⟨m, e, h1, h2, -, h4⟩ := extreme_fold (fun a b => F64.lt b a) (fun a b c h h' => flt_trans c b a h' h) (fun a => (flt_nan a).2) (x :: r) x
  have e' : SmallestFloat64 ieeeOps (x :: r) = .ok m := congrArg Go.ok e
  refine ⟨?_, fun hx => ⟨m, e', ?_, fun h => hx (h2 h), fun v hv => h4 v hv (flt_irrefl v)⟩⟩
  · rintro rfl
    have : ∀ l : List F64, l.foldl (fun m v => if F64.lt v m then v else m) .nan = .nan := by
      intro l
      induction l with
      | nil => rfl
      | cons a l ih => rw [List.foldl_cons, (flt_nan a).1]; exact ih
    exact congrArg Go.ok (this _)
  · rcases h1 with rfl | h1
    · exact List.mem_cons_self ..
    · exact h1

/-- C55: `Min` returns one of its arguments, and the other one is not smaller; with a NaN argument it returns the second. -/
theorem C55_minFloat64 (a b : F64) : (a ≠ .nan → b ≠ .nan → (minFloat64 ieeeOps a b = a ∨ minFloat64 ieeeOps a b = b) ∧
      F64.lt a (minFloat64 ieeeOps a b) = false ∧ F64.lt b (minFloat64 ieeeOps a b) = false) ∧
    (a = .nan ∨ b = .nan → minFloat64 ieeeOps a b = b) := by
  have e : minFloat64 ieeeOps a b = if F64.lt a b then a else b := rfl
  rw [e]
  by_cases h : F64.lt a b = true
  · rw [if_pos h]
    refine ⟨fun _ _ => ⟨Or.inl rfl, flt_irrefl a, ?_⟩, ?_⟩
    · by_contra hc
      have := flt_trans a b a h (by simpa using hc)
      rw [flt_irrefl] at this
      simp at this
    · rintro (rfl | rfl)
      · rw [(flt_nan b).2] at h; simp at h
      · rw [(flt_nan a).1] at h; simp at h
  · rw [if_neg h]
    exact ⟨fun _ _ => ⟨Or.inr rfl, by simpa using h, flt_irrefl b⟩, fun _ => rfl⟩

example : BiggestFloat64 ieeeOps [.fin 2, .nan, .inf true, .fin 3, .zero true] = .ok (.fin 3) ∧
    SmallestFloat64 ieeeOps [.fin 2, .nan, .fin (-1), .zero true] = .ok (.fin (-1)) ∧ BiggestFloat64 ieeeOps [.nan, .fin 3] = .ok .nan := by
  decide +kernel

/-! ### C65: random helpers -/

/-- C65 is violated: `GenerateRandSalt` never returns a salt of `SaltLen` bytes. -/
theorem C65_violated_salt : GenerateRandSalt = [] ∧ GenerateRandSalt.length ≠ SaltLen := by decide

/-- C65: `RandElement` returns an element of the list for every draw, panics exactly on an empty list or a failing random source, and every
position is chosen by exactly one value of the uniform draw. -/
theorem C65_randElement (elements : List Int) (draw : (m : Nat) → Option (Fin m)) :
    (RandElement draw elements = .panic ↔ elements = [] ∨ draw elements.length = none) ∧
    (∀ r, RandElement draw elements = .ok r → r ∈ elements) ∧
    (∀ n : Fin elements.length, draw elements.length = some n → RandElement draw elements = .ok elements[n]) := by
  have hval : ∀ n : Fin elements.length, draw elements.length = some n → RandElement draw elements = .ok elements[n] := by
    intro n h
    unfold RandElement
    rw [if_neg (by have := n.isLt; omega), h]
    simp [idx]
  refine ⟨?_, ?_, hval⟩
  · cases h : draw elements.length with
    | none =>
      simp only [or_true, iff_true]
      unfold RandElement
      rw [h]; split <;> rfl
    | some n =>
      rw [hval n h]
      have := n.isLt
      simp only [reduceCtorEq, or_false, false_iff]
      rintro rfl
      simp at this
  · intro r h
    cases hd : draw elements.length with
    | none =>
      unfold RandElement at h
      rw [hd] at h
      split at h <;> cases h
    | some n =>
      rw [hval n hd, Go.ok.injEq] at h
      rw [← h]
      exact List.getElem_mem _

/-- C65: `RandomFft` returns one of the integers -3, ..., 4, each for exactly one value of the uniform draw. -/
theorem C65_randomFft (O : FloatOps) (draw : (m : Nat) → Option (Fin m)) (n : Fin 8) (h : draw 8 = some n) :
    RandomFft O draw = .ok (O.ofInt ((n : Int) - 3)) := by
  unfold RandomFft
  rw [(C65_randElement [-3, -2, -1, 0, 1, 2, 3, 4] draw).2.2 n h, Go.ok_bind, Go.pure_eq]
  congr 2
  fin_cases n <;> rfl

theorem hexDigit_inj (a b : Nat) (ha : a < 16) (hb : b < 16) (h : hexDigit a = hexDigit b) : a = b := by
  interval_cases a <;> interval_cases b <;> first | rfl | (exact absurd h (by decide))

/-- C65: for a positive length, `RandomHexString` returns two characters per byte, and different random bytes give different strings; it
panics exactly for a negative length. -/
theorem C65_randomHex (data data' : (m : Nat) → Option (Fin m → UInt8)) (length : Int) :
    (RandomHexString data length = .panic ↔ length < 0) ∧
    (∀ s, RandomHexString data length = .ok s → (s.length : Int) = 2 * length) ∧
    (∀ v v' s, 0 < length → data length.toNat = some v → data' length.toNat = some v' → RandomHexString data length = .ok s →
      RandomHexString data' length = .ok s → v = v') := by
  have hlen : ∀ b : List UInt8, (b.flatMap fun x => [hexDigit (x.toNat / 16), hexDigit (x.toNat % 16)]).length = 2 * b.length := by
    intro b
    induction b with
    | nil => rfl
    | cons x b ih => rw [List.flatMap_cons, List.length_append, ih, List.length_cons]; simp; omega
  have hinj : ∀ b c : List UInt8, (b.flatMap fun x => [hexDigit (x.toNat / 16), hexDigit (x.toNat % 16)]) =
      (c.flatMap fun x => [hexDigit (x.toNat / 16), hexDigit (x.toNat % 16)]) → b = c := by
    intro b
    induction b with
    | nil => intro c h; cases c with
      | nil => rfl
      | cons y c => simp at h
    | cons x b ih => intro c h; cases c with
      | nil => simp at h
      | cons y c =>
        simp only [List.flatMap_cons, List.cons_append, List.nil_append, List.cons.injEq] at h
        obtain ⟨e1, e2, e3⟩ := h
        have hx := UInt8.toNat_lt x
        have hy := UInt8.toNat_lt y
        have d1 := hexDigit_inj _ _ (by omega) (by omega) e1
        have d2 := hexDigit_inj _ _ (by omega) (by omega) e2
        rw [ih c e3, UInt8.toNat_inj.1 (show x.toNat = y.toNat by omega)]
  refine ⟨?_, ?_, ?_⟩
  · unfold RandomHexString
    split
    · subst_vars; simp
    · split
      · simpa
      · simp; omega
  · intro s h
    unfold RandomHexString at h
    split at h
    · rw [Go.ok.injEq] at h; subst_vars; rfl
    · split at h
      · cases h
      · rw [Go.ok.injEq] at h
        rw [← h, hlen]
        split <;> simp <;> omega
  · intro v v' s hp h1 h2 e1 e2
    unfold RandomHexString at e1 e2
    rw [if_neg (by omega), if_neg (by omega), Go.ok.injEq] at e1 e2
    simp only [h1, h2] at e1 e2
    have := hinj _ _ (e1.trans e2.symm)
    exact List.ofFn_inj.1 this

example : RandomHexString (fun m => some fun _ => 0xa5) 2 = .ok ['a', '5', 'a', '5'] := by decide

end Falcon
