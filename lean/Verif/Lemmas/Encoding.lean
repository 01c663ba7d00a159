import Verif.Model.Encoding
import Verif.Spec.Code
import Mathlib.Data.List.Induction
/-! Helper lemmas about the encoder and decoder models. -/

namespace Falcon
open Spec

theorem sprintf_low7 : ∀ x, x < 128 → (sprintf09b x).drop 2 =
    [x.testBit 6, x.testBit 5, x.testBit 4, x.testBit 3, x.testBit 2, x.testBit 1, x.testBit 0] := by
  decide +kernel

theorem byteBits_eq (b : UInt8) : byteBits b = bits8 b.toNat := by
  have h : ∀ x, x < 256 → (formatBin (256 ^^^ x)).drop 1 = bits8 x := by decide +kernel
  exact h _ b.toNat_lt

theorem foldl_append_flatMap {α β : Type} (f : α → List β) (l : List α) (acc : List β) :
    l.foldl (fun u a => u ++ f a) acc = acc ++ l.flatMap f := by
  induction l generalizing acc with
  | nil => simp
  | cons a l ih => simp [ih]

theorem testBit_mod_128 (a i : Nat) (h : i < 7) : (a % 128).testBit i = a.testBit i := by
  have : (128 : Nat) = 2 ^ 7 := rfl
  rw [this, Nat.testBit_mod_two_pow]; simp [h]

theorem encCoef_eq (c : Int16) : encCoef c = codeCoef c.toInt := by
  unfold encCoef codeCoef
  rw [sprintf_low7 _ (Nat.mod_lt _ (by decide))]
  have : (decide (¬ c ≥ 0)) = decide (c.toInt < 0) := by
    congr 1
    rw [ge_iff_le, Int16.le_iff_toInt_le]
    simp
  rw [this]
  simp [testBit_mod_128]

theorem compress_string (v : List Int16) :
    v.foldl (fun u coef => u ++ encCoef coef) [] = code (v.map Int16.toInt) := by
  rw [foldl_append_flatMap]
  simp only [List.nil_append, code, List.flatMap_map]
  congr 1; funext c; exact encCoef_eq c

theorem codeCoef_length (c : Int) : (codeCoef c).length = 9 + c.natAbs / 128 := by
  simp [codeCoef]; omega

theorem code_length (v : List Int) : (code v).length = codeLen v := by
  induction v with
  | nil => rfl
  | cons c v ih => simp [code, codeLen, codeCoef_length] at *; try omega

theorem codeCoef_length_pos (c : Int) : 0 < (codeCoef c).length := by rw [codeCoef_length]; omega

theorem code_cons (c : Int) (v : List Int) : code (c :: v) = codeCoef c ++ code v := by simp [code]

theorem code_append (v w : List Int) : code (v ++ w) = code v ++ code w := by simp [code]

theorem bytesBits_length (x : List UInt8) : (bytesBits x).length = 8 * x.length := by
  induction x with
  | nil => rfl
  | cons b x ih => simp [bytesBits, bits8] at *; omega

theorem decompress_string (x : List UInt8) :
    x.foldl (fun u elt => u ++ byteBits elt) [] = bytesBits x := by
  rw [foldl_append_flatMap, funext byteBits_eq, List.nil_append, bytesBits]

theorem bits8_parseBin : ∀ b0 b1 b2 b3 b4 b5 b6 b7 : Bool,
    bits8 (UInt8.ofNat (parseBin [b0, b1, b2, b3, b4, b5, b6, b7])).toNat =
      [b0, b1, b2, b3, b4, b5, b6, b7] := by decide +kernel

theorem bytesBits_packBytes (u : List Bool) (h : 8 ∣ u.length) : bytesBits (packBytes u) = u := by
  match u with
  | [] => rfl
  | b0 :: b1 :: b2 :: b3 :: b4 :: b5 :: b6 :: b7 :: rest =>
    have ih := bytesBits_packBytes rest (by simp at h; omega)
    simp only [packBytes, bytesBits, List.flatMap_cons, bits8_parseBin] at *
    simp [ih]
  | [_] | [_, _] | [_, _, _] | [_, _, _, _] | [_, _, _, _, _] | [_, _, _, _, _, _] | [_, _, _, _, _, _, _] =>
    simp at h; try omega

theorem packBytes_length (u : List Bool) : (packBytes u).length = u.length / 8 := by
  match u with
  | [] => rfl
  | b0 :: b1 :: b2 :: b3 :: b4 :: b5 :: b6 :: b7 :: rest =>
    have ih := packBytes_length rest
    simp [packBytes, ih]; omega
  | [_] | [_, _] | [_, _, _] | [_, _, _, _] | [_, _, _, _, _] | [_, _, _, _, _, _] | [_, _, _, _, _, _, _] =>
    simp [packBytes]

theorem bits8_injective : ∀ a b : UInt8, bits8 a.toNat = bits8 b.toNat → a = b := by
  have h : ∀ a, a < 256 → UInt8.ofNat (parseBin (bits8 a)) = UInt8.ofNat a := by decide +kernel
  intro a b e
  have ha := h _ a.toNat_lt
  have hb := h _ b.toNat_lt
  rw [e] at ha
  rw [ha] at hb
  simpa using hb

theorem bytesBits_injective {x y : List UInt8} (h : bytesBits x = bytesBits y) : x = y := by
  induction x generalizing y with
  | nil =>
    cases y with
    | nil => rfl
    | cons b y => simp [bytesBits, bits8] at h
  | cons a x ih =>
    cases y with
    | nil => simp [bytesBits, bits8] at h
    | cons b y =>
      simp only [bytesBits, List.flatMap_cons] at h
      have := List.append_inj h (by simp [bits8])
      rw [bits8_injective a b this.1, ih (y := y) this.2]

theorem bits8_zero_iff (b : UInt8) : (∀ t ∈ bits8 b.toNat, t = false) ↔ b = 0 := by
  constructor
  · intro h
    apply bits8_injective
    simp [bits8] at h ⊢
    exact h
  · rintro rfl; simp [bits8]

/-! ### strip -/

theorem stripZeros_spec (u : List Bool) :
    stripZeros u = if trimZeros u = [] then .panic else .ok (trimZeros u) := by
  induction u using List.reverseRecOn with
  | nil => rw [stripZeros]; simp [trimZeros]
  | append_singleton l a ih =>
    rw [stripZeros]
    cases a with
    | true => split <;> rename_i h <;> simp at h <;> simp_all [trimZeros]
    | false => split <;> rename_i h <;> simp at h <;> simp_all [trimZeros]

theorem trimZeros_prefix (u : List Bool) : ∃ k, u = trimZeros u ++ List.replicate k false := by
  induction u using List.reverseRecOn with
  | nil => exact ⟨0, rfl⟩
  | append_singleton l a ih =>
    cases a with
    | true => exact ⟨0, by simp [trimZeros]⟩
    | false =>
      obtain ⟨k, hk⟩ := ih
      refine ⟨k + 1, ?_⟩
      have : trimZeros (l ++ [false]) = trimZeros l := by simp [trimZeros]
      rw [this, List.replicate_succ', ← List.append_assoc, ← hk]

theorem trimZeros_getLast (u : List Bool) (h : trimZeros u ≠ []) :
    (trimZeros u).getLast h = true := by
  induction u using List.reverseRecOn with
  | nil => simp [trimZeros] at h
  | append_singleton l a ih =>
    cases a with
    | true => simp [trimZeros]
    | false =>
      have : trimZeros (l ++ [false]) = trimZeros l := by simp [trimZeros]
      simp only [this] at h ⊢
      exact ih h

theorem trimZeros_nil_iff (u : List Bool) : trimZeros u = [] ↔ ∀ b ∈ u, b = false := by
  constructor
  · intro h
    obtain ⟨k, hk⟩ := trimZeros_prefix u
    rw [h] at hk
    rw [hk]; simp
  · intro h
    unfold trimZeros
    simp only [List.reverse_eq_nil_iff]
    have h' : ∀ b ∈ u.reverse, b = false := fun b hb => h b (by simpa using hb)
    generalize u.reverse = l at h'
    induction l with
    | nil => rfl
    | cons a l ih =>
      simp at h'
      simp [h'.1]
      exact ih (by simpa using h'.2)

/-- A prefix ending in a one survives the stripping of trailing zeros. -/
theorem prefix_trim_iff (p u : List Bool) (hp : p = [] ∨ ∃ q, p = q ++ [true]) :
    p <+: trimZeros u ↔ p <+: u := by
  obtain ⟨k, hk⟩ := trimZeros_prefix u
  constructor
  · rintro ⟨t, ht⟩
    exact ⟨t ++ List.replicate k false, by rw [← List.append_assoc, ht, ← hk]⟩
  · rintro ⟨t, ht⟩
    rcases hp with rfl | ⟨q, rfl⟩
    · exact List.nil_prefix
    · rw [hk] at ht
      by_cases hl : (q ++ [true]).length ≤ (trimZeros u).length
      · exact List.prefix_of_prefix_length_le ⟨t, ht⟩ (List.prefix_append _ _) hl
      · exfalso
        have hlt : q.length ≥ (trimZeros u).length := by simp at hl; omega
        have h1 : (q ++ [true] ++ t)[q.length]? = some true := by simp
        rw [ht] at h1
        rw [List.getElem?_append_right hlt] at h1
        rw [List.getElem?_replicate] at h1
        split at h1 <;> simp at h1

theorem code_ends (v : List Int) : code v = [] ∨ ∃ q, code v = q ++ [true] := by
  induction v using List.reverseRecOn with
  | nil => left; rfl
  | append_singleton l a ih =>
    right
    refine ⟨code l ++ (codeCoef a).dropLast, ?_⟩
    rw [code_append, List.append_assoc]
    congr 1
    have : ∃ q, codeCoef a = q ++ [true] := ⟨_, rfl⟩
    obtain ⟨q, hq⟩ := this
    simp [code, hq]

/-! ### scanning one coefficient -/

theorem scanHigh_replicate (h : Nat) (r : List Bool) :
    scanHigh (List.replicate h false ++ true :: r) = .ok (h, r) := by
  induction h with
  | zero => simp [scanHigh]
  | succ h ih => simp [List.replicate_succ, scanHigh, ih]

theorem scanHigh_ok_iff (u : List Bool) (h : Nat) (r : List Bool) :
    scanHigh u = .ok (h, r) ↔ u = List.replicate h false ++ true :: r := by
  constructor
  · intro e
    induction u generalizing h r with
    | nil => simp [scanHigh] at e
    | cons b u ih =>
      cases b with
      | true => simp [scanHigh] at e; simp [← e.1, e.2]
      | false =>
        simp only [scanHigh, Go.bind_eq_ok] at e
        obtain ⟨⟨h', r'⟩, e1, e2⟩ := e
        simp at e2
        rw [ih _ _ e1, ← e2.1, ← e2.2]; simp [List.replicate_succ]
  · rintro rfl; exact scanHigh_replicate h r

theorem scanHigh_panic_iff (u : List Bool) : scanHigh u = .panic ↔ ∀ b ∈ u, b = false := by
  induction u with
  | nil => simp [scanHigh]
  | cons b u ih =>
    cases b with
    | true => simp [scanHigh]
    | false => simp [scanHigh, Go.bind_eq_panic, ih]

theorem scanHigh_not_diverge (u : List Bool) : scanHigh u ≠ .diverge := by
  induction u with
  | nil => simp [scanHigh]
  | cons b u ih =>
    cases b with
    | true => simp [scanHigh]
    | false => simp [scanHigh, Go.bind_eq_diverge, ih]

theorem parse7 : ∀ b6 b5 b4 b3 b2 b1 b0 : Bool,
    parseBin [b6, b5, b4, b3, b2, b1, b0] < 128 ∧
    [b6, b5, b4, b3, b2, b1, b0] =
      (let a := parseBin [b6, b5, b4, b3, b2, b1, b0]
       [a.testBit 6, a.testBit 5, a.testBit 4, a.testBit 3, a.testBit 2, a.testBit 1, a.testBit 0]) := by
  decide +kernel

theorem parse7_low : ∀ a, a < 128 → parseBin [a.testBit 6, a.testBit 5, a.testBit 4, a.testBit 3, a.testBit 2,
    a.testBit 1, a.testBit 0] = a := by decide +kernel

/-- What the loop body reads: if the scan succeeds and the coefficient is not a negative zero, the
string starts with the canonical code of the coefficient. -/
theorem parse_coef (u lowStr rest : List Bool) (high : Nat) (h1 : slice u 1 8 = .ok lowStr)
    (h2 : scanHigh (u.drop 8) = .ok (high, rest)) (sign coef : Int)
    (hs : sign = if u.take 1 = [true] then -1 else 1)
    (hc : coef = sign * ((parseBin lowStr : Int) + (high : Int) * 128))
    (hz : ¬ (coef = 0 ∧ sign = -1)) : u = codeCoef coef ++ rest := by
  rw [scanHigh_ok_iff] at h2
  unfold slice at h1
  split at h1
  · match u with
    | s :: b6 :: b5 :: b4 :: b3 :: b2 :: b1 :: b0 :: r =>
      simp at h1 h2
      subst h1 h2
      have h7 := parse7 b6 b5 b4 b3 b2 b1 b0
      generalize parseBin [b6, b5, b4, b3, b2, b1, b0] = low at *
      have hn : coef.natAbs = low + high * 128 := by
        rw [hc, hs]; split <;> omega
      have hd : coef.natAbs / 128 = high := by omega
      have hm : coef.natAbs % 128 = low := by omega
      have hsg : decide (coef < 0) = s := by
        cases s <;> simp at hs <;> simp [hs] at hc hz ⊢ <;> omega
      have h8 := h7.2
      simp only at h8
      simp only [codeCoef, hd, hsg]
      rw [← hm] at h8
      simp only [testBit_mod_128 _ _ (show 6 < 7 by decide), testBit_mod_128 _ _ (show 5 < 7 by decide),
        testBit_mod_128 _ _ (show 4 < 7 by decide), testBit_mod_128 _ _ (show 3 < 7 by decide),
        testBit_mod_128 _ _ (show 2 < 7 by decide), testBit_mod_128 _ _ (show 1 < 7 by decide),
        testBit_mod_128 _ _ (show 0 < 7 by decide)] at h8
      rw [← h8]
      simp
    | [] | [_] | [_, _] | [_, _, _] | [_, _, _, _] | [_, _, _, _, _] | [_, _, _, _, _, _]
    | [_, _, _, _, _, _, _] => simp at *
  · simp at h1

/-- Conversely the loop body reads the canonical code of `c` as `c`. -/
theorem read_coef (c : Int) (rest : List Bool) :
    ∃ lowStr, slice (codeCoef c ++ rest) 1 8 = .ok lowStr ∧
      scanHigh ((codeCoef c ++ rest).drop 8) = .ok (c.natAbs / 128, rest) ∧
      parseBin lowStr = c.natAbs % 128 ∧
      ((codeCoef c ++ rest).take 1 = [true] ↔ c < 0) := by
  refine ⟨[c.natAbs.testBit 6, c.natAbs.testBit 5, c.natAbs.testBit 4, c.natAbs.testBit 3,
    c.natAbs.testBit 2, c.natAbs.testBit 1, c.natAbs.testBit 0], ?_, ?_, ?_, ?_⟩
  · simp [slice, codeCoef]
  · rw [scanHigh_ok_iff]; simp [codeCoef]
  · have := parse7_low (c.natAbs % 128) (Nat.mod_lt _ (by decide))
    simpa [testBit_mod_128] using this
  · simp [codeCoef]

/-- The decoding loop succeeds with `v` iff `v` extends the accumulator by a vector whose canonical code
is a prefix of the string, and has the requested length. -/
theorem decompressLoop_ok (n : Int) (u : List Bool) (v0 v : List Int) :
    decompressLoop n u v0 = .ok (.ok v) ↔
      ∃ w, v = v0 ++ w ∧ (v.length : Int) = n ∧ code w <+: u := by
  constructor
  · intro h
    fun_induction decompressLoop n u v0 with
    | case1 => simp at h
    | case2 => simp at h
    | case3 => simp at h
    | case4 => simp at h
    | case5 => simp at h
    | case6 u v0 hc sign lowStr h1 low high rest h2 coef hz hlt ih =>
      obtain ⟨w, hv, hl, hp⟩ := ih h
      refine ⟨coef :: w, by simp [hv], hl, ?_⟩
      rw [code_cons, parse_coef u lowStr rest high h1 h2 sign coef rfl rfl hz]
      exact (List.prefix_append_right_inj _).2 hp
    | case7 => simp at h
    | case8 u v0 hc hn =>
      simp at h hn
      exact ⟨[], by simp [h], by rw [← h]; exact hn, by simp [code]⟩
  · rintro ⟨w, rfl, hl, hp⟩
    induction w generalizing u v0 with
    | nil =>
      unfold decompressLoop
      simp at hl
      rw [if_neg (by omega), if_neg (by omega)]
      simp
    | cons c w ih =>
      rw [code_cons] at hp
      obtain ⟨t, rfl⟩ := hp
      rw [List.append_assoc]
      obtain ⟨lowStr, h1, h2, h3, h4⟩ := read_coef c (code w ++ t)
      rw [decompressLoop]
      simp at hl
      rw [if_pos ⟨by simp [codeCoef], by omega⟩]
      simp only [h1]
      rw [h2]
      simp only [h3]
      have hcoef : (if List.take 1 (codeCoef c ++ (code w ++ t)) = [true] then (-1 : Int) else 1) *
          (((c.natAbs % 128 : Nat) : Int) + ((c.natAbs / 128 : Nat) : Int) * 128) = c := by
        split
        · next h => have := h4.1 h; omega
        · next h => have := mt h4.2 h; omega
      have hneg : ¬ (c = 0 ∧ (if List.take 1 (codeCoef c ++ (code w ++ t)) = [true] then (-1 : Int) else 1) = -1) := by
        rintro ⟨rfl, h⟩
        split at h
        · next h' => have := h4.1 h'; omega
        · omega
      rw [hcoef, if_neg hneg]
      have := ih (code w ++ t) (v0 ++ [c]) (by simp; omega) (List.prefix_append _ _)
      simpa using this

/-- The decoding loop panics iff it is left, before the `n`-th coefficient, with a non-empty remainder
that is too short or has no terminating one. -/
theorem decompressLoop_panic (n : Int) (u : List Bool) (v0 : List Int) :
    decompressLoop n u v0 = .panic ↔
      ∃ w r, u = code w ++ r ∧ ((v0.length + w.length : Nat) : Int) < n ∧ r ≠ [] ∧
        (r.length < 8 ∨ ∀ b ∈ r.drop 8, b = false) := by
  constructor
  · intro h
    fun_induction decompressLoop n u v0 with
    | case1 u v0 hc h1 =>
      refine ⟨[], u, by simp [code], by simpa using hc.2, hc.1, ?_⟩
      left
      unfold slice at h1
      split at h1
      · simp at h1
      · simp at *; omega
    | case2 => simp at h
    | case3 u v0 hc lowStr h1 h2 =>
      refine ⟨[], u, by simp [code], by simpa using hc.2, hc.1, ?_⟩
      right
      rw [scanHigh_panic_iff] at h2
      exact h2
    | case4 => simp at h
    | case5 => simp at h
    | case6 u v0 hc sign lowStr h1 low high rest h2 coef hz hlt ih =>
      obtain ⟨w, r, hu, hl, hr⟩ := ih h
      refine ⟨coef :: w, r, ?_, ?_, hr⟩
      · rw [code_cons, List.append_assoc, ← hu]
        exact parse_coef u lowStr rest high h1 h2 sign coef rfl rfl hz
      · simp at hl ⊢; omega
    | case7 => simp at h
    | case8 => simp at h
  · rintro ⟨w, r, rfl, hl, hr, hs⟩
    induction w generalizing v0 with
    | nil =>
      unfold decompressLoop
      simp [code] at hl ⊢
      rw [if_pos ⟨hr, by omega⟩]
      cases h1 : slice r 1 8 with
      | panic => rfl
      | diverge => unfold slice at h1; split at h1 <;> simp at h1
      | ok lowStr =>
        simp only
        have hlen : ¬ r.length < 8 := by
          unfold slice at h1; split at h1
          · omega
          · simp at h1
        have := (scanHigh_panic_iff (r.drop 8)).2 (hs.resolve_left hlen)
        split <;> simp_all
    | cons c w ih =>
      rw [code_cons, List.append_assoc]
      obtain ⟨lowStr, h1, h2, h3, h4⟩ := read_coef c (code w ++ r)
      rw [decompressLoop]
      simp at hl
      rw [if_pos ⟨by simp [codeCoef], by omega⟩]
      simp only [h1]
      rw [h2]
      simp only [h3]
      have hcoef : (if List.take 1 (codeCoef c ++ (code w ++ r)) = [true] then (-1 : Int) else 1) *
          (((c.natAbs % 128 : Nat) : Int) + ((c.natAbs / 128 : Nat) : Int) * 128) = c := by
        split
        · next h => have := h4.1 h; omega
        · next h => have := mt h4.2 h; omega
      have hneg : ¬ (c = 0 ∧ (if List.take 1 (codeCoef c ++ (code w ++ r)) = [true] then (-1 : Int) else 1) = -1) := by
        rintro ⟨rfl, h⟩
        split at h
        · next h' => have := h4.1 h'; omega
        · omega
      rw [hcoef, if_neg hneg]
      exact ih (v0 ++ [c]) (by simp; omega)

theorem decompressLoop_not_diverge (n : Int) (u : List Bool) (v0 : List Int) :
    decompressLoop n u v0 ≠ .diverge := by
  intro h
  fun_induction decompressLoop n u v0 with
  | case1 => simp at h
  | case2 u v0 hc h1 => unfold slice at h1; split at h1 <;> simp at h1
  | case3 => simp at h
  | case4 u v0 hc lowStr h1 h2 => exact scanHigh_not_diverge _ h2
  | case5 => simp at h
  | case6 u v0 hc sign lowStr h1 low high rest h2 coef hz hlt ih => exact ih h
  | case7 => simp at h
  | case8 => simp at h

end Falcon
