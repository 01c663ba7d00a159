import Verif.Lemmas.Encoding2
/-!
# Properties C01–C07: the signature encoding

`Compress`/`Decompress` are the models (`Verif.Model.Encoding`); `code`, `codeLen`, `bytesBits`, `trimZeros` are the
independent specification (`Verif.Spec.Code`). `slen` is bounded by 2^60 only where `8*slen` must not wrap.
-/

namespace Falcon
open Spec

/-- C01. Decoding what was encoded gives back the vector, for every non-empty vector. -/
theorem C01_compress_decompress_roundtrip (v : List Int16) (hv : v ≠ []) (slen : Int)
    (hs : -2 ^ 60 ≤ slen ∧ slen < 2 ^ 60) (x : List UInt8) (h : Compress v slen = .ok x) :
    Decompress x slen v.length = .ok (.ok (v.map Int16.toInt)) := by
  obtain ⟨hb, hl, hc⟩ := compress_bits h
  have h8 : i64 (8 * slen) = 8 * slen := i64_eq (by omega) (by omega)
  rw [decompress_ok_iff]
  refine ⟨by omega, ?_, by simp, by rw [hb]; exact List.prefix_append _ _⟩
  by_contra hz
  have hz' : ∀ b ∈ x, b = 0 := by simpa using hz
  rw [← bytes_zero_iff, ← trimZeros_nil_iff, hb, trimZeros_append_zeros, trimZeros_code] at hz'
  have hz'' := congrArg List.length hz'
  rw [code_length] at hz''
  cases v with
  | nil => exact hv rfl
  | cons c t => simp [codeLen] at hz''

/-- C01, the excluded case: the encoding of the empty vector makes the decoder panic. -/
theorem C01_empty_vector_panics (slen : Int) (hs : 0 ≤ slen ∧ slen < 2 ^ 60) :
    ∃ x, Compress [] slen = .ok x ∧ Decompress x slen 0 = .panic := by
  have h8 : i64 (8 * slen) = 8 * slen := i64_eq (by omega) (by omega)
  have h : Compress [] slen = .ok (packBytes (List.replicate (8 * slen).toNat false)) := by
    unfold Compress
    simp only [List.foldl_nil, h8]
    rw [if_neg (by simp; omega)]
    simp
  refine ⟨_, h, ?_⟩
  obtain ⟨hb, hl, hc⟩ := compress_bits h
  rw [decompress_panic_iff]
  refine ⟨by omega, Or.inl ?_⟩
  rw [← bytes_zero_iff, hb]
  simp [code]

/-- The hypotheses of C01 are met by a vector with both signs, zero and the extreme value -32768. -/
example : (Compress [300, -5, -32768, 0] 37).toOption.isSome ∧ (Compress [300, -5, -32768, 0] 36).toOption.isNone := by
  decide +kernel

/-- C02. `Compress` succeeds exactly when the code fits, and then returns `slen` bytes. -/
theorem C02_compress_fits (v : List Int16) (slen : Int) (hs : -2 ^ 60 ≤ slen ∧ slen < 2 ^ 60) :
    ((codeLen (v.map Int16.toInt) : Int) ≤ 8 * slen → ∃ x, Compress v slen = .ok x ∧ (x.length : Int) = slen) ∧
    (8 * slen < (codeLen (v.map Int16.toInt) : Int) → Compress v slen = .error .tooLong) := by
  have h8 : i64 (8 * slen) = 8 * slen := i64_eq (by omega) (by omega)
  constructor
  · intro hf
    have h : ∃ x, Compress v slen = .ok x := by
      unfold Compress
      simp only [compress_string, code_length, h8]
      rw [if_neg (by omega)]
      exact ⟨_, rfl⟩
    obtain ⟨x, hx⟩ := h
    obtain ⟨hb, hl, hc⟩ := compress_bits hx
    exact ⟨x, hx, by omega⟩
  · intro hf
    unfold Compress
    simp only [compress_string, code_length, h8]
    rw [if_pos (by omega)]

/-- The boundary is met exactly: 27 bits do not fit in 3 bytes, 24 bits do. -/
example : codeLen [0, 1, -2] = 27 ∧ codeLen [0, 1] = 18 ∧ codeLen [128, 256, 512] = 34 := by decide

/-- C03. Different vectors, of any lengths, have different encodings. -/
theorem C03_compress_injective (v w : List Int16) (slen : Int) (x : List UInt8)
    (hv : Compress v slen = .ok x) (hw : Compress w slen = .ok x) : v = w := by
  have h1 := (compress_bits hv).1
  have h2 := (compress_bits hw).1
  have h3 : code (v.map Int16.toInt) = code (w.map Int16.toInt) := by
    rw [← trimZeros_code (v.map _), ← trimZeros_code (w.map _)]
    rw [← trimZeros_append_zeros (code (v.map _)), ← h1, h2, trimZeros_append_zeros]
  have h4 := code_injective h3
  exact (List.map_inj_right (fun a b h => Int16.toInt_inj.1 h)).1 h4

/-- C04. Exactly which strings are accepted, and with which result. -/
theorem C04_decompress_accepts_iff (x : List UInt8) (slen n : Int) (v : List Int) :
    Decompress x slen n = .ok (.ok v) ↔
      (x.length : Int) ≤ slen ∧ (∃ b ∈ x, b ≠ 0) ∧ (v.length : Int) = n ∧ code v <+: bytesBits x :=
  decompress_ok_iff x slen n v

example : (∃ b ∈ [(3 : UInt8), 128], b ≠ 0) ∧ code [3] <+: bytesBits [3, 128] := by decide

/-- C05, what holds. `Decompress` panics exactly on strings that are all zero, or that are cut (after removal of
trailing zero bits) in the middle of a coefficient before the `n`-th one; otherwise it returns. -/
theorem C05_decompress_panics_iff_partial (x : List UInt8) (slen n : Int) :
    (Decompress x slen n = .panic ↔
      (x.length : Int) ≤ slen ∧ ((∀ b ∈ x, b = 0) ∨
        ∃ w r, trimZeros (bytesBits x) = code w ++ r ∧ (w.length : Int) < n ∧ 0 < r.length ∧ r.length ≤ 8)) ∧
    Decompress x slen n ≠ .diverge :=
  ⟨decompress_panic_iff x slen n, decompress_not_diverge x slen n⟩

/-- C05 is violated: every all-zero string that passes the length check panics, for every `n`. -/
theorem C05_violated_all_zero (k : Nat) (slen n : Int) (h : (k : Int) ≤ slen) :
    Decompress (List.replicate k 0) slen n = .panic := by
  rw [decompress_panic_iff]
  exact ⟨by simpa using h, Or.inl (by simp)⟩

/-- C05 is violated by truncated strings too: a lone byte never holds a coefficient. -/
theorem C05_violated_truncated (b : UInt8) (slen n : Int) (h : 1 ≤ slen) (hn : 0 < n) :
    Decompress [b] slen n = .panic := by
  rw [decompress_panic_iff]
  refine ⟨by simpa using h, ?_⟩
  by_cases hb : b = 0
  · left; simp [hb]
  · right
    refine ⟨[], trimZeros (bytesBits [b]), by simp [code], by simpa using hn, ?_, ?_⟩
    · rw [List.length_pos_iff]
      intro hc
      rw [trimZeros_nil_iff, bytes_zero_iff] at hc
      exact hb (hc b (by simp))
    · obtain ⟨k, hk⟩ := trimZeros_prefix (bytesBits [b])
      have := congrArg List.length hk
      rw [bytesBits_length] at this
      simp at this
      omega

/-- C06 is violated: every non-empty vector whose code leaves at least one spare bit has two different encodings of
the full length `slen`, both accepted. -/
theorem C06_violated_two_encodings (v : List Int) (hv : v ≠ []) (slen : Nat) (h : codeLen v < 8 * slen) :
    ∃ x y : List UInt8, x ≠ y ∧ x.length = slen ∧ y.length = slen ∧
      Decompress x slen v.length = .ok (.ok v) ∧ Decompress y slen v.length = .ok (.ok v) := by
  let k := 8 * slen - codeLen v
  let u1 := code v ++ List.replicate k false
  let u2 := code v ++ (List.replicate (k - 1) false ++ [true])
  have hl1 : u1.length = 8 * slen := by simp [u1, code_length, k]; omega
  have hl2 : u2.length = 8 * slen := by simp [u2, code_length, k]; omega
  have b1 := bytesBits_packBytes u1 (by omega)
  have b2 := bytesBits_packBytes u2 (by omega)
  have hp : ∀ u t, u = code v ++ t → u.length = 8 * slen →
      Decompress (packBytes u) slen v.length = .ok (.ok v) := by
    intro u t hu hl
    rw [decompress_ok_iff]
    have hb := bytesBits_packBytes u (by omega)
    refine ⟨by rw [packBytes_length]; omega, ?_, rfl, by rw [hb, hu]; exact List.prefix_append _ _⟩
    by_contra hz
    have hz' : ∀ b ∈ packBytes u, b = 0 := by simpa using hz
    rw [← bytes_zero_iff, hb, hu] at hz'
    rcases code_ends v with he | ⟨q, hq⟩
    · have := congrArg List.length he
      rw [code_length] at this
      cases v with
      | nil => exact hv rfl
      | cons c t => simp [codeLen] at this
    · have := hz' true (by simp [hq])
      simp at this
  refine ⟨packBytes u1, packBytes u2, ?_, by rw [packBytes_length]; omega, by rw [packBytes_length]; omega,
    hp u1 _ rfl hl1, hp u2 _ rfl hl2⟩
  intro hc
  rw [hc, b2] at b1
  have : (List.replicate (k - 1) false ++ [true]) = List.replicate k false := List.append_cancel_left b1
  have hm : true ∈ List.replicate k false := by rw [← this]; simp
  simp at hm

example : codeLen (List.replicate 512 (-7)) < 8 * 625 := by decide +kernel

/-- C06, what holds: two encodings of the same vector agree on the bits that carry it; and the alternative code of
zero with the sign bit set is rejected wherever it occurs before the `n`-th coefficient. -/
theorem C06_code_bits_determined_partial (x y : List UInt8) (slen n : Int) (v : List Int)
    (hx : Decompress x slen n = .ok (.ok v)) (hy : Decompress y slen n = .ok (.ok v)) :
    (bytesBits x).take (codeLen v) = (bytesBits y).take (codeLen v) := by
  rw [decompress_ok_iff] at hx hy
  obtain ⟨t, ht⟩ := hx.2.2.2
  obtain ⟨s, hs⟩ := hy.2.2.2
  rw [← ht, ← hs, ← code_length]
  simp

/-- C06, what holds: no accepted string carries a negative zero before the `n`-th coefficient. -/
theorem C06_negative_zero_rejected (x : List UInt8) (slen n : Int) (w : List Int) (hw : (w.length : Int) < n)
    (t : List Bool)
    (hx : bytesBits x = code w ++ [true, false, false, false, false, false, false, false, true] ++ t) :
    ∀ v, Decompress x slen n ≠ .ok (.ok v) := by
  intro v hv
  rw [decompress_ok_iff] at hv
  obtain ⟨_, _, hn, s, hs⟩ := hv
  -- v starts with w, and the next coefficient cannot have this code
  have hlen : w.length < v.length := by omega
  have h1 := (decompressLoop_ok w.length (bytesBits x) [] w).2 ⟨w, rfl, rfl, by
    rw [hx, List.append_assoc]; exact List.prefix_append _ _⟩
  have h2 := (decompressLoop_ok w.length (bytesBits x) [] (v.take w.length)).2 ⟨v.take w.length, rfl, by simp; omega, by
    rw [← hs]
    conv_rhs => rw [← List.take_append_drop w.length v, code_append, List.append_assoc]
    exact List.prefix_append _ _⟩
  rw [h1] at h2
  simp at h2
  obtain ⟨c, v', hv'⟩ : ∃ c v', v.drop w.length = c :: v' := by
    cases hd : v.drop w.length with
    | nil => simp at hd; omega
    | cons c v' => exact ⟨c, v', rfl⟩
  have h3 : code v = code w ++ (codeCoef c ++ code v') := by
    conv_lhs => rw [← List.take_append_drop w.length v, code_append, ← h2, hv', code_cons]
  rw [h3, hx] at hs
  simp only [List.append_assoc] at hs
  have h4 := List.append_cancel_left hs
  simp only [codeCoef, List.cons_append, List.append_assoc, List.cons.injEq] at h4
  obtain ⟨hneg, h6, h5, h4', h3', h2', h1', h0', h⟩ := h4
  have hn0 : c.natAbs / 128 = 0 := by
    by_contra hh
    obtain ⟨k, hk⟩ := Nat.exists_eq_succ_of_ne_zero hh
    rw [hk, List.replicate_succ] at h
    simp at h
  have hlow := parse7_low (c.natAbs % 128) (Nat.mod_lt _ (by decide))
  simp only [testBit_mod_128 _ _ (show 6 < 7 by decide), testBit_mod_128 _ _ (show 5 < 7 by decide),
        testBit_mod_128 _ _ (show 4 < 7 by decide), testBit_mod_128 _ _ (show 3 < 7 by decide),
        testBit_mod_128 _ _ (show 2 < 7 by decide), testBit_mod_128 _ _ (show 1 < 7 by decide),
        testBit_mod_128 _ _ (show 0 < 7 by decide), h6, h5, h4', h3', h2', h1', h0'] at hlow
  have : parseBin [false, false, false, false, false, false, false] = 0 := by decide
  simp at hneg
  omega

/-- C07. A decoded vector has length `n`, its code fits in the input, and so each coefficient is bounded. -/
theorem C07_decoded_bounds (x : List UInt8) (slen n : Int) (v : List Int)
    (h : Decompress x slen n = .ok (.ok v)) :
    (v.length : Int) = n ∧ codeLen v ≤ 8 * x.length ∧
      ∀ c ∈ v, (c.natAbs : Int) ≤ 128 * (8 * slen - 9 * n) + 127 := by
  rw [decompress_ok_iff] at h
  obtain ⟨hl, _, hn, hp⟩ := h
  have h1 := hp.length_le
  rw [code_length, bytesBits_length] at h1
  refine ⟨hn, h1, ?_⟩
  intro c hc
  have h2 : ∀ l : List Int, ∀ c ∈ l, 9 * l.length + c.natAbs / 128 ≤ codeLen l := by
    intro l
    induction l with
    | nil => simp
    | cons a l ih =>
      intro c hc
      have h9 : 9 * l.length ≤ codeLen l := by
        clear ih hc
        induction l with
        | nil => simp
        | cons b l ih => simp [codeLen] at *; omega
      simp only [List.mem_cons] at hc
      rcases hc with rfl | hc
      · simp [codeLen] at *; omega
      · have := ih c hc
        simp [codeLen] at *; omega
  have := h2 v c hc
  omega

/-- Falcon-512: every decoded coefficient is below 2^16 in absolute value. -/
theorem C07_falcon512_bound (x : List UInt8) (v : List Int) (h : Decompress x 625 512 = .ok (.ok v)) :
    ∀ c ∈ v, c.natAbs ≤ 50303 := by
  intro c hc
  have := (C07_decoded_bounds x 625 512 v h).2.2 c hc
  omega

example : ∃ v, Decompress [3, 128] 2 1 = .ok (.ok v) :=
  ⟨[3], (C04_decompress_accepts_iff _ _ _ _).2 (by decide)⟩

end Falcon
