import Verif.Lemmas.Encoding
/-! Consequences of the loop lemmas for `Decompress` and `Compress`. -/

namespace Falcon
open Spec

theorem bytes_zero_iff (x : List UInt8) : (∀ b ∈ bytesBits x, b = false) ↔ ∀ b ∈ x, b = 0 := by
  simp only [bytesBits, List.mem_flatMap]
  constructor
  · intro h b hb
    exact (bits8_zero_iff b).1 fun t ht => h t ⟨b, hb, ht⟩
  · rintro h t ⟨b, hb, ht⟩
    exact (bits8_zero_iff b).2 (h b hb) t ht

theorem decompress_unfold (x : List UInt8) (slen n : Int) (h : (x.length : Int) ≤ slen) :
    Decompress x slen n =
      if trimZeros (bytesBits x) = [] then .panic else decompressLoop n (trimZeros (bytesBits x)) [] := by
  unfold Decompress
  rw [if_neg (by omega)]
  simp only [decompress_string, stripZeros_spec]
  split <;> simp

theorem decompress_ok_iff (x : List UInt8) (slen n : Int) (v : List Int) :
    Decompress x slen n = .ok (.ok v) ↔
      (x.length : Int) ≤ slen ∧ (∃ b ∈ x, b ≠ 0) ∧ (v.length : Int) = n ∧ code v <+: bytesBits x := by
  by_cases h : (x.length : Int) ≤ slen
  · rw [decompress_unfold x slen n h]
    have hz : trimZeros (bytesBits x) = [] ↔ ¬ ∃ b ∈ x, b ≠ 0 := by
      rw [trimZeros_nil_iff, bytes_zero_iff]; simp
    by_cases h0 : trimZeros (bytesBits x) = []
    · rw [if_pos h0]
      have := hz.1 h0
      simp [this]
    · rw [if_neg h0, decompressLoop_ok]
      have h1 : ∃ b ∈ x, b ≠ 0 := by
        by_contra hc
        exact h0 (hz.2 hc)
      simp only [h, h1, true_and, List.nil_append]
      constructor
      · rintro ⟨w, rfl, hl, hp⟩
        exact ⟨hl, (prefix_trim_iff _ _ (code_ends _)).1 hp⟩
      · rintro ⟨hl, hp⟩
        exact ⟨v, rfl, hl, (prefix_trim_iff _ _ (code_ends _)).2 hp⟩
  · unfold Decompress
    rw [if_pos (by omega)]
    simp [h]

theorem decompress_panic_iff (x : List UInt8) (slen n : Int) :
    Decompress x slen n = .panic ↔
      (x.length : Int) ≤ slen ∧ ((∀ b ∈ x, b = 0) ∨
        ∃ w r, trimZeros (bytesBits x) = code w ++ r ∧ (w.length : Int) < n ∧ 0 < r.length ∧ r.length ≤ 8) := by
  by_cases h : (x.length : Int) ≤ slen
  · rw [decompress_unfold x slen n h]
    have hz : trimZeros (bytesBits x) = [] ↔ ∀ b ∈ x, b = 0 := by
      rw [trimZeros_nil_iff, bytes_zero_iff]
    by_cases h0 : trimZeros (bytesBits x) = []
    · rw [if_pos h0]
      exact ⟨fun _ => ⟨h, Or.inl (hz.1 h0)⟩, fun _ => rfl⟩
    · rw [if_neg h0, decompressLoop_panic]
      have h1 : ¬ ∀ b ∈ x, b = 0 := fun hc => h0 (hz.2 hc)
      simp only [h, h1, true_and, false_or, List.length_nil, Nat.zero_add]
      constructor
      · rintro ⟨w, r, hu, hl, hr, hs⟩
        refine ⟨w, r, hu, hl, List.length_pos_iff.2 hr, ?_⟩
        rcases hs with hs | hs
        · omega
        · by_contra hlen
          have hlast := trimZeros_getLast _ h0
          have hne : r.drop 8 ≠ [] := by simp; omega
          have hu' : trimZeros (bytesBits x) = (code w ++ r.take 8) ++ r.drop 8 := by
            rw [List.append_assoc, List.take_append_drop, hu]
          simp only [hu'] at hlast
          rw [List.getLast_append_of_ne_nil _ hne] at hlast
          have := hs _ (List.getLast_mem hne)
          rw [hlast] at this
          simp at this
      · rintro ⟨w, r, hu, hl, hr, hs⟩
        refine ⟨w, r, hu, hl, List.length_pos_iff.1 hr, ?_⟩
        by_cases h8 : r.length < 8
        · exact Or.inl h8
        · right
          rw [List.drop_eq_nil_of_le (by omega)]
          simp
  · unfold Decompress
    rw [if_pos (by omega)]
    simp [h]

theorem decompress_not_diverge (x : List UInt8) (slen n : Int) : Decompress x slen n ≠ .diverge := by
  by_cases h : (x.length : Int) ≤ slen
  · rw [decompress_unfold x slen n h]
    split
    · simp
    · exact decompressLoop_not_diverge _ _ _
  · unfold Decompress
    rw [if_pos (by omega)]
    simp

theorem code_injective {v w : List Int} (h : code v = code w) : v = w := by
  have key : ∀ a b : List Int, a.length ≤ b.length → code a = code b → a = b := by
    intro a b hl h
    have h1 := (decompressLoop_ok a.length (code a) [] a).2 ⟨a, rfl, rfl, List.prefix_rfl⟩
    have h2 := (decompressLoop_ok a.length (code a) [] (b.take a.length)).2
      ⟨b.take a.length, rfl, by simp; omega, by
        rw [h]
        conv_rhs => rw [← List.take_append_drop a.length b, code_append]
        exact List.prefix_append _ _⟩
    rw [h1] at h2
    simp at h2
    have h3 : code b = code a ++ code (b.drop a.length) := by
      conv_lhs => rw [← List.take_append_drop a.length b, code_append, ← h2]
    rw [h] at h3
    have h4 : code (b.drop a.length) = [] := by simpa using h3
    have h5 : b.drop a.length = [] := by
      cases hb : b.drop a.length with
      | nil => rfl
      | cons c t =>
        rw [hb, code_cons] at h4
        have := codeCoef_length_pos c
        simp at h4
        simp [h4.1] at this
    conv_rhs => rw [← List.take_append_drop a.length b, ← h2, h5]
    simp
  rcases Nat.le_total v.length w.length with hl | hl
  · exact key v w hl h
  · exact (key w v hl h.symm).symm

theorem trimZeros_append_zeros (u : List Bool) (k : Nat) :
    trimZeros (u ++ List.replicate k false) = trimZeros u := by
  induction k with
  | zero => simp
  | succ k ih =>
    rw [List.replicate_succ', ← List.append_assoc, ← ih]
    simp [trimZeros]

theorem trimZeros_code (v : List Int) : trimZeros (code v) = code v := by
  rcases code_ends v with h | ⟨q, h⟩
  · rw [h]; rfl
  · rw [h]; simp [trimZeros]

theorem i64_dvd8 (s : Int) : (8 : Int) ∣ i64 (8 * s) := by
  unfold i64
  rw [Int.bmod_def]
  split <;> omega

theorem i64_eq {s : Int} (h1 : -2 ^ 63 ≤ s) (h2 : s < 2 ^ 63) : i64 s = s := by
  unfold i64
  rw [Int.bmod_def]
  split <;> omega

/-- What a successful `Compress` returns, as a bit string. -/
theorem compress_bits {v : List Int16} {slen : Int} {x : List UInt8} (h : Compress v slen = .ok x) :
    bytesBits x = code (v.map Int16.toInt) ++
        List.replicate (i64 (8 * slen) - (code (v.map Int16.toInt)).length).toNat false ∧
      (x.length : Int) * 8 = i64 (8 * slen) ∧ ((code (v.map Int16.toInt)).length : Int) ≤ i64 (8 * slen) := by
  unfold Compress at h
  simp only [compress_string] at h
  split at h
  · simp at h
  · next hc =>
    have h := Except.ok.inj h
    subst h
    have hd := i64_dvd8 slen
    generalize i64 (8 * slen) = cap at *
    generalize code (v.map Int16.toInt) = u at *
    have hlen : (u ++ List.replicate (cap - u.length).toNat false).length = cap.toNat := by
      rw [List.length_append, List.length_replicate]; omega
    refine ⟨bytesBits_packBytes _ (by rw [hlen]; omega), ?_, by omega⟩
    rw [packBytes_length, hlen]
    omega

end Falcon
