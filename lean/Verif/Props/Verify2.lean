import Verif.Props.Verify
/-!
# Properties C25–C28: verification, continued
-/

namespace Falcon
open Spec Polynomial

theorem MulZq_congr (f : List Int16) {g g' : List Int16} (h : g.map zq = g'.map zq) : MulZq wrap64 f g = MulZq wrap64 f g' := by
  have hl : g.length = g'.length := by simpa using congrArg List.length h
  obtain ⟨a1, a2, a3⟩ := C15_mulzq_all_lengths_partial f g
  obtain ⟨b1, b2, b3⟩ := C15_mulzq_all_lengths_partial f g'
  by_cases hp : effLen f.length ≠ effLen g.length ∨ 1024 < effLen f.length
  · rw [a1 hp, b1 (by rwa [← hl])]
  · have he : effLen f.length = effLen g.length := by omega
    by_cases h0 : effLen f.length = 0
    · rw [a2 h0 (by omega), b2 h0 (by rw [← hl]; omega)]
    · rcases effLen_cases f with ⟨c1, _⟩ | ⟨c1, _⟩ | ⟨k, k1, k2, c1, _⟩
      · exact absurd c1 h0
      · omega
      · obtain ⟨r, er, hr⟩ := a3 he (by omega) (by omega)
        obtain ⟨s, es, hs⟩ := b3 (by rw [← hl]; exact he) (by omega) (by omega)
        rw [er, es]
        rw [c1] at hr hs
        have hq : polyQ (g.take (2 ^ k)) = polyQ (g'.take (2 ^ k)) := by
          unfold polyQ
          rw [List.map_take, List.map_take, h]
        have hs' : IsProduct (2 ^ k) (f.take (2 ^ k)) (g.take (2 ^ k)) s := by
          obtain ⟨s1, s2, s3⟩ := hs
          exact ⟨s1, s2, by rw [hq]; exact s3⟩
        rw [isProduct_unique k1 k2 hr hs']

/-- C25. The result depends on the key only modulo q and on the message (and XOF) only through the XOF stream of salt||message. Holds for
all keys, of any length, and all signatures. -/
theorem C25_verify_congr (xof xof' : Xof) (fuel : Nat) (pk pk' : List Int16) (m m' sig : List UInt8)
    (hpk : pk.map zq = pk'.map zq) (hx : xof (saltOf sig ++ m) = xof' (saltOf sig ++ m')) :
    Verify xof fuel pk m sig = Verify xof' fuel pk' m' sig := by
  by_cases hl : sig.length < 41
  · rw [Verify_short hl, Verify_short hl]
  · rw [Verify_eq (by omega), Verify_eq (by omega)]
    have hh : hashToPoint xof fuel m (saltOf sig) = hashToPoint xof' fuel m' (saltOf sig) := by
      unfold hashToPoint; rw [hx]
    unfold verifyBody
    simp only [hh, MulZq_congr _ hpk]

/-- C25: different keys satisfy the hypothesis. -/
example : ([1, -5] : List Int16).map zq = [12290, 12284].map zq ∧ ([1, -5] : List Int16) ≠ [12290, 12284] := by decide +kernel

/-- C26 is violated: up to 255 surplus key coefficients, whatever their values, are ignored. -/
theorem C26_violated_surplus_key (xof : Xof) (fuel : Nat) (pk t : List Int16) (m sig : List UInt8) (hpk : pk.length = 512)
    (ht : t.length < 256) : Verify xof fuel (pk ++ t) m sig = Verify xof fuel pk m sig := by
  have hm : ∀ f, MulZq wrap64 f (pk ++ t) = MulZq wrap64 f pk := by
    intro f
    have := NTT_take (W := wrap64) 9 (by decide) (pk ++ t) (by rw [List.length_append]; omega)
      (by rw [List.length_append]; omega)
    rw [show (2 : Nat) ^ 9 = pk.length by omega, List.take_left] at this
    simp only [MulZq, this]
  unfold Verify verifyBody
  simp only [hm]

theorem effLen_512 (n : Nat) : effLen n = 512 ↔ 512 ≤ n ∧ n < 768 := by
  unfold effLen
  simp only
  constructor
  · intro h
    split at h
    · next hc =>
      rw [h] at hc
      have := Nat.log2_self_le (n := n) (by omega)
      rw [h] at this
      omega
    · omega
  · rintro ⟨h1, h2⟩
    have hlog : n.log2 = 9 := by
      rw [Nat.log2_eq_iff (by omega)]
      omega
    rw [hlog]
    norm_num
    omega

/-- C26, what holds: with a key shorter than 512 or longer than 767 coefficients `Verify` never returns true; it returns false
exactly when decoding rejects the signature, and panics when decoding (and hashing) succeeds. -/
theorem C26_other_lengths_partial (xof : Xof) (fuel : Nat) (pk : List Int16) (m sig : List UInt8)
    (hpk : pk.length < 512 ∨ 768 ≤ pk.length) :
    Verify xof fuel pk m sig ≠ .ok true ∧
    (Verify xof fuel pk m sig = .ok false ↔
      41 ≤ sig.length ∧ ¬ PanicBody (sig.drop 41) ∧ ¬ ∃ s, Decodes (sig.drop 41) s) ∧
    (∀ s c, 41 ≤ sig.length → Decodes (sig.drop 41) s → hashToPoint xof fuel m (saltOf sig) = .ok c →
      Verify xof fuel pk m sig = .panic) := by
  have hbad : ∀ s c : List Int16, s.length = 512 → MulZq wrap64 s pk = .panic := by
    intro s c hs
    refine (C15_mulzq_all_lengths_partial s pk).1 (Or.inl ?_)
    rw [hs, (effLen_512 512).2 (by omega)]
    intro h
    have := (effLen_512 _).1 h.symm
    omega
  have hpanic : ∀ s, Decodes (sig.drop 41) s → ∀ c, hashToPoint xof fuel m (saltOf sig) = .ok c →
      verifyBody xof fuel pk m (saltOf sig) (sig.drop 41) = .panic := by
    intro s hs c hc
    unfold verifyBody
    simp only [par512.2, (decodes_iff _ _).2 hs, hc, Go.ok_bind]
    rw [hbad _ [] (by rw [List.length_map, hs.2.2.1])]
    rfl
  by_cases hl : sig.length < 41
  · rw [Verify_short hl]
    refine ⟨by simp, ⟨fun h => by simp at h, fun h => by omega⟩, fun _ _ h => by omega⟩
  · rw [Verify_eq (by omega)]
    rcases hd : Decompress (sig.drop 41) 625 512 with (e | s) | _ | _
    · rw [verifyBody_reject hd]
      refine ⟨by simp, ⟨fun _ => ⟨by omega, ?_, ?_⟩, fun _ => rfl⟩, ?_⟩
      · intro hp
        have := (C22_verify_panics_iff_partial xof 0 (List.replicate 512 0) m sig List.length_replicate).2 (Or.inr hp)
        rw [Verify_eq (by omega), verifyBody_reject hd] at this
        simp at this
      · rintro ⟨s, hs⟩
        rw [(decodes_iff _ _).2 hs] at hd
        simp at hd
      · intro s c _ hs
        rw [(decodes_iff _ _).2 hs] at hd
        simp at hd
    · have hs := (decodes_iff _ _).1 hd
      rcases hash_cases xof fuel m (saltOf sig) with ⟨c, hc⟩ | hc
      · rw [hpanic s hs c hc]
        exact ⟨by simp, ⟨fun h => by simp at h, fun h => absurd ⟨s, hs⟩ h.2.2⟩, fun _ _ _ _ _ => rfl⟩
      · rw [verifyBody_diverge hd hc]
        exact ⟨by simp, ⟨fun h => by simp at h, fun h => absurd ⟨s, hs⟩ h.2.2⟩, fun _ c' _ _ h => by rw [hc] at h; simp at h⟩
    · rw [verifyBody_panic hd]
      refine ⟨by simp, ⟨fun h => by simp at h, fun h => ?_⟩, fun _ _ _ _ _ => rfl⟩
      exfalso
      have h1 : Verify xof 0 (List.replicate 512 0) m sig = .panic := by
        rw [Verify_eq (by omega), verifyBody_panic hd]
      rw [C22_verify_panics_iff_partial _ _ _ _ _ List.length_replicate] at h1
      rcases h1 with h1 | h1
      · omega
      · exact h.2.1 h1
    · exact absurd hd (decompress_not_diverge _ _ _)

/-! ### VerifyBytes -/

theorem idx_append {α : Type*} (pre post : List α) (x : α) (i : Nat) (h : pre.length = i) : idx (pre ++ x :: post) i = .ok x := by
  unfold idx
  rw [List.getElem?_append_right (by omega)]
  simp [h]

theorem sumWord8_eq (w pre post : List UInt8) (off k : Nat) (t : UInt8) (h : pre.length = off + k) :
    sumWord8 (pre ++ (w ++ post)) off w.length k t = .ok (w.foldl (· + ·) t) := by
  induction w generalizing pre k t with
  | nil => rfl
  | cons x w ih =>
    rw [List.length_cons, sumWord8, List.cons_append, idx_append _ _ _ _ h, Go.ok_bind]
    have := ih (pre ++ [x]) (k + 1) (t + x) (by simp; omega)
    rw [List.append_assoc] at this
    exact this

theorem sumWord16_eq (w pre post : List UInt8) (off k : Nat) (t : Int16) (h : pre.length = off + k) :
    sumWord16 (pre ++ (w ++ post)) off w.length k t = .ok (w.foldl (fun t x => t + Int16.ofNat x.toNat) t) := by
  induction w generalizing pre k t with
  | nil => rfl
  | cons x w ih =>
    rw [List.length_cons, sumWord16, List.cons_append, idx_append _ _ _ _ h, Go.ok_bind]
    have := ih (pre ++ [x]) (k + 1) (t + Int16.ofNat x.toNat) (by simp; omega)
    rw [List.append_assoc] at this
    exact this

theorem word_length (b : UInt8) : (word b).length = 32 := rfl

theorem word_sum8 (b : UInt8) : (word b).foldl (· + ·) 0 = b := by
  simp [word]

theorem word_sum16 (b : UInt8) (t : Int16) : (word b).foldl (fun t x => t + Int16.ofNat x.toNat) t = t + Int16.ofNat b.toNat := by
  simp [word]

theorem readBytes_pack (l pre post : List UInt8) (i : Nat) (h : pre.length = i * 32) :
    readBytes (pre ++ (packWords l ++ post)) l.length i = .ok l := by
  induction l generalizing pre i with
  | nil => rfl
  | cons x l ih =>
    have e : packWords (x :: l) ++ post = word x ++ (packWords l ++ post) := by simp [packWords]
    rw [e, List.length_cons, readBytes]
    have h1 := sumWord8_eq (word x) pre (packWords l ++ post) (i * 32) 0 0 (by omega)
    rw [word_length, word_sum8] at h1
    rw [h1, Go.ok_bind]
    have h2 := ih (pre ++ word x) (i + 1) (by rw [List.length_append, word_length]; omega)
    rw [List.append_assoc] at h2
    rw [h2]
    rfl

theorem coef_bytes (x : Int16) :
    (((0 : Int16) + Int16.ofNat (UInt8.ofNat ((x.toInt % 65536).toNat / 256)).toNat) <<< 8) +
      Int16.ofNat (UInt8.ofNat ((x.toInt % 65536).toNat % 256)).toNat = x := by
  obtain ⟨u, hu⟩ : ∃ u, u = (x.toInt % 65536).toNat := ⟨_, rfl⟩
  have hx : x.toBitVec.toNat = u := by
    rw [hu, ← Int16.toInt_toBitVec, BitVec.toInt_eq_toNat_bmod, Int.bmod_def]
    have := x.toBitVec.isLt
    split <;> omega
  rw [← hu]
  have hlt : u < 65536 := by omega
  apply Int16.toBitVec.inj
  apply BitVec.eq_of_toNat_eq
  have h8 : (8 : Int16).toBitVec.smod 16 = 8 := by decide
  simp only [Int16.toBitVec_add, Int16.toBitVec_shiftLeft, h8, BitVec.toNat_add]
  simp [hx, Nat.shiftLeft_eq]
  omega

theorem readKey_pack (l : List Int16) (pre post : List UInt8) (i : Nat) (h : pre.length = i * 32) :
    readKey (pre ++ (packKey l ++ post)) l.length i = .ok l := by
  induction l generalizing pre i with
  | nil => rfl
  | cons x l ih =>
    let hi := UInt8.ofNat ((x.toInt % 65536).toNat / 256)
    let lo := UInt8.ofNat ((x.toInt % 65536).toNat % 256)
    have e : packKey (x :: l) ++ post = word hi ++ (word lo ++ (packKey l ++ post)) := by
      simp [packKey, packCoef, hi, lo]
    rw [e, List.length_cons, readKey]
    have h1 := sumWord16_eq (word hi) pre (word lo ++ (packKey l ++ post)) (i * 32) 0 0 (by omega)
    rw [word_length, word_sum16] at h1
    rw [h1, Go.ok_bind]
    have h3 := sumWord16_eq (word lo) (pre ++ word hi) (packKey l ++ post) ((i + 1) * 32) 0
      ((0 + Int16.ofNat hi.toNat) <<< 8) (by rw [List.length_append, word_length]; omega)
    rw [word_length, word_sum16, List.append_assoc] at h3
    rw [h3, Go.ok_bind, coef_bytes]
    have h2 := ih (pre ++ word hi ++ word lo) (i + 2) (by simp only [List.length_append, word_length]; omega)
    rw [List.append_assoc, List.append_assoc] at h2
    rw [h2]
    rfl

theorem packWords_length (l : List UInt8) : (packWords l).length = 32 * l.length := by
  induction l with
  | nil => rfl
  | cons x l ih =>
    have e : packWords (x :: l) = word x ++ packWords l := by simp [packWords]
    rw [e, List.length_append, word_length, ih, List.length_cons]; omega

theorem packKey_length (l : List Int16) : (packKey l).length = 64 * l.length := by
  induction l with
  | nil => rfl
  | cons x l ih =>
    have e : packKey (x :: l) = packCoef x ++ packKey l := by simp [packKey]
    rw [e, List.length_append, packCoef, List.length_append, word_length, word_length, ih, List.length_cons]; omega

/-- C27. `VerifyBytes` on the packed words of a 512-coefficient key, a 32-byte message and a 666-byte signature, followed by anything, is
`Verify` on them. -/
theorem C27_verifybytes_is_verify (xof : Xof) (fuel : Nat) (h : List Int16) (m sig t : List UInt8)
    (hh : h.length = 512) (hm : m.length = 32) (hs : sig.length = 666) :
    VerifyBytes xof fuel (packKey h ++ packWords m ++ packWords sig ++ t) = Verify xof fuel h m sig := by
  unfold VerifyBytes Verify
  have h1 := readKey_pack h [] (packWords m ++ packWords sig ++ t) 0 (by simp)
  have h2 := readBytes_pack m (packKey h) (packWords sig ++ t) 1024 (by rw [packKey_length]; omega)
  have h3 := readBytes_pack sig (packKey h ++ packWords m) t (1024 + 32)
    (by rw [List.length_append, packKey_length, packWords_length]; omega)
  rw [hh] at h1
  rw [hm] at h2
  rw [hs] at h3
  simp only [List.append_assoc, List.nil_append] at h1 h2 h3 ⊢
  rw [h1, Go.ok_bind, h2, Go.ok_bind, h3, Go.ok_bind]

theorem sumWord8_cases (b : List UInt8) (off m k : Nat) (t : UInt8) :
    (∃ r, sumWord8 b off m k t = .ok r ∧ (0 < m → off + k + m ≤ b.length)) ∨ sumWord8 b off m k t = .panic := by
  induction m generalizing k t with
  | zero => exact Or.inl ⟨t, rfl, by omega⟩
  | succ m ih =>
    rw [sumWord8]
    unfold idx
    cases hx : b[off + k]? with
    | none => right; rfl
    | some x =>
      simp only [Go.ok_bind]
      have := (List.getElem?_eq_some_iff.1 hx).1
      rcases ih (k + 1) (t + x) with ⟨r, hr, hb⟩ | hr
      · exact Or.inl ⟨r, hr, by omega⟩
      · exact Or.inr hr

theorem sumWord16_cases (b : List UInt8) (off m k : Nat) (t : Int16) :
    (∃ r, sumWord16 b off m k t = .ok r) ∨ sumWord16 b off m k t = .panic := by
  induction m generalizing k t with
  | zero => exact Or.inl ⟨t, rfl⟩
  | succ m ih =>
    rw [sumWord16]
    unfold idx
    cases hx : b[off + k]? with
    | none => right; rfl
    | some x => exact ih (k + 1) (t + Int16.ofNat x.toNat)

theorem readBytes_cases (b : List UInt8) (m i : Nat) :
    (∃ r, readBytes b m i = .ok r ∧ (0 < m → (i + m) * 32 ≤ b.length)) ∨ readBytes b m i = .panic := by
  induction m generalizing i with
  | zero => exact Or.inl ⟨[], rfl, by omega⟩
  | succ m ih =>
    rw [readBytes]
    rcases sumWord8_cases b (i * 32) 32 0 0 with ⟨r, hr, hb⟩ | hr
    · rw [hr]
      rcases ih (i + 1) with ⟨r', hr', hb'⟩ | hr'
      · left; exact ⟨r :: r', by rw [Go.ok_bind, hr']; rfl, by omega⟩
      · right; rw [Go.ok_bind, hr']; rfl
    · right; rw [hr]; rfl

theorem readKey_cases (b : List UInt8) (m i : Nat) : (∃ r, readKey b m i = .ok r) ∨ readKey b m i = .panic := by
  induction m generalizing i with
  | zero => exact Or.inl ⟨[], rfl⟩
  | succ m ih =>
    rw [readKey]
    rcases sumWord16_cases b (i * 32) 32 0 0 with ⟨r, hr⟩ | hr
    · rw [hr, Go.ok_bind]
      rcases sumWord16_cases b ((i + 1) * 32) 32 0 (r <<< 8) with ⟨r2, hr2⟩ | hr2
      · rw [hr2, Go.ok_bind]
        rcases ih (i + 2) with ⟨r', hr'⟩ | hr'
        · left; exact ⟨r2 :: r', by rw [hr']; rfl⟩
        · right; rw [hr']; rfl
      · right; rw [hr2]; rfl
    · right; rw [hr]; rfl

/-- C27. Inputs shorter than 1722 words (55104 bytes) panic. -/
theorem C27_verifybytes_short_panics (xof : Xof) (fuel : Nat) (b : List UInt8) (h : b.length < 55104) :
    VerifyBytes xof fuel b = .panic := by
  unfold VerifyBytes
  rcases readKey_cases b 512 0 with ⟨r, hr⟩ | hr
  · rw [hr, Go.ok_bind]
    rcases readBytes_cases b 32 1024 with ⟨r, hr, _⟩ | hr
    · rw [hr, Go.ok_bind]
      rcases readBytes_cases b 666 (1024 + 32) with ⟨r, hr, hb⟩ | hr
      · have := hb (by omega)
        omega
      · rw [hr]; rfl
    · rw [hr]; rfl
  · rw [hr]; rfl

/-- C28. When `Verify` accepts and the squared norm of the 16-bit pair is below 2^32, no decoded coefficient was changed by the 16-bit
conversion. -/
theorem C28_narrowing_harmless (xof : Xof) (fuel : Nat) (pk : List Int16) (m sig : List UInt8) (c : List Int16) (s1 s0 : List Int)
    (hpk : pk.length = 512) (hc : hashToPoint xof fuel m (saltOf sig) = .ok c) (hv : Verify xof fuel pk m sig = .ok true)
    (h1 : Decodes (sig.drop 41) s1) (h0 : IsResidual 512 c pk (s1.map narrow) s0)
    (hn : normSq s0 + normSq (s1.map narrow) < 2 ^ 32) : s1.map narrow = s1 := by
  obtain ⟨t1, t0, g1, g0, hb⟩ := C20_verify_sound_partial xof fuel pk m sig c hpk hc hv
  have e1 : t1 = s1 := by
    have := (decodes_iff _ _).2 h1
    rw [(decodes_iff _ _).2 g1] at this
    exact Except.ok.inj (Go.ok.inj this)
  subst e1
  have e0 := residual_unique (by decide) g0 h0
  subst e0
  have hb := hb hn
  conv_rhs => rw [← List.map_id t1]
  apply List.map_congr_left
  intro x hx
  have hx1 := C07_falcon512_bound _ _ ((decodes_iff _ _).2 h1) x hx
  have hx2 := natAbs_sq_le_normSq (List.mem_map.2 ⟨x, hx, rfl⟩ : narrow x ∈ t1.map narrow)
  have hx3 : (narrow x).natAbs ^ 2 ≤ 34034726 := le_trans hx2 (le_trans (Nat.le_add_left _ _) hb)
  have hx4 : (narrow x).natAbs < 6000 := by
    by_contra hc
    have : 6000 ^ 2 ≤ (narrow x).natAbs ^ 2 := Nat.pow_le_pow_left (by omega) 2
    omega
  rw [id]
  unfold narrow at hx4 ⊢
  rw [Int.bmod_def] at hx4 ⊢
  clear hx2 hx3 hb hn g0 h0
  split at hx4 <;> split <;> omega

/-- C28. The same when the squared norm computed with the decoded coefficients themselves is below 2^32. -/
theorem C28_narrowing_harmless_wide (xof : Xof) (fuel : Nat) (pk : List Int16) (m sig : List UInt8) (c : List Int16) (s1 s0 : List Int)
    (hpk : pk.length = 512) (hc : hashToPoint xof fuel m (saltOf sig) = .ok c) (hv : Verify xof fuel pk m sig = .ok true)
    (h1 : Decodes (sig.drop 41) s1) (h0 : IsResidual 512 c pk (s1.map narrow) s0)
    (hn : normSq s0 + normSq s1 < 2 ^ 32) : s1.map narrow = s1 := by
  refine C28_narrowing_harmless xof fuel pk m sig c s1 s0 hpk hc hv h1 h0 (lt_of_le_of_lt (Nat.add_le_add_left ?_ _) hn)
  unfold normSq
  rw [List.map_map]
  apply List.sum_le_sum
  intro x _
  apply Nat.pow_le_pow_left
  unfold narrow
  rw [Int.bmod_def]
  split <;> omega

end Falcon
