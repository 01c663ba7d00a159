import Verif.Lemmas.Verify
/-!
# Properties C19–C28: verification
-/

namespace Falcon
open Spec Polynomial

/-- The 40 salt bytes of a signature. -/
abbrev saltOf (sig : List UInt8) : List UInt8 := (sig.take 41).drop 1

/-- C19. For a key of 512 coefficients, a signature of at least 41 bytes and a terminating hash, `Verify` returns true exactly
when the bytes after the salt decode and the squared norm modulo 2^32 of the (16-bit) pair is within the bound; it
returns false exactly when it neither panics nor accepts. -/
theorem C19_verify_exact (xof : Xof) (fuel : Nat) (pk : List Int16) (m sig : List UInt8) (c : List Int16)
    (hpk : pk.length = 512) (hsig : 41 ≤ sig.length) (hc : hashToPoint xof fuel m (saltOf sig) = .ok c) :
    (Verify xof fuel pk m sig = .ok true ↔
      ∃ s1 s0, Decodes (sig.drop 41) s1 ∧ IsResidual 512 c pk (s1.map narrow) s0 ∧
        (normSq s0 + normSq (s1.map narrow)) % 2 ^ 32 ≤ sigBound) ∧
    (Verify xof fuel pk m sig = .ok true ∨ Verify xof fuel pk m sig = .ok false ∨ Verify xof fuel pk m sig = .panic) := by
  rw [Verify_eq hsig]
  rcases hd : Decompress (sig.drop 41) 625 512 with (e | s) | _ | _
  · rw [verifyBody_reject hd]
    refine ⟨⟨fun h => by simp at h, ?_⟩, by simp⟩
    rintro ⟨s1, s0, h1, _⟩
    rw [(decodes_iff _ _).2 h1] at hd
    simp at hd
  · obtain ⟨s0, h0, hv⟩ := verifyBody_ok hpk hd hc
    rw [hv]
    constructor
    · constructor
      · intro h
        exact ⟨s, s0, (decodes_iff _ _).1 hd, h0, of_decide_eq_true (Go.ok.inj h)⟩
      · rintro ⟨s1, s0', h1, h2, h3⟩
        rw [(decodes_iff _ _).2 h1] at hd
        have e := Except.ok.inj (Go.ok.inj hd)
        subst e
        rw [residual_unique (by decide) h0 h2, decide_eq_true h3]
    · by_cases h : (normSq s0 + normSq (s.map narrow)) % 2 ^ 32 ≤ sigBound
      · left; rw [decide_eq_true h]
      · right; left; rw [decide_eq_false h]
  · rw [verifyBody_panic hd]
    refine ⟨⟨fun h => by simp at h, ?_⟩, by simp⟩
    rintro ⟨s1, s0, h1, _⟩
    rw [(decodes_iff _ _).2 h1] at hd
    simp at hd
  · exact absurd hd (decompress_not_diverge _ _ _)

/-- The residual exists and is unique, so the pair checked by `Verify` is well defined. -/
theorem C19_residual_exists_unique (c pk : List Int16) (s1 : List Int) (hpk : pk.length = 512) (hc : c.length = 512)
    (hr : Reduced c) (h1 : s1.length = 512) : ∃! s0, IsResidual 512 c pk (s1.map narrow) s0 := by
  obtain ⟨p, ep, hp⟩ := MulZq_spec_n 9 (by decide) (by decide) (by decide) (s1.map Int16.ofInt) pk (by simpa using h1) hpk
  obtain ⟨r, er, lr, rr, pr⟩ := SubZq_poly c p (hc.trans hp.1.symm) (reduced_le hr) (reduced_ne hp.2.1)
  exact ⟨_, residual_of_product hc hp lr rr pr, fun t ht => (residual_unique (by decide) ht (residual_of_product hc hp lr rr pr))⟩

/-! ### a family of keys for which every vector is a residual -/

/-- The public key for which `s1 = 1` leaves the residual `s0` of the hash `c`. -/
def keyFor (c : List Int16) (s0 : List Int) : List Int16 :=
  List.zipWith (fun x y => Int16.ofInt ((x.toInt - y) % 12289)) c s0

theorem keyFor_reduced (c : List Int16) (s0 : List Int) : Reduced (keyFor c s0) := by
  intro x hx
  unfold keyFor at hx
  obtain ⟨i, hi, e⟩ := List.mem_iff_getElem.1 hx
  rw [List.getElem_zipWith] at e
  subst e
  rw [narrow_eq, narrow, Int.bmod_def]
  split <;> omega

theorem keyFor_zq (c : List Int16) (s0 : List Int) :
    (keyFor c s0).map zq = List.zipWith (· - ·) (c.map zq) (s0.map fun x : Int => (x : Zq)) := by
  unfold keyFor
  rw [List.map_zipWith, List.zipWith_map]
  congr 1
  funext x y
  unfold zq
  rw [narrow_eq, narrow, ← Int.cast_sub, ZMod.intCast_eq_intCast_iff']
  push_cast
  rw [Int.bmod_def]
  split <;> omega

theorem poly_zeros (k : Nat) : poly (List.replicate k (0 : Zq)) = 0 := by
  induction k with
  | zero => rfl
  | succ k ih => rw [List.replicate_succ, poly_cons, ih]; simp

theorem keyFor_residual {n : Nat} {c : List Int16} {s0 : List Int} (hc : c.length = n) (hs : s0.length = n)
    (hb : ∀ x ∈ s0, -6144 ≤ x ∧ x ≤ 6144) (k : Nat) : IsResidual n c (keyFor c s0) (1 :: List.replicate k 0) s0 := by
  refine ⟨hs, hb, ?_⟩
  have e1 : polyI (1 :: List.replicate k 0) = 1 := by
    unfold polyI
    rw [List.map_cons, List.map_replicate, poly_cons, Int.cast_zero, poly_zeros]
    simp
  have e2 : polyQ (keyFor c s0) = polyQ c - polyI s0 := by
    unfold polyQ polyI
    rw [keyFor_zq, poly_sub _ _ (by simp [hc, hs])]
  rw [SigEq, e1, e2]
  have : polyI s0 + 1 * (polyQ c - polyI s0) - polyQ c = 0 := by ring
  rw [this]
  exact dvd_zero _

/-- The body of the forged signature: the code of `(1, 0, ..., 0)`. -/
theorem one_map (k : Nat) : (((1 : Int16) :: List.replicate k 0).map Int16.toInt) = 1 :: List.replicate k 0 := by
  rw [List.map_cons, List.map_replicate]; rfl

theorem one_narrow (k : Nat) : (((1 : Int) :: List.replicate k 0).map narrow) = 1 :: List.replicate k 0 := by
  rw [List.map_cons, List.map_replicate]; rfl

theorem one_length (k : Nat) : ((1 : Int16) :: List.replicate k 0).length = k + 1 := by simp

theorem oneBody : ∃ x, Decodes x (1 :: List.replicate 511 0) ∧ x.length = 625 := by
  have hl : codeLen (((1 : Int16) :: List.replicate 511 0).map Int16.toInt) = 4608 := by decide +kernel
  obtain ⟨x, hx, lx⟩ := (C02_compress_fits ((1 : Int16) :: List.replicate 511 0) 625 (by norm_num)).1 (by rw [hl]; norm_num)
  refine ⟨x, ?_, by omega⟩
  have := C01_compress_decompress_roundtrip _ (List.cons_ne_nil _ _) 625 (by norm_num) x hx
  rw [one_length, one_map] at this
  exact (decodes_iff _ _).1 this

/-- C20 is violated. For every message, every salt and every XOF (whose output yields a hash), there are a public key with
coefficients in [0,q) and a signature carrying that salt that `Verify` accepts although the squared norm of the pair is at least
2^32, over a hundred times the bound. -/
theorem C20_violated_norm_wraps (xof : Xof) (fuel : Nat) (m salt : List UInt8) (hd : UInt8) (c : List Int16)
    (hs : salt.length = 40) (hc : hashToPoint xof fuel m salt = .ok c) :
    ∃ pk body s1 s0, pk.length = 512 ∧ Reduced pk ∧ body.length = 625 ∧
      Verify xof fuel pk m (hd :: (salt ++ body)) = .ok true ∧
      Decodes body s1 ∧ s1.map narrow = s1 ∧ IsResidual 512 c pk s1 s0 ∧ 2 ^ 32 ≤ normSq s0 + normSq s1 := by
  obtain ⟨lc, rc⟩ := C16_hash_reduced _ _ _ _ _ hc
  obtain ⟨body, hb, lb⟩ := oneBody
  let s0 : List Int := List.replicate 114 6144 ++ List.replicate 398 0
  have ls : s0.length = 512 := by rw [List.length_append, List.length_replicate, List.length_replicate]
  have bs : ∀ x ∈ s0, -6144 ≤ x ∧ x ≤ 6144 := by
    intro x hx
    simp only [s0, List.mem_append, List.mem_replicate] at hx
    omega
  have hn : normSq s0 + normSq (1 :: List.replicate 511 0) = 4303355905 := by decide +kernel
  have lk : (keyFor c s0).length = 512 := by rw [keyFor, List.length_zipWith, lc, ls]; rfl
  have hr := keyFor_residual lc ls bs 511
  refine ⟨keyFor c s0, body, _, s0, lk, keyFor_reduced c s0, lb, ?_, hb, (one_narrow 511), hr, ?_⟩
  · rw [Verify_cons hd hs]
    obtain ⟨s0', h0, hv⟩ := verifyBody_ok (xof := xof) (fuel := fuel) (m := m) (salt := salt) lk ((decodes_iff _ _).2 hb) hc
    rw [(one_narrow 511)] at h0 hv
    rw [hv, residual_unique (by decide) h0 hr, hn]
    rfl
  · rw [hn]; norm_num

/-- C20, what holds: an accepted signature whose pair has true squared norm below 2^32 is within the bound. -/
theorem C20_verify_sound_partial (xof : Xof) (fuel : Nat) (pk : List Int16) (m sig : List UInt8) (c : List Int16)
    (hpk : pk.length = 512) (hc : hashToPoint xof fuel m (saltOf sig) = .ok c)
    (hv : Verify xof fuel pk m sig = .ok true) :
    ∃ s1 s0, Decodes (sig.drop 41) s1 ∧ IsResidual 512 c pk (s1.map narrow) s0 ∧
      (normSq s0 + normSq (s1.map narrow) < 2 ^ 32 → normSq s0 + normSq (s1.map narrow) ≤ sigBound) := by
  have hl : 41 ≤ sig.length := by
    by_contra h
    rw [Verify_short (by omega)] at hv
    simp at hv
  obtain ⟨s1, s0, h1, h2, h3⟩ := (C19_verify_exact xof fuel pk m sig c hpk hl hc).1.1 hv
  refine ⟨s1, s0, h1, h2, fun hlt => ?_⟩
  rwa [Nat.mod_eq_of_lt hlt] at h3

theorem natAbs_sq_le_normSq {v : List Int} {x : Int} (h : x ∈ v) : x.natAbs ^ 2 ≤ normSq v := by
  unfold normSq
  exact List.single_le_sum (fun _ _ => Nat.zero_le _) _ (List.mem_map.2 ⟨x, h, rfl⟩)

/-- C21. Completeness: a pair with `s0 + s1*h = H(salt||m)` within the bound, `s1` encodable in 625 bytes, is accepted for every
header byte. `s0` need not be given as centred. -/
theorem C21_verify_complete (xof : Xof) (fuel : Nat) (pk : List Int16) (m salt : List UInt8) (hd : UInt8) (c : List Int16)
    (s1 : List Int16) (s0 : List Int) (body : List UInt8)
    (hpk : pk.length = 512) (hs : salt.length = 40) (hc : hashToPoint xof fuel m salt = .ok c)
    (h1 : s1.length = 512) (h0 : s0.length = 512)
    (heq : SigEq 512 c pk (s1.map Int16.toInt) s0)
    (hn : normSq s0 + normSq (s1.map Int16.toInt) ≤ sigBound) (hb : Compress s1 625 = .ok body) :
    Verify xof fuel pk m (hd :: (salt ++ body)) = .ok true := by
  rw [Verify_cons hd hs]
  have hne : s1 ≠ [] := by rintro rfl; simp at h1
  have hdec := C01_compress_decompress_roundtrip s1 hne 625 (by norm_num) body hb
  have e1 : ((s1.length : Nat) : Int) = 512 := by omega
  rw [e1] at hdec
  obtain ⟨s0', hr, hv⟩ := verifyBody_ok (xof := xof) (fuel := fuel) (m := m) (salt := salt) hpk hdec hc
  have en : (s1.map Int16.toInt).map narrow = s1.map Int16.toInt := by
    rw [List.map_map]
    apply List.map_congr_left
    intro x _
    have := i16_bounds x
    rw [Function.comp, narrow, Int.bmod_def]
    split <;> omega
  rw [en] at hr hv
  have hres : IsResidual 512 c pk (s1.map Int16.toInt) s0 := by
    refine ⟨h0, ?_, heq⟩
    intro x hx
    have h2 := natAbs_sq_le_normSq hx
    have h3 : x.natAbs ^ 2 ≤ 34034726 := le_trans h2 (le_trans (Nat.le_add_right _ _) hn)
    have h4 : x.natAbs ≤ 6144 := by
      by_contra hc
      have : 6145 ^ 2 ≤ x.natAbs ^ 2 := Nat.pow_le_pow_left (by omega) 2
      omega
    omega
  rw [hv, residual_unique (by decide) hr hres]
  have hlt : normSq s0 + normSq (s1.map Int16.toInt) < 2 ^ 32 := lt_of_le_of_lt hn (by decide)
  rw [Nat.mod_eq_of_lt hlt, decide_eq_true hn]

/-- The hypotheses of C20 and C21 are satisfiable, for any hash, with pairs far inside the bound. -/
example (c : List Int16) (hc : c.length = 512) : ∃ pk s1 s0 body, pk.length = 512 ∧ s1.length = 512 ∧ s0.length = 512 ∧
    SigEq 512 c pk (s1.map Int16.toInt) s0 ∧ normSq s0 + normSq (s1.map Int16.toInt) ≤ sigBound ∧
    Compress s1 625 = .ok body := by
  have hl : codeLen (((1 : Int16) :: List.replicate 511 0).map Int16.toInt) = 4608 := by decide +kernel
  obtain ⟨x, hx, lx⟩ := (C02_compress_fits ((1 : Int16) :: List.replicate 511 0) 625 (by norm_num)).1 (by rw [hl]; norm_num)
  have hr := keyFor_residual (s0 := List.replicate 512 (-200)) hc List.length_replicate
    (by intro x hx; rw [List.mem_replicate] at hx; omega) 511
  refine ⟨keyFor c (List.replicate 512 (-200)), 1 :: List.replicate 511 0, List.replicate 512 (-200), x,
    by rw [keyFor, List.length_zipWith, hc, List.length_replicate]; rfl, one_length 511, List.length_replicate, ?_, by decide +kernel, hx⟩
  rw [one_map]
  exact hr.2.2

/-- The exact set of bodies on which decoding panics: all bytes zero, or the string ends (zeros aside) with an incomplete
coefficient of at most 8 bits. -/
def PanicBody (x : List UInt8) : Prop :=
  x.length ≤ 625 ∧ ((∀ b ∈ x, b = 0) ∨
    ∃ w r, trimZeros (bytesBits x) = code w ++ r ∧ w.length < 512 ∧ 0 < r.length ∧ r.length ≤ 8)

/-- C22, the exact set of panics: with a key of 512 coefficients `Verify` panics exactly on signatures shorter than 41 bytes and on
the bodies of `PanicBody`, whatever the key, message and XOF. -/
theorem C22_verify_panics_iff_partial (xof : Xof) (fuel : Nat) (pk : List Int16) (m sig : List UInt8) (hpk : pk.length = 512) :
    Verify xof fuel pk m sig = .panic ↔ sig.length < 41 ∨ PanicBody (sig.drop 41) := by
  by_cases hl : sig.length < 41
  · simp [Verify_short hl, hl]
  · rw [Verify_eq (by omega)]
    have hp : PanicBody (sig.drop 41) ↔ Decompress (sig.drop 41) 625 512 = .panic := by
      rw [decompress_panic_iff]
      unfold PanicBody
      constructor
      · rintro ⟨h1, h2 | ⟨w, r, h3, h4, h5⟩⟩
        · exact ⟨by omega, Or.inl h2⟩
        · exact ⟨by omega, Or.inr ⟨w, r, h3, by omega, h5⟩⟩
      · rintro ⟨h1, h2 | ⟨w, r, h3, h4, h5⟩⟩
        · exact ⟨by omega, Or.inl h2⟩
        · exact ⟨by omega, Or.inr ⟨w, r, h3, by omega, h5⟩⟩
    rw [hp]
    rcases hd : Decompress (sig.drop 41) 625 512 with (e | s) | _ | _
    · rw [verifyBody_reject hd]; simp [hl]
    · rcases hash_cases xof fuel m (saltOf sig) with ⟨c, hc⟩ | hc
      · obtain ⟨s0, _, hv⟩ := verifyBody_ok hpk hd hc
        rw [hv]; simp [hl]
      · rw [verifyBody_diverge hd hc]; simp [hl]
    · rw [verifyBody_panic hd]; simp
    · exact absurd hd (decompress_not_diverge _ _ _)

/-- C22 is violated on: every signature of at most 40 bytes; every salt followed by an all-zero body (in particular the empty body)
of at most 625 bytes; every salt followed by a one-byte body. -/
theorem C22_violated (xof : Xof) (fuel : Nat) (pk : List Int16) (m sig : List UInt8)
    (h : sig.length ≤ 40 ∨ (∃ hd salt k, salt.length = 40 ∧ k ≤ 625 ∧ sig = hd :: (salt ++ List.replicate k 0)) ∨
      ∃ hd salt b, salt.length = 40 ∧ sig = hd :: (salt ++ [b])) :
    Verify xof fuel pk m sig = .panic := by
  rcases h with h | ⟨hd, salt, k, hs, hk, rfl⟩ | ⟨hd, salt, b, hs, rfl⟩
  · exact Verify_short (by omega)
  · rw [Verify_cons hd hs]
    exact verifyBody_panic (C05_violated_all_zero k 625 512 (by omega))
  · rw [Verify_cons hd hs]
    exact verifyBody_panic (C05_violated_truncated b 625 512 (by norm_num) (by norm_num))

/-- C22. `Verify` runs for ever only if the hash does. -/
theorem C22_verify_terminates (xof : Xof) (fuel : Nat) (pk : List Int16) (m sig : List UInt8) (hpk : pk.length = 512)
    (h : Verify xof fuel pk m sig = .diverge) : hashToPoint xof fuel m (saltOf sig) = .diverge := by
  by_cases hl : sig.length < 41
  · rw [Verify_short hl] at h; simp at h
  · rcases hash_cases xof fuel m (saltOf sig) with ⟨c, hc⟩ | hc
    · have := (C19_verify_exact xof fuel pk m sig c hpk (by omega) hc).2
      rw [h] at this; simp at this
    · exact hc

/-- C23 is violated: the header byte has no influence on the result, for all keys and signatures. -/
theorem C23_violated_header_ignored (xof : Xof) (fuel : Nat) (pk : List Int16) (m rest : List UInt8) (b b' : UInt8) :
    Verify xof fuel pk m (b :: rest) = Verify xof fuel pk m (b' :: rest) := by
  by_cases hl : rest.length < 40
  · rw [Verify_short (by simp; omega), Verify_short (by simp; omega)]
  · rw [Verify_eq (by simp; omega), Verify_eq (by simp; omega)]
    rfl

/-- C23 is violated: in particular signatures with a header byte that is not that of Falcon-512 (0x39) are accepted. -/
theorem C23_violated_wrong_header_accepted (xof : Xof) (fuel : Nat) (m salt : List UInt8) (c : List Int16)
    (hs : salt.length = 40) (hc : hashToPoint xof fuel m salt = .ok c) (b : UInt8) :
    ∃ pk body, pk.length = 512 ∧ Reduced pk ∧ Verify xof fuel pk m (b :: (salt ++ body)) = .ok true := by
  obtain ⟨pk, body, _, _, h1, h2, _, h3, _⟩ := C20_violated_norm_wraps xof fuel m salt b c hs hc
  exact ⟨pk, body, h1, h2, h3⟩

/-- A signature body may be replaced by any other carrying the same code bits. -/
theorem verifyBody_same_code {xof : Xof} {fuel : Nat} {pk : List Int16} {m salt x y : List UInt8} {s : List Int}
    (hx : Decodes x s) (hy : Decodes y s) : verifyBody xof fuel pk m salt x = verifyBody xof fuel pk m salt y := by
  unfold verifyBody
  simp only [par512.2, (decodes_iff _ _).2 hx, (decodes_iff _ _).2 hy]

theorem accept_decodes {xof : Xof} {fuel : Nat} {pk : List Int16} {m salt x : List UInt8}
    (h : verifyBody xof fuel pk m salt x = .ok true) : ∃ s, Decodes x s := by
  rcases hd : Decompress x 625 512 with (e | s) | _ | _
  · rw [verifyBody_reject hd] at h; simp at h
  · exact ⟨s, (decodes_iff _ _).1 hd⟩
  · rw [verifyBody_panic hd] at h; simp at h
  · exact absurd hd (decompress_not_diverge _ _ _)

theorem bytesBits_append (x y : List UInt8) : bytesBits (x ++ y) = bytesBits x ++ bytesBits y := by
  simp [bytesBits]

/-- C24 is violated. From any accepted signature (any key length) anybody obtains other accepted ones: (1) any other header byte;
(2) any bytes appended while the body has at most 625 bytes; (3) trailing zero bytes removed; (4) any body whose bits agree on
the code of the decoded vector. -/
theorem C24_violated_malleable (xof : Xof) (fuel : Nat) (pk : List Int16) (m salt body : List UInt8) (hd : UInt8)
    (hs : salt.length = 40) (hv : Verify xof fuel pk m (hd :: (salt ++ body)) = .ok true) :
    (∀ hd', Verify xof fuel pk m (hd' :: (salt ++ body)) = .ok true) ∧
    (∀ t : List UInt8, body.length + t.length ≤ 625 → Verify xof fuel pk m (hd :: (salt ++ (body ++ t))) = .ok true) ∧
    (∀ (b : List UInt8) (k : Nat), body = b ++ List.replicate k 0 → Verify xof fuel pk m (hd :: (salt ++ b)) = .ok true) ∧
    (∀ s y, Decodes body s → y.length ≤ 625 → (bytesBits y).take (codeLen s) = (bytesBits body).take (codeLen s) →
      Verify xof fuel pk m (hd :: (salt ++ y)) = .ok true) := by
  rw [Verify_cons hd hs] at hv
  obtain ⟨s, hds⟩ := accept_decodes hv
  obtain ⟨hl, ⟨b, hbm, hb0⟩, hsl, hp⟩ := id hds
  have hne : s ≠ [] := by rintro rfl; simp at hsl
  -- any string starting with the code of `s` is non-zero
  have hnz : ∀ y : List UInt8, code s <+: bytesBits y → ∃ b ∈ y, b ≠ 0 := by
    intro y hy
    by_contra hz
    have hz' : ∀ b ∈ y, b = 0 := by simpa using hz
    rw [← bytes_zero_iff] at hz'
    rcases code_ends s with he | ⟨q, hq⟩
    · have := congrArg List.length he
      rw [code_length] at this
      cases s with
      | nil => exact hne rfl
      | cons c t => simp [codeLen] at this
    · have := hz' true (hy.subset (by simp [hq]))
      simp at this
  refine ⟨fun hd' => by rw [Verify_cons hd' hs]; exact hv, fun t ht => ?_, fun b k hbk => ?_, fun s' y hs' hy ht => ?_⟩
  · rw [Verify_cons hd hs, ← verifyBody_same_code hds, hv]
    have hpre : code s <+: bytesBits (body ++ t) := by
      rw [bytesBits_append]; exact hp.trans (List.prefix_append _ _)
    exact ⟨by simp; omega, hnz _ hpre, hsl, hpre⟩
  · rw [Verify_cons hd hs, ← verifyBody_same_code hds, hv]
    have hpre : code s <+: bytesBits b := by
      rw [hbk, bytesBits_append] at hp
      rcases code_ends s with he | ⟨q, hq⟩
      · rw [he]; exact List.nil_prefix
      · rw [hq] at hp ⊢
        by_cases hlen : (q ++ [true]).length ≤ (bytesBits b).length
        · exact List.prefix_of_prefix_length_le hp (List.prefix_append _ _) hlen
        · exfalso
          obtain ⟨t, ht⟩ := hp
          have h1 : (bytesBits b ++ bytesBits (List.replicate k 0))[q.length]? = some true := by
            rw [← ht]; simp
          rw [List.getElem?_append_right (by simp at hlen; omega)] at h1
          have h2 := List.mem_of_getElem? h1
          have h3 := (bytes_zero_iff (List.replicate k 0)).2 (by simp) true h2
          simp at h3
    exact ⟨by rw [hbk] at hl; simp at hl; omega, hnz _ hpre, hsl, hpre⟩
  · have hss : s' = s := by
      have h1 := (decodes_iff _ _).2 hs'
      rw [(decodes_iff _ _).2 hds] at h1
      exact (Except.ok.inj (Go.ok.inj h1)).symm
    subst hss
    rw [Verify_cons hd hs, ← verifyBody_same_code hds, hv]
    have hpre : code s' <+: bytesBits y := by
      have : code s' = (bytesBits body).take (codeLen s') := by
        rw [List.prefix_iff_eq_take, code_length] at hp; exact hp
      rw [this, ← ht]
      exact List.take_prefix _ _
    exact ⟨hy, hnz _ hpre, hsl, hpre⟩

end Falcon
