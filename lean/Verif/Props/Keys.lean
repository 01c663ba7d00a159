import Verif.Lemmas.KeyLen
import Verif.Props.Ntt
import Verif.Props.Encoding
import Verif.Spec.RatOps
/-!
# Properties of the key functions and parameter tables of `src/falcon.go` (C29-C33)
-/

namespace Falcon
open Spec Polynomial

/-! ### C29: GetPrivateKey -/

theorem isValidPolysLength_eq (k : Nat) (h1 : 1 ≤ k) (h2 : k ≤ 10) (n : UInt16) (hn : n.toNat = 2 ^ k) (f g F G : List Int16) :
    isValidPolysLength n f g F G = .ok (decide (4 * n.toNat ∣ f.length + g.length + F.length + G.length)) := by
  have h4 : (4 * n).toNat = 4 * n.toNat := by
    rw [UInt16.toNat_mul, hn]
    interval_cases k <;> rfl
  have h0 : (4 * n : UInt16) ≠ 0 := by
    intro h
    rw [h, hn] at h4
    have : 0 < 2 ^ k := by positivity
    simp at h4
  unfold isValidPolysLength
  rw [if_neg h0]
  congr 1
  rw [Bool.eq_iff_iff, beq_iff_eq, decide_eq_true_iff, ← UInt16.toNat_inj, UInt16.toNat_mod, h4, UInt16.toNat_ofNat']
  generalize f.length + g.length + F.length + G.length = s
  have hd : 4 * n.toNat ∣ 2 ^ 16 := by
    rw [hn]
    interval_cases k <;> decide
  rw [Nat.mod_mod_of_dvd _ hd]
  exact (Nat.dvd_iff_mod_eq_zero).symm

/-- C29: the exact outcome of `GetPrivateKey` on all inputs: it never panics, it rejects unsupported degrees and then total lengths not
divisible by `4n`, and accepts everything else, storing its arguments unchanged. The truncation of the total length to 16 bits changes
nothing, since `4n` divides `2^16`. -/
theorem C29_exact (n : UInt16) (f g F G : List Int16) :
    ((∃ k, 1 ≤ k ∧ k ≤ 10 ∧ n.toNat = 2 ^ k) → 4 * n.toNat ∣ f.length + g.length + F.length + G.length →
      GetPrivateKey n f g F G = .ok (.ok ⟨n, f, g, F, G⟩)) ∧
    ((∃ k, 1 ≤ k ∧ k ≤ 10 ∧ n.toNat = 2 ^ k) → ¬ 4 * n.toNat ∣ f.length + g.length + F.length + G.length →
      GetPrivateKey n f g F G = .ok (.error .invalidPolysLength)) ∧
    ((¬ ∃ k, 1 ≤ k ∧ k ≤ 10 ∧ n.toNat = 2 ^ k) → GetPrivateKey n f g F G = .ok (.error .invalidDegree)) := by
  unfold GetPrivateKey
  refine ⟨?_, ?_, ?_⟩
  · intro hv hd
    have hv' := (isValidDegree_iff n).2 hv
    obtain ⟨k, h1, h2, hn⟩ := hv
    rw [if_neg (by simp [hv']), isValidPolysLength_eq k h1 h2 n hn, Go.ok_bind]
    simp [hd]
  · intro hv hd
    have hv' := (isValidDegree_iff n).2 hv
    obtain ⟨k, h1, h2, hn⟩ := hv
    rw [if_neg (by simp [hv']), isValidPolysLength_eq k h1 h2 n hn, Go.ok_bind]
    simp [hd]
  · intro hv
    have hv' : isValidDegree n = false := by
      rw [Bool.eq_false_iff]
      exact fun h => hv ((isValidDegree_iff n).1 h)
    rw [if_pos (by simp [hv'])]

/-- C29, the "if" half: well-formed arguments are accepted and stored unchanged. -/
theorem C29_accepts (k : Nat) (h1 : 1 ≤ k) (h2 : k ≤ 10) (n : UInt16) (hn : n.toNat = 2 ^ k) (f g F G : List Int16)
    (hf : f.length = n.toNat) (hg : g.length = n.toNat) (hF : F.length = n.toNat) (hG : G.length = n.toNat) :
    GetPrivateKey n f g F G = .ok (.ok ⟨n, f, g, F, G⟩) := by
  refine (C29_exact n f g F G).1 ⟨k, h1, h2, hn⟩ ?_
  rw [hf, hg, hF, hG]
  exact ⟨1, by ring⟩

example : GetPrivateKey 4 [1, 2, 3, 4] [5, 6, 7, 8] [1, 0, 0, 0] [0, 0, 0, 1] =
    .ok (.ok ⟨4, [1, 2, 3, 4], [5, 6, 7, 8], [1, 0, 0, 0], [0, 0, 0, 1]⟩) := by decide +kernel

/-- C29, the "only if" half is violated: polynomials of four different lengths, one of them empty, are accepted for degree 2. -/
theorem C29_violated : GetPrivateKey 2 [] [1] [1, 2] [1, 2, 3, 4, 5] = .ok (.ok ⟨2, [], [1], [1, 2], [1, 2, 3, 4, 5]⟩) := by
  decide +kernel

/-- C29: four empty polynomials are accepted for every supported degree. -/
theorem C29_violated_empty (n : UInt16) (h : isValidDegree n = true) : GetPrivateKey n [] [] [] [] = .ok (.ok ⟨n, [], [], [], []⟩) := by
  exact (C29_exact n [] [] [] []).1 ((isValidDegree_iff n).1 h) (by simp)

example : isValidDegree 512 = true := by decide

/-! ### C30: GetPublicKey -/

/-- C30: for `f` invertible, the public key has the same degree and the reduced `h` of length `n` with `h*f = g`; for `f` not invertible,
it is a key with an empty polynomial, and no error is reported. -/
theorem C30_public_key (k : Nat) (h1 : 1 ≤ k) (h2 : k ≤ 10) (key : PrivateKey) (hf : key.f.length = 2 ^ k) (hg : key.g.length = 2 ^ k) :
    ((∃ u : Zq[X], (X ^ 2 ^ k + 1 : Zq[X]) ∣ polyQ key.f * u - 1) →
      ∃ h, GetPublicKey key = .ok ⟨key.n, h⟩ ∧ h.length = 2 ^ k ∧ Reduced h ∧
        (X ^ 2 ^ k + 1 : Zq[X]) ∣ polyQ h * polyQ key.f - polyQ key.g) ∧
    ((¬ ∃ u : Zq[X], (X ^ 2 ^ k + 1 : Zq[X]) ∣ polyQ key.f * u - 1) → GetPublicKey key = .ok ⟨key.n, []⟩) := by
  obtain ⟨hok, herr⟩ := C12_divzq k h1 h2 key.g key.f hg hf
  constructor
  · intro hu
    obtain ⟨r, e, l, rr, d⟩ := hok hu
    exact ⟨r, by unfold GetPublicKey; rw [e]; rfl, l, rr, d⟩
  · intro hu
    unfold GetPublicKey
    rw [herr hu]
    rfl

/-- C30: `h` is the only reduced polynomial with `h*f = g`. -/
theorem C30_unique (k : Nat) (h1 : 1 ≤ k) (h2 : k ≤ 10) (key : PrivateKey) (hf : key.f.length = 2 ^ k) (hg : key.g.length = 2 ^ k)
    (hu : ∃ u : Zq[X], (X ^ 2 ^ k + 1 : Zq[X]) ∣ polyQ key.f * u - 1) (h : List Int16) (hl : h.length = 2 ^ k) (hr : Reduced h)
    (hd : (X ^ 2 ^ k + 1 : Zq[X]) ∣ polyQ h * polyQ key.f - polyQ key.g) : GetPublicKey key = .ok ⟨key.n, h⟩ := by
  obtain ⟨r, e, l, rr, d⟩ := (C30_public_key k h1 h2 key hf hg).1 hu
  rw [e]
  congr 2
  obtain ⟨u, a, ha⟩ := hu
  obtain ⟨b, hb⟩ := hd
  obtain ⟨c, hc⟩ := d
  have hdiv : (X ^ 2 ^ k + 1 : Zq[X]) ∣ polyQ r - polyQ h :=
    ⟨u * (c - b) - (polyQ r - polyQ h) * a, by linear_combination (polyQ h - polyQ r) * ha + u * hc - u * hb⟩
  apply eq_of_values h1 h2 l hl rr hr
  intro x hx
  have := (dvd_iff_eval (K := Zq) (n := 2 ^ k) (by positivity) (rootsZ k) (rootsZ_length k h1 h2)
    (rootsZ_nodup k h1 h2) (rootsZ_root k h1 h2) _).1 hdiv x hx
  rw [eval_sub, sub_eq_zero] at this
  exact this

/-- A concrete invertible `f`, and a concrete `f` that is not. -/
example : GetPublicKey ⟨2, [1, 1], [3, 5], [], []⟩ = .ok ⟨2, [4, 1]⟩ := by decide +kernel
example : GetPublicKey ⟨2, [12289, 0], [3, 5], [], []⟩ = .ok ⟨2, []⟩ := by decide +kernel

/-! ### C31: NewKeyPair and NewKeyPairFromPrivateKey -/

/-- C31 is violated: `NewKeyPairFromPrivateKey` never returns a key. On every well-formed input it succeeds, with two nil keys. -/
theorem C31_violated_from_private_key (O : FloatOps) (fuel : Nat) (hfu : 10 ≤ fuel) (k : Nat) (h1 : 1 ≤ k) (h2 : k ≤ 10) (n : UInt16)
    (hn : n.toNat = 2 ^ k) (f g F G : List Int16) (hf : f.length = 2 ^ k) (hg : g.length = 2 ^ k) (hF : F.length = 2 ^ k)
    (hG : G.length = 2 ^ k) : NewKeyPairFromPrivateKey O fuel n f g F G = .ok (.ok (none, none)) := by
  unfold NewKeyPairFromPrivateKey
  rw [if_neg (by simp [(isValidDegree_iff n).2 ⟨k, h1, h2, hn⟩]), isValidPolysLength_eq k h1 h2 n hn, Go.ok_bind,
    if_neg (by rw [hf, hg, hF, hG, hn]; simp; exact ⟨1, by ring⟩)]
  obtain ⟨B, T, e, -, l2, -⟩ := basisAndMatrix_ok (O := O) k h1 h2 fuel (by omega) f g F G hf hg hF hG
  rw [e, Go.ok_bind]
  obtain ⟨t', e'⟩ := normalizeTree_ok (O := O) (T.AllChild O) (O.lit (GetParamSet n).sigma) (by
    match hT : T.Leftchild, l2 with
    | [a, b], _ => exact ⟨a, b, [], T.Rightchild, by simp [FFTtree.AllChild, hT]⟩)
  simp only [e', Go.ok_bind]
  by_cases hu : ∃ u : Zq[X], (X ^ 2 ^ k + 1 : Zq[X]) ∣ polyQ f * u - 1
  · obtain ⟨r, er, -⟩ := (C12_divzq k h1 h2 g f hg hf).1 hu
    rw [er]; rfl
  · rw [(C12_divzq k h1 h2 g f hg hf).2 hu]; rfl

/-- C31: whatever the arguments (also ill-formed ones), a successful return of `NewKeyPairFromPrivateKey` has two nil keys. -/
theorem C31_violated_never (O : FloatOps) (fuel : Nat) (n : UInt16) (f g F G : List Int16) (p : Option PrivateKey)
    (q : Option PublicKey) (h : NewKeyPairFromPrivateKey O fuel n f g F G = .ok (.ok (p, q))) : p = none ∧ q = none := by
  unfold NewKeyPairFromPrivateKey at h
  split at h
  · simp at h
  · obtain ⟨b, _, h⟩ := Go.bind_eq_ok.1 h
    split at h
    · simp at h
    · obtain ⟨T, _, h⟩ := Go.bind_eq_ok.1 h
      obtain ⟨t, _, h⟩ := Go.bind_eq_ok.1 h
      obtain ⟨d, _, h⟩ := Go.bind_eq_ok.1 h
      simp at h
      exact ⟨h.1.symm, h.2.symm⟩

/-- C31 is violated: whenever `NewKeyPair` returns successfully, the public key is nil; the private key is the one of
`GeneratePrivateKey`. -/
theorem C31_violated_new_key_pair (O : FloatOps) (rand : Rand) (fuel : Nat) (n : UInt16) (pos : Nat) (p : Option PrivateKey)
    (q : Option PublicKey) (h : NewKeyPair O rand fuel n pos = .ok (.ok (p, q))) :
    q = none ∧ ∃ key pos', p = some key ∧ GeneratePrivateKey O rand fuel n pos = .ok (.ok (key, pos')) := by
  unfold NewKeyPair at h
  obtain ⟨r, hr, h⟩ := Go.bind_eq_ok.1 h
  match r with
  | .error e => simp at h
  | .ok (key, pos') =>
    obtain ⟨T, _, h⟩ := Go.bind_eq_ok.1 h
    obtain ⟨t, _, h⟩ := Go.bind_eq_ok.1 h
    obtain ⟨d, _, h⟩ := Go.bind_eq_ok.1 h
    simp at h
    exact ⟨h.2.symm, key, pos', h.1.symm, hr⟩

/-- A concrete run of `NewKeyPairFromPrivateKey`, for a key pair with `f*G - g*F = q`. -/
example : (match NewKeyPairFromPrivateKey ratOps 10 2 [1, 0] [0, 0] [0, 0] [12289, 0] with
    | .ok (.ok (none, none)) => true | _ => false) = true := by
  rw [C31_violated_from_private_key ratOps 10 (by omega) 1 (by omega) (by omega) 2 rfl _ _ _ _ rfl rfl rfl rfl]

/-! ### C32: unsupported degrees -/

/-- C32: for an unsupported degree every key function returns `ErrInvalidDegree` and the parameter set is zero. `GeneratePrivateKey` and
`NewKeyPair` do so for every fuel, even 0, and every random source, even one that always fails: key generation is not run. -/
theorem C32_unsupported (O : FloatOps) (rand : Rand) (fuel pos : Nat) (n : UInt16) (hn : ∀ k, 1 ≤ k → k ≤ 10 → n.toNat ≠ 2 ^ k)
    (f g F G : List Int16) :
    GeneratePrivateKey O rand fuel n pos = .ok (.error .invalidDegree) ∧
    GetPrivateKey n f g F G = .ok (.error .invalidDegree) ∧
    NewKeyPair O rand fuel n pos = .ok (.error .invalidDegree) ∧
    NewKeyPairFromPrivateKey O fuel n f g F G = .ok (.error .invalidDegree) ∧
    GetParamSet n = ⟨0, 0, 0, 0, 0⟩ := by
  have hv : isValidDegree n = false := by
    rw [Bool.eq_false_iff]
    intro h
    obtain ⟨k, h1, h2, h⟩ := (isValidDegree_iff n).1 h
    exact hn k h1 h2 h
  have hg : GeneratePrivateKey O rand fuel n pos = .ok (.error .invalidDegree) := by
    unfold GeneratePrivateKey; rw [if_pos (by simp [hv])]
  refine ⟨hg, ?_, ?_, ?_, ?_⟩
  · unfold GetPrivateKey; rw [if_pos (by simp [hv])]
  · unfold NewKeyPair; rw [hg]; rfl
  · unfold NewKeyPairFromPrivateKey; rw [if_pos (by simp [hv])]; rfl
  · unfold GetParamSet; rw [if_neg (by simp [hv])]

example : ∀ k, 1 ≤ k → k ≤ 10 → (1 : UInt16).toNat ≠ 2 ^ k := by intro k h1 h2; interval_cases k <;> decide
example : ∀ k, 1 ≤ k → k ≤ 10 → (768 : UInt16).toNat ≠ 2 ^ k := by intro k h1 h2; interval_cases k <;> decide

/-- C32, converse: for a supported degree no function returns `ErrInvalidDegree`, and the parameter set is the one of that degree. -/
theorem C32_supported (O : FloatOps) (rand : Rand) (fuel pos : Nat) (n : UInt16) (k : Nat) (h1 : 1 ≤ k) (h2 : k ≤ 10)
    (hn : n.toNat = 2 ^ k) (f g F G : List Int16) :
    GeneratePrivateKey O rand fuel n pos ≠ .ok (.error .invalidDegree) ∧
    GetPrivateKey n f g F G ≠ .ok (.error .invalidDegree) ∧
    NewKeyPair O rand fuel n pos ≠ .ok (.error .invalidDegree) ∧
    NewKeyPairFromPrivateKey O fuel n f g F G ≠ .ok (.error .invalidDegree) ∧
    (GetParamSet n).n = n := by
  have hv := (isValidDegree_iff n).2 ⟨k, h1, h2, hn⟩
  have hg : ∀ e, GeneratePrivateKey O rand fuel n pos ≠ .ok (.error e) := by
    intro e h
    unfold GeneratePrivateKey at h
    rw [if_neg (by simp [hv])] at h
    obtain ⟨a, _, h⟩ := Go.bind_eq_ok.1 h
    simp at h
  refine ⟨hg _, ?_, ?_, ?_, ?_⟩
  · by_cases hd : 4 * n.toNat ∣ f.length + g.length + F.length + G.length
    · rw [(C29_exact n f g F G).1 ⟨k, h1, h2, hn⟩ hd]; simp
    · rw [(C29_exact n f g F G).2.1 ⟨k, h1, h2, hn⟩ hd]; simp
  · intro h
    unfold NewKeyPair at h
    obtain ⟨r, hr, h⟩ := Go.bind_eq_ok.1 h
    match r with
    | .error e => exact hg e hr
    | .ok (key, pos') =>
      obtain ⟨T, _, h⟩ := Go.bind_eq_ok.1 h
      obtain ⟨t, _, h⟩ := Go.bind_eq_ok.1 h
      obtain ⟨d, _, h⟩ := Go.bind_eq_ok.1 h
      simp at h
  · intro h
    unfold NewKeyPairFromPrivateKey at h
    rw [if_neg (by simp [hv]), isValidPolysLength_eq k h1 h2 n hn, Go.ok_bind] at h
    split at h
    · simp at h
    · obtain ⟨T, _, h⟩ := Go.bind_eq_ok.1 h
      obtain ⟨t, _, h⟩ := Go.bind_eq_ok.1 h
      obtain ⟨d, _, h⟩ := Go.bind_eq_ok.1 h
      simp at h
  · have e : n = UInt16.ofNat (2 ^ k) := by
      apply UInt16.toNat_inj.1
      rw [hn, UInt16.toNat_ofNat']
      interval_cases k <;> rfl
    subst e
    interval_cases k <;> decide +kernel

/-! ### C33: parameter tables -/

/-- C33: the entries of the two tables exist exactly for the supported degrees. -/
theorem C33_keys (n : UInt16) : ((ParamSets n).isSome ↔ ∃ k, 1 ≤ k ∧ k ≤ 10 ∧ n.toNat = 2 ^ k) ∧
    ((LOGN n).isSome ↔ ∃ k, 1 ≤ k ∧ k ≤ 10 ∧ n.toNat = 2 ^ k) := by
  refine ⟨isValidDegree_iff n, ?_⟩
  rw [← isValidDegree_iff]
  unfold LOGN isValidDegree ParamSets
  split_ifs <;> simp

/-- C33: the entry of degree `2^k`. -/
theorem C33_entry (k : Nat) (h1 : 1 ≤ k) (h2 : k ≤ 10) : ∃ p, ParamSets (UInt16.ofNat (2 ^ k)) = some p ∧
    LOGN (UInt16.ofNat (2 ^ k)) = some (UInt8.ofNat k) ∧ p.n.toNat = 2 ^ k ∧
    9 * 2 ^ k ≤ 8 * (p.sigbytelen.toNat - HeadLen - SaltLen) ∧ HeadLen + SaltLen < p.sigbytelen.toNat ∧
    1 < p.sigmin ∧ p.sigmin < 1.8205 ∧ 1.8205 < p.sigma := by
  interval_cases k <;> exact ⟨_, rfl, rfl, rfl, by decide, by decide, by decide +kernel, by decide +kernel, by decide +kernel⟩

/-- C33: `sigbound`, `sigbytelen`, `sigma` and `sigmin` strictly increase with the degree. -/
theorem C33_monotone (j k : Nat) (h1 : 1 ≤ j) (hjk : j < k) (h2 : k ≤ 10) (p r : PublicParameters)
    (hp : ParamSets (UInt16.ofNat (2 ^ j)) = some p) (hr : ParamSets (UInt16.ofNat (2 ^ k)) = some r) :
    p.sigbound < r.sigbound ∧ p.sigbytelen < r.sigbytelen ∧ p.sigma < r.sigma ∧ p.sigmin < r.sigmin := by
  have step : ∀ j, 1 ≤ j → j < 10 → ∃ p r, ParamSets (UInt16.ofNat (2 ^ j)) = some p ∧ ParamSets (UInt16.ofNat (2 ^ (j + 1))) = some r ∧
      p.sigbound.toNat < r.sigbound.toNat ∧ p.sigbytelen.toNat < r.sigbytelen.toNat ∧ p.sigma < r.sigma ∧ p.sigmin < r.sigmin := by
    intro j h1 h2
    interval_cases j <;> exact ⟨_, _, rfl, rfl, by decide +kernel, by decide +kernel, by decide +kernel, by decide +kernel⟩
  rw [UInt32.lt_iff_toNat_lt, UInt16.lt_iff_toNat_lt]
  induction k, hjk using Nat.le_induction generalizing r with
  | base =>
    obtain ⟨p', r', e1, e2, h⟩ := step j h1 (by omega)
    rw [hp] at e1
    rw [hr] at e2
    cases e1; cases e2
    exact h
  | succ k hjk ih =>
    obtain ⟨p', r', e1, e2, a, b, c, d⟩ := step k (by omega) (by omega)
    rw [hr] at e2
    cases e2
    obtain ⟨a', b', c', d'⟩ := ih (by omega) p' e1
    exact ⟨by omega, by omega, c'.trans c, d'.trans d⟩

/-- C33: with the tabulated signature length, the all-zero vector can be compressed, so the space for the encoding is large enough for at
least one vector. -/
theorem C33_compressible (k : Nat) (h1 : 1 ≤ k) (h2 : k ≤ 10) (p : PublicParameters) (hp : ParamSets (UInt16.ofNat (2 ^ k)) = some p) :
    ∃ x, Compress (List.replicate (2 ^ k) 0) ((p.sigbytelen.toNat : Int) - HeadLen - SaltLen) = .ok x := by
  obtain ⟨p', e, -, -, a, b, -⟩ := C33_entry k h1 h2
  rw [hp] at e
  cases e
  have hlen : ∀ m, codeLen ((List.replicate m (0 : Int16)).map Int16.toInt) = 9 * m := by
    intro m
    rw [List.map_replicate, show Int16.toInt 0 = 0 from rfl]
    induction m with
    | zero => rfl
    | succ m ih =>
      rw [List.replicate_succ]
      have : codeLen (0 :: List.replicate m (0 : Int)) = 9 + codeLen (List.replicate m (0 : Int)) := by
        simp [codeLen]
      omega
  have hs : p.sigbytelen.toNat < 65536 := p.sigbytelen.toNat_lt
  simp only [HeadLen, SaltLen] at *
  obtain ⟨x, hx, _⟩ := (C02_compress_fits (List.replicate (2 ^ k) 0) ((p.sigbytelen.toNat : Int) - (1 : Nat) - (40 : Nat))
    (by constructor <;> omega)).1 (by rw [hlen]; omega)
  exact ⟨x, hx⟩

end Falcon
