import Verif.Model.Verify
import Verif.Spec.Hash
import Verif.Spec.Poly
/-!
# Properties C16–C18: hashing to a point
-/

namespace Falcon
open Spec

theorem i16_ofNat {n : Nat} (h : n < 32768) : (Int16.ofNat n).toInt = (n : Int) := by
  rw [Int16.toInt_ofNat', show Int16.size = 65536 from rfl, Int.bmod_def]
  split <;> omega

theorem shl8_or (a b : UInt8) : (a.toNat <<< 8) ||| b.toNat = 256 * a.toNat + b.toNat := by
  have := Nat.shiftLeft_add_eq_or_of_lt (i := 8) b.toNat_lt a.toNat
  rw [← this, Nat.shiftLeft_eq]
  omega

theorem hashSample_eq (b0 b1 : UInt8) : hashSample b0 b1 =
    if 256 * b0.toNat + b1.toNat < 5 * 12289 then some (Int16.ofNat ((256 * b0.toNat + b1.toNat) % 12289)) else none := by
  unfold hashSample
  rw [shl8_or]

theorem samples_succ (s : Nat → UInt8) (pos N : Nat) :
    samples s pos (N + 1) = (256 * (s pos).toNat + (s (pos + 1)).toNat) :: samples s (pos + 2) N := by
  unfold samples
  rw [List.range_succ_eq_map, List.map_cons, List.map_map]
  congr 1
  apply List.map_congr_left
  intro i _
  simp only [Function.comp, Nat.succ_eq_add_one]
  rw [show pos + 2 * (i + 1) = pos + 2 + 2 * i by omega]

theorem hashLoop_eq (s : Nat → UInt8) (fuel pos need : Nat) :
    hashLoop s fuel pos need =
      if need ≤ (accepted s pos fuel).length then
        .ok (((accepted s pos fuel).take need).map fun e => Int16.ofNat (e % 12289))
      else .diverge := by
  induction fuel generalizing pos need with
  | zero =>
    cases need with
    | zero => simp [hashLoop]
    | succ need => simp [hashLoop, accepted, samples]
  | succ fuel ih =>
    cases need with
    | zero => simp [hashLoop]
    | succ need =>
      rw [hashLoop, hashSample_eq]
      by_cases h : 256 * (s pos).toNat + (s (pos + 1)).toNat < 5 * 12289
      · have ha : accepted s pos (fuel + 1) =
            (256 * (s pos).toNat + (s (pos + 1)).toNat) :: accepted s (pos + 2) fuel := by
          unfold accepted
          rw [samples_succ, List.filter_cons, if_pos (by simpa using h)]
        rw [if_pos h, ha]
        simp only [ih, List.length_cons, Nat.add_le_add_iff_right]
        split <;> simp
      · have ha : accepted s pos (fuel + 1) = accepted s (pos + 2) fuel := by
          unfold accepted
          rw [samples_succ, List.filter_cons, if_neg (by simpa using h)]
        rw [if_neg h, ha]
        simp only [ih]

/-- C16. The result is exactly the first 512 accepted samples mod q of the stream of `salt ++ message`, available as soon as
`fuel` samples contain 512 accepted ones (and the only other outcome is that the loop is still running). -/
theorem C16_hash_exact (xof : Xof) (fuel : Nat) (message salt : List UInt8) :
    hashToPoint xof fuel message salt =
      if 512 ≤ (accepted (xof (salt ++ message)) 0 fuel).length then
        .ok (((accepted (xof (salt ++ message)) 0 fuel).take 512).map fun e => Int16.ofNat (e % 12289))
      else .diverge :=
  hashLoop_eq _ _ _ _

/-- C16. The result has 512 coefficients, all in `[0,q)`. -/
theorem C16_hash_reduced (xof : Xof) (fuel : Nat) (message salt : List UInt8) (c : List Int16)
    (h : hashToPoint xof fuel message salt = .ok c) : c.length = 512 ∧ Reduced c := by
  rw [C16_hash_exact] at h
  split at h
  · next hl =>
    have h := Go.ok.inj h
    subst h
    refine ⟨by simpa using hl, ?_⟩
    intro x hx
    simp only [List.mem_map] at hx
    obtain ⟨e, _, rfl⟩ := hx
    have := Nat.mod_lt e (show 12289 > 0 by decide)
    rw [i16_ofNat (by omega)]
    omega
  · simp at h

/-- C16. It depends only on the concatenation of salt and message. -/
theorem C16_hash_concat (xof : Xof) (fuel : Nat) (m s m' s' : List UInt8) (h : s ++ m = s' ++ m') :
    hashToPoint xof fuel m s = hashToPoint xof fuel m' s' := by
  unfold hashToPoint; rw [h]

/-- C16. More iterations never change a result. -/
theorem C16_hash_fuel_mono (xof : Xof) (fuel fuel' : Nat) (hf : fuel ≤ fuel') (m s : List UInt8) (c : List Int16)
    (h : hashToPoint xof fuel m s = .ok c) : hashToPoint xof fuel' m s = .ok c := by
  rw [C16_hash_exact] at h ⊢
  obtain ⟨d, rfl⟩ := Nat.exists_eq_add_of_le hf
  have ha : ∃ t, accepted (xof (s ++ m)) 0 (fuel + d) = accepted (xof (s ++ m)) 0 fuel ++ t := by
    unfold accepted samples
    rw [List.range_add, List.map_append, List.filter_append]
    exact ⟨_, rfl⟩
  obtain ⟨t, ht⟩ := ha
  split at h
  · next hl =>
    rw [ht, if_pos (by simp; omega), List.take_append_of_le_length hl]
    exact h
  · simp at h

/-- C16. It returns (for some number of iterations) iff the stream contains 512 accepted samples. -/
theorem C16_hash_terminates_iff (xof : Xof) (m s : List UInt8) :
    (∃ fuel c, hashToPoint xof fuel m s = .ok c) ↔ ∃ N, 512 ≤ (accepted (xof (s ++ m)) 0 N).length := by
  constructor
  · rintro ⟨fuel, c, h⟩
    rw [C16_hash_exact] at h
    split at h
    · next hl => exact ⟨fuel, hl⟩
    · simp at h
  · rintro ⟨N, hN⟩
    exact ⟨N, _, by rw [C16_hash_exact, if_pos hN]⟩

/-- The hypothesis is met: on the all-zero stream the hash is the zero vector. -/
example : hashToPoint (fun _ _ => 0) 512 [1, 2] [3] = .ok (List.replicate 512 0) := by decide +kernel

/-- C17. A two-byte sample is rejected iff its value is at least `5q`, and every residue has exactly five samples. -/
theorem C17_hash_unbiased :
    (∀ b0 b1 : UInt8, hashSample b0 b1 = none ↔ 5 * 12289 ≤ 256 * b0.toNat + b1.toNat) ∧
    ∀ r : Int16, 0 ≤ r.toInt → r.toInt < 12289 →
      ∃ L : List (UInt8 × UInt8), L.Nodup ∧ L.length = 5 ∧ ∀ p, p ∈ L ↔ hashSample p.1 p.2 = some r := by
  constructor
  · intro b0 b1
    rw [hashSample_eq]
    split
    · simp; omega
    · simp; omega
  · intro r h0 h1
    obtain ⟨n, hn⟩ : ∃ n : Nat, r.toInt = n := ⟨r.toInt.toNat, by omega⟩
    have hn' : n < 12289 := by omega
    have hr : r = Int16.ofNat n := by
      apply Int16.toInt_inj.1
      rw [i16_ofNat (by omega), hn]
    let g : Nat → UInt8 × UInt8 := fun i => (UInt8.ofNat ((n + i * 12289) / 256), UInt8.ofNat ((n + i * 12289) % 256))
    have gval : ∀ i, i < 5 → 256 * (g i).1.toNat + (g i).2.toNat = n + i * 12289 := by
      intro i hi
      simp only [g, UInt8.toNat_ofNat']
      have h1 : (n + i * 12289) / 256 < 2 ^ 8 := by omega
      have h2 : (n + i * 12289) % 256 < 2 ^ 8 := by omega
      rw [Nat.mod_eq_of_lt h1, Nat.mod_eq_of_lt h2]
      omega
    refine ⟨(List.range 5).map g, ?_, by simp, ?_⟩
    · rw [List.nodup_map_iff_inj_on List.nodup_range]
      intro i hi j hj hij
      rw [List.mem_range] at hi hj
      have h1 := gval i hi
      have h2 := gval j hj
      rw [hij] at h1
      omega
    · intro p
      rw [List.mem_map, hashSample_eq]
      constructor
      · rintro ⟨i, hi, rfl⟩
        rw [List.mem_range] at hi
        rw [gval i hi, if_pos (by omega), hr]
        congr 2
        omega
      · intro h
        split at h
        · next hlt =>
          have h := Option.some.inj h
          have hm : (256 * p.1.toNat + p.2.toNat) % 12289 = n := by
            have := congrArg Int16.toInt h
            rw [hn, i16_ofNat (by omega)] at this
            omega
          refine ⟨(256 * p.1.toNat + p.2.toNat) / 12289, by rw [List.mem_range]; omega, ?_⟩
          have h1 := gval ((256 * p.1.toNat + p.2.toNat) / 12289) (by omega)
          have hb1 := p.1.toNat_lt
          have hb2 := p.2.toNat_lt
          have hc1 := (g ((256 * p.1.toNat + p.2.toNat) / 12289)).1.toNat_lt
          have hc2 := (g ((256 * p.1.toNat + p.2.toNat) / 12289)).2.toNat_lt
          apply Prod.ext
          · apply UInt8.toNat_inj.1; omega
          · apply UInt8.toNat_inj.1; omega
        · simp at h

theorem privHashSample_eq (b0 b1 : UInt8) : privHashSample b0 b1 = (hashSample b0 b1).map Int16.toInt := by
  unfold privHashSample
  have h2 : b0.toNat <<< 8 = 256 * b0.toNat := by rw [Nat.shiftLeft_eq]; omega
  have h1 : (1 <<< 16) / 12289 * 12289 = 5 * 12289 := by decide +kernel
  rw [hashSample_eq]
  simp only [h1, h2]
  clear h1
  split
  · simp only [Option.map_some, Option.some.injEq]
    rw [i16_ofNat (by omega)]
  · rfl

/-- C18. The signer-side hash of a degree-512 key is the verifier-side hash, for every message, salt, XOF and fuel. -/
theorem C18_hashes_agree (xof : Xof) (fuel : Nat) (message salt : List UInt8) :
    privHashToPoint xof fuel 512 message salt = (hashToPoint xof fuel message salt).bind fun c => .ok (c.map Int16.toInt) := by
  have key : ∀ (s : Nat → UInt8) (fuel pos need : Nat),
      privHashLoop s fuel pos need = (hashLoop s fuel pos need).bind fun c => .ok (c.map Int16.toInt) := by
    intro s fuel
    induction fuel with
    | zero => intro pos need; cases need <;> rfl
    | succ fuel ih =>
      intro pos need
      cases need with
      | zero => rfl
      | succ need =>
        rw [privHashLoop, hashLoop, privHashSample_eq]
        cases hashSample (s pos) (s (pos + 1)) with
        | none => exact ih _ _
        | some c =>
          simp only [Option.map_some, ih]
          cases hashLoop s fuel (pos + 2) need <;> rfl
  exact key _ _ _ _

end Falcon
