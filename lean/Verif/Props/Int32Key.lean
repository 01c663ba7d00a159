import Verif.Props.Int32
import Verif.Props.GsFloat
/-!
# Public keys on a 32-bit platform

Property C99: the public key of a private key, at every degree.
-/

namespace Falcon
open Spec Polynomial

/-- The model of `GetPublicKey` over 64-bit arithmetic is the model of `GetPublicKey`. -/
theorem GetPublicKeyOn_64 (k : PrivateKey) : GetPublicKeyOn wrap64 k = GetPublicKey k := rfl

theorem key_two (W : Int → Go Int) (hW : Good32 W) : DivZq W [60, 31] [72, 5] = (INTT W [5926, 10649]).bind fun r => .ok (.ok r) := by
  unfold DivZq
  rw [NTT_32 hW, NTT_32 hW, NTT_two, NTT_two, Go.ok_bind, Go.ok_bind, divNTT_32 hW]
  have : divNTT wrap64 [reduceQ ((60 : Int16).toInt + 1479 * (31 : Int16).toInt), reduceQ ((60 : Int16).toInt - 1479 * (31 : Int16).toInt)]
      [reduceQ ((72 : Int16).toInt + 1479 * (5 : Int16).toInt), reduceQ ((72 : Int16).toInt - 1479 * (5 : Int16).toInt)]
      = .ok (.ok [5926, 10649]) := by
    decide +kernel
  rw [this, Go.ok_bind]
  rfl

theorem key_two_64 : DivZq wrap64 [60, 31] [72, 5] = .ok (.ok [2143, 8727]) := by
  rw [key_two _ wrap64_good.good32, (INTT_two _ _).1]
  decide +kernel

theorem key_two_32 : DivZq wrap32 [60, 31] [72, 5] = .ok (.ok [2143, 9438]) := by
  rw [key_two _ wrap32_good, (INTT_two _ _).2]
  decide +kernel

theorem polyZ_pad (f : List Int16) : polyZ ((pad f).map Int16.toInt) = (polyZ (f.map Int16.toInt)).comp (X ^ 2) := by
  induction f with
  | nil => simp [pad, polyZ]
  | cons a f ih =>
    have h0 : (0 : Int16).toInt = 0 := rfl
    simp only [polyZ, pad_cons, List.map_cons, poly_cons, h0] at ih ⊢
    rw [ih]
    simp
    ring

theorem congr_pad (n : Nat) (f g F G : List Int16)
    (h : CongrZ n (ntruDet (f.map Int16.toInt) (g.map Int16.toInt) (F.map Int16.toInt) (G.map Int16.toInt)) (C 12289)) :
    CongrZ (2 * n) (ntruDet ((pad f).map Int16.toInt) ((pad g).map Int16.toInt) ((pad F).map Int16.toInt) ((pad G).map Int16.toInt)) (C 12289) := by
  obtain ⟨u, hu⟩ := h
  refine ⟨u.comp (X ^ 2), ?_⟩
  have := congrArg (fun p : ℤ[X] => p.comp (X ^ 2)) hu
  simp only [ntruDet, sub_comp, mul_comp, add_comp, pow_comp, X_comp, one_comp, C_comp, ← pow_mul] at this
  rw [ntruDet, polyZ_pad, polyZ_pad, polyZ_pad, polyZ_pad]
  exact this

theorem congr_pads (j : Nat) : CongrZ (2 ^ (j + 1)) (ntruDet ((pads j [72, 5]).map Int16.toInt) ((pads j [60, 31]).map Int16.toInt)
    ((pads j [-40, 31]).map Int16.toInt) ((pads j [124, 0]).map Int16.toInt)) (C 12289) := by
  induction j with
  | zero =>
    refine ⟨C (-961), ?_⟩
    have e : ∀ a b : Int16, (pads 0 [a, b]).map Int16.toInt = [a.toInt, b.toInt] := fun _ _ => rfl
    rw [e, e, e, e, show (72 : Int16).toInt = 72 from rfl, show (5 : Int16).toInt = 5 from rfl, show (60 : Int16).toInt = 60 from rfl,
      show (31 : Int16).toInt = 31 from rfl, show (-40 : Int16).toInt = -40 from rfl, show (124 : Int16).toInt = 124 from rfl,
      show (0 : Int16).toInt = 0 from rfl]
    unfold ntruDet polyZ
    simp
    ring
  | succ j ih =>
    have := congr_pad _ _ _ _ _ ih
    rw [show 2 * 2 ^ (j + 1) = 2 ^ (j + 1 + 1) by ring] at this
    simpa only [pads, Function.iterate_succ_apply'] using this

/-- The private key `(f, g, F, G)` with `f = 72+5x^(n/2)`, `g = 60+31x^(n/2)`, `F = -40+31x^(n/2)`, `G = 124`, `n = 2^(j+1)`. -/
def key32 (j : Nat) : PrivateKey := ⟨UInt16.ofNat (2 ^ (j + 1)), pads j [72, 5], pads j [60, 31], pads j [-40, 31], pads j [124, 0]⟩

/-- C99, violated for public keys at every degree: a private key that satisfies the NTRU equation and that `GetPrivateKey` accepts has one public key
with a 64-bit `int` and another with a 32-bit one. At degree 2 it is a key that `GeneratePrivateKey` generates in IEEE arithmetic. -/
theorem C99_violated_key (j : Nat) (hj : j < 10) :
    CongrZ (2 ^ (j + 1)) (ntruDet ((key32 j).f.map Int16.toInt) ((key32 j).g.map Int16.toInt) ((key32 j).F.map Int16.toInt)
      ((key32 j).G.map Int16.toInt)) (C 12289) ∧
    GetPrivateKey (key32 j).n (key32 j).f (key32 j).g (key32 j).F (key32 j).G = .ok (.ok (key32 j)) ∧
    GetPublicKey (key32 j) = .ok ⟨(key32 j).n, pads j [2143, 8727]⟩ ∧
    GetPublicKeyOn wrap32 (key32 j) = .ok ⟨(key32 j).n, pads j [2143, 9438]⟩ ∧ pads j [2143, 8727] ≠ pads j [2143, 9438] ∧
    (j = 0 → GeneratePrivateKey ieeeOps runRand 20 2 0 = .ok (.ok (key32 j, 8192))) := by
  refine ⟨congr_pads j, ?_, ?_, ?_, fun h => absurd (pads_inj j h) (by decide), ?_⟩
  · have l : ∀ f : List Int16, f.length = 2 → (pads j f).length = 2 ^ (j + 1) := by
      intro f hf
      rw [pads_length, hf, pow_succ]
    unfold GetPrivateKey isValidPolysLength key32
    simp only [l _ (show [(72 : Int16), 5].length = 2 from rfl), l _ (show [(60 : Int16), 31].length = 2 from rfl),
      l _ (show [(-40 : Int16), 31].length = 2 from rfl), l _ (show [(124 : Int16), 0].length = 2 from rfl)]
    generalize pads j [72, 5] = f
    generalize pads j [60, 31] = g
    generalize pads j [-40, 31] = F
    generalize pads j [124, 0] = G
    interval_cases j <;> rfl
  · rw [← GetPublicKeyOn_64]
    unfold GetPublicKeyOn key32
    simp only [DivZq_pads wrap64_good.good32 j hj rfl rfl key_two_64 rfl, Go.ok_bind]
    rfl
  · unfold GetPublicKeyOn key32
    simp only [DivZq_pads wrap32_good j hj rfl rfl key_two_32 rfl, Go.ok_bind]
    rfl
  · rintro rfl
    exact ieee_run_key

end Falcon
