import Verif.Lemmas.Int32
import Verif.Props.Verify
/-!
# The results on 32-bit platforms

Property C99: the ring operations and `Verify` give the same result whatever the size of `int`. It is violated: the inverse transform
multiplies three factors before reducing, and the product does not fit in 32 bits.
-/

namespace Falcon
open Spec

/-- C99, what holds: the forward transform and the products and quotients of transforms are the same with a 32-bit `int`, for all
inputs of any length, and so is whether `DivZq` reports a division by zero. -/
theorem C99_forward_partial (f g : List Int16) : NTT wrap32 f = NTT wrap64 f ∧ mulNTT wrap32 f g = mulNTT wrap64 f g ∧
    divNTT wrap32 f g = divNTT wrap64 f g ∧ (DivZq wrap64 f g = .ok (.error .divByZero) → DivZq wrap32 f g = .ok (.error .divByZero)) := by
  have hW := wrap32_good
  refine ⟨NTT_32 hW f, mulNTT_32 hW f g, divNTT_32 hW f g, fun h => ?_⟩
  unfold DivZq at h ⊢
  rw [NTT_32 hW, NTT_32 hW]
  simp only [divNTT_32 hW]
  obtain ⟨F, hF, h⟩ := Go.bind_eq_ok.1 h
  obtain ⟨G, hG, h⟩ := Go.bind_eq_ok.1 h
  obtain ⟨d, hd, h⟩ := Go.bind_eq_ok.1 h
  rw [hF, Go.ok_bind, hG, Go.ok_bind, hd, Go.ok_bind]
  cases d with
  | error e => exact h
  | ok d =>
    obtain ⟨r, -, h⟩ := Go.bind_eq_ok.1 h
    cases h

/-- C99, a sufficient condition at every degree: if no operation of the inverse transform overflows 32 bits, the results agree. -/
theorem C99_no_overflow_partial (f r : List Int16) (h : INTT check32 f = .ok r) : INTT wrap32 f = .ok r ∧ INTT wrap64 f = .ok r :=
  ⟨INTT_check wrap32_good f r h, INTT_check wrap64_good.good32 f r h⟩

theorem inv_1479 : idx inv_mod_q 1479 = .ok 10810 := by decide +kernel

/-- The inverse transform at degree 2, in 64 and in 32 bits. -/
theorem INTT_two (a b : Int16) : INTT wrap64 [a, b] = .ok [reduceQ ((a.toInt + b.toInt) * 6145), reduceQ ((a.toInt - b.toInt) * 66427450)] ∧
    INTT wrap32 [a, b] = .ok [reduceQ ((a.toInt + b.toInt) * 6145), reduceQ (((a.toInt - b.toInt) * 66427450).bmod (2 ^ 32))] := by
  have ha := i16_bounds a
  have hb := i16_bounds b
  have e : (a.toInt - b.toInt) * 10810 * 6145 = (a.toInt - b.toInt) * 66427450 := by ring
  constructor
  · have hW := wrap64_good
    rw [INTT]
    simp only [List.length_cons, List.length_nil, gt_iff_lt, Nat.reduceAdd, Nat.lt_irrefl, ↓reduceDIte]
    rw [hW (a.toInt + b.toInt) (by omega) (by omega), Go.ok_bind, show i2 = 6145 from rfl, hW _ (by omega) (by omega), Go.ok_bind,
      hW _ (by omega) (by omega), Go.ok_bind, inv_1479, Go.ok_bind, show (((10810 : Nat)) : Int) = 10810 from rfl,
      hW _ (by omega) (by omega), Go.ok_bind, hW _ (by omega) (by omega), Go.ok_bind, e]
    rfl
  · have hW := wrap32_good
    rw [INTT]
    simp only [List.length_cons, List.length_nil, gt_iff_lt, Nat.reduceAdd, Nat.lt_irrefl, ↓reduceDIte]
    rw [hW (a.toInt + b.toInt) (by omega) (by omega), Go.ok_bind, show i2 = 6145 from rfl, hW _ (by omega) (by omega), Go.ok_bind,
      hW _ (by omega) (by omega), Go.ok_bind, inv_1479, Go.ok_bind, show (((10810 : Nat)) : Int) = 10810 from rfl,
      hW _ (by omega) (by omega), Go.ok_bind, wrap32, Go.ok_bind, e]
    rfl

/-- C99, exactly when the inverse transform is right at degree 2: when the two values differ by at most 32. -/
theorem C99_inverse_exact (a b : Int16) : INTT wrap32 [a, b] = INTT wrap64 [a, b] ↔ (a.toInt - b.toInt).natAbs ≤ 32 := by
  have ha := i16_bounds a
  have hb := i16_bounds b
  rw [(INTT_two a b).1, (INTT_two a b).2]
  simp only [Go.ok.injEq, List.cons.injEq, true_and, and_true]
  rw [← Int16.toInt_inj, reduceQ_toInt, reduceQ_toInt]
  generalize hd : a.toInt - b.toInt = d
  have hd1 : -65535 ≤ d ∧ d ≤ 65535 := by omega
  clear hd ha hb
  constructor
  · intro h
    by_contra hc
    obtain ⟨m, hm⟩ : ∃ m : Int, (d * 66427450).bmod (2 ^ 32) = d * 66427450 - m * 2 ^ 32 := by
      have : ((2 ^ 32 : Nat) : Int) ∣ d * 66427450 - (d * 66427450).bmod (2 ^ 32) :=
        Int.dvd_of_emod_eq_zero (Int.emod_eq_emod_iff_emod_sub_eq_zero.1 (Int.bmod_emod).symm)
      obtain ⟨m, hm⟩ := this
      exact ⟨m, by push_cast at hm ⊢; linarith⟩
    have hlo := Int.le_bmod (x := d * 66427450) (m := 2 ^ 32) (by norm_num)
    have hhi := Int.bmod_lt (x := d * 66427450) (m := 2 ^ 32) (by norm_num)
    rw [hm] at h hlo hhi
    norm_num at hlo hhi
    have h2 : (12289 : Int) ∣ m * 2 ^ 32 := by
      have := Int.emod_emod_of_dvd (d * 66427450) (dvd_refl (12289 : Int))
      omega
    have h3 : (12289 : Int) ∣ m := by
      have hc : IsCoprime (12289 : Int) (2 ^ 32) := by
        rw [Int.isCoprime_iff_gcd_eq_one]
        decide
      exact hc.dvd_of_dvd_mul_right h2
    have hmb : -2000 ≤ m ∧ m ≤ 2000 := by omega
    have : m = 0 := by omega
    subst this
    omega
  · intro h
    congr 1
    rw [Int.bmod_def]
    split <;> omega

/-- The hypothesis of `C99_no_overflow_partial` holds for instance on the transform of a constant. -/
example : INTT check32 [5, 5] = .ok [5, 0] := by
  rw [INTT]
  simp only [List.length_cons, List.length_nil, gt_iff_lt, Nat.reduceAdd, Nat.lt_irrefl, ↓reduceDIte, inv_1479]
  decide +kernel

/-- Both cases occur. -/
example : INTT wrap32 [1032, 1000] = INTT wrap64 [1032, 1000] ∧ INTT wrap32 [1033, 1000] ≠ INTT wrap64 [1033, 1000] :=
  ⟨(C99_inverse_exact _ _).2 (by decide), fun h => absurd ((C99_inverse_exact _ _).1 h) (by decide)⟩

/-- The polynomial `f(x^(2^j))`. -/
def pads (j : Nat) (f : List Int16) : List Int16 := pad^[j] f

theorem pads_length (j : Nat) (f : List Int16) : (pads j f).length = 2 ^ j * f.length := by
  induction j with
  | zero => simp [pads]
  | succ j ih =>
    unfold pads at ih ⊢
    rw [Function.iterate_succ_apply', pad_length, ih]
    ring

theorem MulZq_pads {W : Int → Go Int} (hW : Good32 W) (j : Nat) (hj : j < 10) {f g r : List Int16} (hf : f.length = 2) (hg : g.length = 2)
    (hr : MulZq W f g = .ok r) (lr : r.length = 2) : MulZq W (pads j f) (pads j g) = .ok (pads j r) := by
  induction j with
  | zero => exact hr
  | succ j ih =>
    have h := ih (by omega)
    unfold pads at h ⊢
    rw [Function.iterate_succ_apply', Function.iterate_succ_apply', Function.iterate_succ_apply']
    have l : ∀ f : List Int16, f.length = 2 → (pad^[j] f).length = 2 ^ (j + 1) := by
      intro f hf
      have := pads_length j f
      unfold pads at this
      rw [this, hf, pow_succ]
    exact MulZq_pad hW (k := j + 1) (by omega) (by omega) (l f hf) (l g hg) h (l r lr)

theorem DivZq_pads {W : Int → Go Int} (hW : Good32 W) (j : Nat) (hj : j < 10) {f g r : List Int16} (hf : f.length = 2) (hg : g.length = 2)
    (hr : DivZq W f g = .ok (.ok r)) (lr : r.length = 2) : DivZq W (pads j f) (pads j g) = .ok (.ok (pads j r)) := by
  induction j with
  | zero => exact hr
  | succ j ih =>
    have h := ih (by omega)
    unfold pads at h ⊢
    rw [Function.iterate_succ_apply', Function.iterate_succ_apply', Function.iterate_succ_apply']
    have l : ∀ f : List Int16, f.length = 2 → (pad^[j] f).length = 2 ^ (j + 1) := by
      intro f hf
      have := pads_length j f
      unfold pads at this
      rw [this, hf, pow_succ]
    exact DivZq_pad hW (k := j + 1) (by omega) (by omega) (l f hf) (l g hg) h (l r lr)

theorem NTT_two (a b : Int16) : NTT wrap64 [a, b] = .ok [reduceQ (a.toInt + 1479 * b.toInt), reduceQ (a.toInt - 1479 * b.toInt)] := by
  have ha := i16_bounds a
  have hb := i16_bounds b
  have hW := wrap64_good
  have hs : sqr1 = 1479 := sqr1_eq
  rw [NTT]
  simp only [List.length_cons, List.length_nil, gt_iff_lt, Nat.reduceAdd, Nat.lt_irrefl, ↓reduceDIte, hs]
  rw [hW (1479 * b.toInt) (by omega) (by omega), Go.ok_bind, hW _ (by omega) (by omega), Go.ok_bind, hW _ (by omega) (by omega)]
  rfl

theorem mul_two (W : Int → Go Int) (hW : Good32 W) : MulZq W [0, 1] [1, 0] = INTT W [1479, 10810] := by
  unfold MulZq
  rw [NTT_32 hW, NTT_32 hW, NTT_two, NTT_two, Go.ok_bind, Go.ok_bind, mulNTT_32 hW]
  have : mulNTT wrap64 [reduceQ ((0 : Int16).toInt + 1479 * (1 : Int16).toInt), reduceQ ((0 : Int16).toInt - 1479 * (1 : Int16).toInt)]
      [reduceQ ((1 : Int16).toInt + 1479 * (0 : Int16).toInt), reduceQ ((1 : Int16).toInt - 1479 * (0 : Int16).toInt)] = .ok [1479, 10810] := by
    decide +kernel
  rw [this, Go.ok_bind]

theorem mul_two_32 : MulZq wrap32 [0, 1] [1, 0] = .ok [0, 4097] := by
  rw [mul_two _ wrap32_good, (INTT_two _ _).2]
  decide +kernel

theorem mul_two_64 : MulZq wrap64 [0, 1] [1, 0] = .ok [0, 1] := by
  rw [mul_two _ wrap64_good.good32, (INTT_two _ _).1]
  decide +kernel

theorem div_two (W : Int → Go Int) (hW : Good32 W) : DivZq W [0, 1] [1, 0] = (INTT W [1479, 10810]).bind fun r => .ok (.ok r) := by
  unfold DivZq
  rw [NTT_32 hW, NTT_32 hW, NTT_two, NTT_two, Go.ok_bind, Go.ok_bind, divNTT_32 hW]
  have : divNTT wrap64 [reduceQ ((0 : Int16).toInt + 1479 * (1 : Int16).toInt), reduceQ ((0 : Int16).toInt - 1479 * (1 : Int16).toInt)]
      [reduceQ ((1 : Int16).toInt + 1479 * (0 : Int16).toInt), reduceQ ((1 : Int16).toInt - 1479 * (0 : Int16).toInt)]
      = .ok (.ok [1479, 10810]) := by
    decide +kernel
  rw [this, Go.ok_bind]
  rfl

theorem pads_inj (j : Nat) {f g : List Int16} (h : pads j f = pads j g) : f = g := by
  have hp : Function.Injective pad := by
    intro f g h
    have := congrArg (fun l => (splitPolys l).1) h
    simpa only [split_pad] using this
  exact hp.iterate j h

/-- C99, violated at every degree: with a 32-bit `int` multiplying the polynomial `x^(n/2)` by 1, or dividing it by 1, gives `4097·x^(n/2)`;
with a 64-bit `int` it gives the polynomial itself. -/
theorem C99_violated_ring (j : Nat) (hj : j < 10) :
    MulZq wrap64 (pads j [0, 1]) (pads j [1, 0]) = .ok (pads j [0, 1]) ∧ MulZq wrap32 (pads j [0, 1]) (pads j [1, 0]) = .ok (pads j [0, 4097]) ∧
    DivZq wrap64 (pads j [0, 1]) (pads j [1, 0]) = .ok (.ok (pads j [0, 1])) ∧
    DivZq wrap32 (pads j [0, 1]) (pads j [1, 0]) = .ok (.ok (pads j [0, 4097])) ∧ pads j [0, 1] ≠ pads j [0, 4097] := by
  have d : ∀ W, Good32 W → ∀ r, MulZq W [0, 1] [1, 0] = .ok r → DivZq W [0, 1] [1, 0] = .ok (.ok r) := by
    intro W hW r h
    rw [mul_two W hW] at h
    rw [div_two W hW, h]
    rfl
  refine ⟨MulZq_pads wrap64_good.good32 j hj rfl rfl mul_two_64 rfl, MulZq_pads wrap32_good j hj rfl rfl mul_two_32 rfl,
    DivZq_pads wrap64_good.good32 j hj rfl rfl (d _ wrap64_good.good32 _ mul_two_64) rfl,
    DivZq_pads wrap32_good j hj rfl rfl (d _ wrap32_good _ mul_two_32) rfl, fun h => ?_⟩
  have := pads_inj j h
  exact absurd this (by decide)

/-- The model of `Verify` over 64-bit arithmetic is the model of `Verify`. -/
theorem VerifyOn_64 (xof : Xof) (fuel : Nat) (pk : List Int16) (m sig : List UInt8) : VerifyOn wrap64 xof fuel pk m sig = Verify xof fuel pk m sig := rfl

/-- A hash with value `t·x^256`: every byte of the stream is 0 but the two of the coefficient 256. -/
def xof256 (hi lo : UInt8) : Xof := fun _ i => if i = 512 then hi else if i = 513 then lo else 0

theorem VerifyOn_eval {W : Int → Go Int} {xof : Xof} {fuel : Nat} {m salt body : List UInt8} {c p s1 pk r : List Int16} (hd : UInt8)
    (hs : salt.length = 40) (l8 : s1.length = 512) (hc : hashToPoint xof fuel m salt = .ok c) (hb : Compress s1 625 = .ok body)
    (hp : MulZq W s1 pk = .ok p) (hr : SubZq c p = .ok r) :
    VerifyOn W xof fuel pk m (hd :: (salt ++ body)) = .ok (!decide (addSquares (addSquares 0 (r.map centre)) s1 > 34034726)) := by
  have hdec := C01_compress_decompress_roundtrip s1 (by intro h; rw [h] at l8; simp at l8) 625 (by norm_num) body hb
  rw [l8] at hdec
  have hmap : (s1.map Int16.toInt).map Int16.ofInt = s1 := by
    rw [List.map_map]
    conv_rhs => rw [← List.map_id s1]
    apply List.map_congr_left
    intro x _
    simp
  have e : VerifyOn W xof fuel pk m (hd :: (salt ++ body)) = verifyBodyOn W xof fuel pk m salt body := by
    unfold VerifyOn slice HeadLen SaltLen
    rw [if_pos (by simp; omega), if_pos (by simp; omega)]
    simp only [Go.ok_bind]
    congr 1
    · simp [hs]
    · rw [show 1 + 40 = 40 + 1 from rfl, List.take_length, List.drop_succ_cons, ← hs, List.drop_left]
  rw [e]
  unfold verifyBodyOn
  obtain ⟨hp1, hp2⟩ := par512
  simp only [hp1, hp2]
  rw [show (512 : Int) = ((512 : Nat) : Int) from rfl, hdec]
  simp only [Go.ok_bind, Go.pure_eq, hmap, hc, hp, hr]

/-- C99, violated for `Verify`, in both directions: with the public key 1 and the vector `x^256` (in every signature that encodes it, with
any header byte, salt and message), `Verify` with a 32-bit `int` rejects what `Verify` with a 64-bit `int` accepts for one hash
function, and accepts what it rejects for another. -/
theorem C99_violated_verify (m salt : List UInt8) (hs : salt.length = 40) (hd : UInt8) : ∃ body : List UInt8, body.length = 625 ∧
    (Verify (xof256 40 250) 512 (pads 8 [1, 0]) m (hd :: (salt ++ body)) = .ok true ∧
      VerifyOn wrap32 (xof256 40 250) 512 (pads 8 [1, 0]) m (hd :: (salt ++ body)) = .ok false) ∧
    Verify (xof256 23 9) 512 (pads 8 [1, 0]) m (hd :: (salt ++ body)) = .ok false ∧
      VerifyOn wrap32 (xof256 23 9) 512 (pads 8 [1, 0]) m (hd :: (salt ++ body)) = .ok true := by
  have hl : codeLen ((pads 8 [0, 1]).map Int16.toInt) = 4608 := by decide +kernel
  obtain ⟨body, hb, lb⟩ := (C02_compress_fits (pads 8 [0, 1]) 625 (by norm_num)).1 (by rw [hl]; norm_num)
  have h1 : hashToPoint (xof256 40 250) 512 m salt = .ok (pads 8 [0, 10490]) := by
    show hashLoop (fun i => if i = 512 then 40 else if i = 513 then 250 else 0) 512 0 512 = _
    decide +kernel
  have h2 : hashToPoint (xof256 23 9) 512 m salt = .ok (pads 8 [0, 5897]) := by
    show hashLoop (fun i => if i = 512 then 23 else if i = 513 then 9 else 0) 512 0 512 = _
    decide +kernel
  obtain ⟨m64, m32, -⟩ := C99_violated_ring 8 (by norm_num)
  have l8 : (pads 8 [0, 1]).length = 512 := by rw [pads_length]; rfl
  refine ⟨body, by exact_mod_cast lb, ⟨?_, ?_⟩, ?_, ?_⟩
  · rw [← VerifyOn_64, VerifyOn_eval hd hs l8 h1 hb m64 (r := pads 8 [0, 10489]) (by decide +kernel)]
    decide +kernel
  · rw [VerifyOn_eval hd hs l8 h1 hb m32 (r := pads 8 [0, 6393]) (by decide +kernel)]
    decide +kernel
  · rw [← VerifyOn_64, VerifyOn_eval hd hs l8 h2 hb m64 (r := pads 8 [0, 5896]) (by decide +kernel)]
    decide +kernel
  · rw [VerifyOn_eval hd hs l8 h2 hb m32 (r := pads 8 [0, 1800]) (by decide +kernel)]
    decide +kernel

end Falcon
