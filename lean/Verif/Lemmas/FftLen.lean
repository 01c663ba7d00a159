import Verif.Model.Fft
import Verif.Lemmas.Poly
import Mathlib.Tactic.IntervalCases
/-! The FFT functions on supported lengths do not panic and preserve lengths, for arbitrary floating-point operations. -/

namespace Falcon

variable {O : FloatOps}

theorem isRootKey_pow (k : Nat) (h1 : 1 ≤ k) (h2 : k ≤ 10) : isRootKey (2 ^ k) = true := by
  interval_cases k <;> decide

theorem rootAt_ok (k : Nat) (h1 : 1 ≤ k) (h2 : k ≤ 10) (i : Nat) (hi : i < 2 ^ k) :
    O.rootAt (2 ^ k) i = .ok (O.root (2 ^ k) i) := by
  unfold FloatOps.rootAt
  rw [isRootKey_pow k h1 h2]
  simp [hi]

theorem splitFFTLoop_ok (k : Nat) (h1 : 1 ≤ k) (h2 : k ≤ 10) (f : List O.C) (i : Nat) (h : 2 * i + f.length ≤ 2 ^ k) :
    ∃ r, splitFFTLoop O (2 ^ k) i f = .ok r ∧ r.1.length = f.length / 2 ∧ r.2.length = f.length / 2 := by
  induction f using List.twoStepInduction generalizing i with
  | nil => exact ⟨([], []), rfl, by simp, by simp⟩
  | singleton x => exact ⟨([], []), rfl, by simp, by simp⟩
  | cons_cons x y f ih _ =>
    simp only [List.length_cons] at h
    obtain ⟨r, hr, l1, l2⟩ := ih (i + 1) (by omega)
    rw [splitFFTLoop, rootAt_ok k h1 h2 (2 * i) (by omega), Go.ok_bind, hr, Go.ok_bind]
    exact ⟨_, rfl, by simp [l1]; omega, by simp [l2]; omega⟩

theorem SplitFFT_ok (k : Nat) (h2 : k + 1 ≤ 10) (f : List O.C) (hf : f.length = 2 ^ (k + 1)) :
    ∃ r, SplitFFT O f = .ok r ∧ r.1.length = 2 ^ k ∧ r.2.length = 2 ^ k := by
  unfold SplitFFT
  rw [hf]
  obtain ⟨r, hr, l1, l2⟩ := splitFFTLoop_ok (k + 1) (by omega) h2 f 0 (by omega)
  rw [hf, pow_succ] at l1 l2
  exact ⟨r, hr, by omega, by omega⟩

theorem mergeFFTLoop_ok (k : Nat) (h1 : 1 ≤ k) (h2 : k ≤ 10) (f g : List O.C) (hl : f.length = g.length) (i : Nat)
    (h : 2 * i + 2 * f.length ≤ 2 ^ k) : ∃ r, mergeFFTLoop O (2 ^ k) i f g = .ok r ∧ r.length = 2 * f.length := by
  induction f generalizing g i with
  | nil => exact ⟨[], rfl, rfl⟩
  | cons a f ih => cases g with
    | nil => simp at hl
    | cons b g =>
      simp only [List.length_cons] at h hl
      obtain ⟨r, hr, l1⟩ := ih g (by omega) (i + 1) (by omega)
      rw [mergeFFTLoop, rootAt_ok k h1 h2 (2 * i) (by omega), Go.ok_bind, hr, Go.ok_bind]
      exact ⟨_, rfl, by simp [l1]; omega⟩

theorem MergeFFT_ok (k : Nat) (h2 : k + 1 ≤ 10) (f g : List O.C) (hf : f.length = 2 ^ k) (hg : g.length = 2 ^ k) :
    ∃ r, MergeFFT O (f, g) = .ok r ∧ r.length = 2 ^ (k + 1) := by
  unfold MergeFFT
  have e : 2 * f.length = 2 ^ (k + 1) := by rw [hf, pow_succ]; omega
  simp only [e]
  obtain ⟨r, hr, l⟩ := mergeFFTLoop_ok (k + 1) (by omega) h2 f g (by omega) 0 (by omega)
  exact ⟨r, hr, by omega⟩

theorem FFT_ok (k : Nat) (h1 : 1 ≤ k) (h2 : k ≤ 10) (f : List O.F) (hf : f.length = 2 ^ k) :
    ∃ r, FFT O f = .ok r ∧ r.length = 2 ^ k := by
  induction k, h1 using Nat.le_induction generalizing f with
  | base =>
    match f, hf with
    | [x, y], _ =>
      rw [FFT, dif_neg (by simp)]
      exact ⟨_, rfl, rfl⟩
  | succ k hk ih =>
    have hp : 2 ^ k ≥ 2 := by
      calc 2 ^ k ≥ 2 ^ 1 := Nat.pow_le_pow_right (by decide) hk
        _ = 2 := rfl
    have e := pow_succ 2 k
    rw [FFT, dif_pos (by omega)]
    obtain ⟨a, ha, la⟩ := ih (by omega) (splitPolys f).1 (by rw [splitPolys_length1]; omega)
    obtain ⟨b, hb, lb⟩ := ih (by omega) (splitPolys f).2 (by rw [splitPolys_length2]; omega)
    rw [ha, Go.ok_bind, hb, Go.ok_bind]
    exact MergeFFT_ok k h2 a b la lb

theorem ifftAux_succ (fuel : Nat) (f : List O.C) : ifftAux O (fuel + 1) f =
    if f.length > 2 then do
      let s ← SplitFFT O f
      let a ← ifftAux O fuel s.1
      let b ← ifftAux O fuel s.2
      mergePolys a b
    else match f with
      | [x, _] => .ok [O.re x, O.im x]
      | _ => .ok [] := by
  rfl

theorem ifftAux_ok (k : Nat) (h1 : 1 ≤ k) (h2 : k ≤ 10) (f : List O.C) (hf : f.length = 2 ^ k) (fuel : Nat) (hfu : k ≤ fuel) :
    ∃ r, ifftAux O fuel f = .ok r ∧ r.length = 2 ^ k := by
  induction k, h1 using Nat.le_induction generalizing f fuel with
  | base =>
    obtain ⟨m, rfl⟩ : ∃ m, fuel = m + 1 := ⟨fuel - 1, by omega⟩
    match f, hf with
    | [x, y], _ =>
      rw [ifftAux, if_neg (by simp)]
      exact ⟨_, rfl, rfl⟩
  | succ k hk ih =>
    obtain ⟨m, rfl⟩ : ∃ m, fuel = m + 1 := ⟨fuel - 1, by omega⟩
    have hp : 2 ^ k ≥ 2 := by
      calc 2 ^ k ≥ 2 ^ 1 := Nat.pow_le_pow_right (by decide) hk
        _ = 2 := rfl
    have e := pow_succ 2 k
    rw [ifftAux_succ, if_pos (by omega)]
    obtain ⟨s, hs, l1, l2⟩ := SplitFFT_ok k h2 f hf
    obtain ⟨a, ha, la⟩ := ih (by omega) s.1 l1 m (by omega)
    obtain ⟨b, hb, lb⟩ := ih (by omega) s.2 l2 m (by omega)
    rw [hs, Go.ok_bind, ha, Go.ok_bind, hb, Go.ok_bind]
    obtain ⟨r, hr, lr, _⟩ := mergePolys_ok (la.trans lb.symm)
    exact ⟨r, hr, by omega⟩

theorem IFFT_ok (k : Nat) (h1 : 1 ≤ k) (h2 : k ≤ 10) (f : List O.C) (hf : f.length = 2 ^ k) :
    ∃ r, IFFT O f = .ok r ∧ r.length = 2 ^ k := by
  unfold IFFT
  refine ifftAux_ok k h1 h2 f hf _ ?_
  have : k < 2 ^ k := Nat.lt_two_pow_self
  omega

theorem splitFFTLoop_lengths (n : Nat) (f : List O.C) (i : Nat) (r) (h : splitFFTLoop O n i f = .ok r) :
    r.1.length = f.length / 2 ∧ r.2.length = f.length / 2 := by
  induction f using List.twoStepInduction generalizing i r with
  | nil => simp [splitFFTLoop] at h; subst h; simp
  | singleton x => simp [splitFFTLoop] at h; subst h; simp
  | cons_cons x y f ih _ =>
    rw [splitFFTLoop] at h
    obtain ⟨w, _, h⟩ := Go.bind_eq_ok.1 h
    obtain ⟨s, hs, h⟩ := Go.bind_eq_ok.1 h
    obtain ⟨l1, l2⟩ := ih _ _ hs
    have h := Go.ok.inj h
    subst h
    exact ⟨by simp [l1]; omega, by simp [l2]; omega⟩

theorem splitFFTLoop_not_diverge (n : Nat) (f : List O.C) (i : Nat) : splitFFTLoop O n i f ≠ .diverge := by
  induction f using List.twoStepInduction generalizing i with
  | nil => simp [splitFFTLoop]
  | singleton x => simp [splitFFTLoop]
  | cons_cons x y f ih _ =>
    rw [splitFFTLoop]
    intro h
    rw [Go.bind_eq_diverge] at h
    rcases h with h | ⟨w, _, h⟩
    · unfold FloatOps.rootAt at h; split at h <;> simp at h
    · rw [Go.bind_eq_diverge] at h
      rcases h with h | ⟨w, _, h⟩
      · exact ih _ h
      · simp at h

theorem mergePolys_not_diverge {α : Type} (f g : List α) : mergePolys f g ≠ .diverge := by
  induction f generalizing g with
  | nil => simp [mergePolys]
  | cons a f ih => cases g with
    | nil => simp [mergePolys]
    | cons b g =>
      rw [mergePolys]
      intro h
      rw [Go.bind_eq_diverge] at h
      rcases h with h | ⟨w, _, h⟩
      · exact ih _ h
      · simp at h

/-- The recursion bound of the model of `IFFT` is never exhausted. -/
theorem IFFT_not_diverge (f : List O.C) : IFFT O f ≠ .diverge := by
  have key : ∀ fuel (f : List O.C), f.length < fuel → ifftAux O fuel f ≠ .diverge := by
    intro fuel
    induction fuel with
    | zero => intro f h; omega
    | succ fuel ih =>
      intro f hf
      rw [ifftAux_succ]
      split
      · intro h
        rw [Go.bind_eq_diverge] at h
        rcases h with h | ⟨s, hs, h⟩
        · exact splitFFTLoop_not_diverge _ _ _ h
        · obtain ⟨l1, l2⟩ := splitFFTLoop_lengths _ _ _ _ hs
          rw [Go.bind_eq_diverge] at h
          rcases h with h | ⟨a, _, h⟩
          · exact ih _ (by omega) h
          · rw [Go.bind_eq_diverge] at h
            rcases h with h | ⟨b, _, h⟩
            · exact ih _ (by omega) h
            · exact mergePolys_not_diverge _ _ h
      · split <;> simp
  exact key _ f (by omega)

end Falcon
