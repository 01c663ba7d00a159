import Verif.Lemmas.Cost
import Verif.Lemmas.Encoding2
import Mathlib.Tactic.Linarith
/-! The cost of `DivZq` and `Verify`, and closed forms. -/

namespace Falcon.Sl

variable (p : Prices)

theorem Costs.run {α : Type} {c : Access → Nat} {P : α → Nat → Prop} (x : Go α) (h : ∀ a, x = .ok a → P a 0) : Costs c P (run x) := by
  cases x
  · exact h _ rfl
  · trivial
  · trivial

theorem cost_hasZero (g : Slice) (j i : Nat) :
    Costs p.of (fun b t => t ≤ j * p.load ∧ (b = false → t = j * p.load)) (hasZero g j i) := by
  induction j generalizing i with
  | zero => simp [hasZero, Costs, pure]
  | succ j ih =>
    unfold hasZero
    refine Costs.then p (cost_load p _ _) fun x => ?_
    split
    · exact ⟨by rw [Nat.succ_mul]; omega, by simp⟩
    · exact (ih (i + 1)).mono fun b t ht => ⟨by rw [Nat.succ_mul]; omega, fun hb => by rw [ht.2 hb, Nat.succ_mul]; omega⟩

/-- The cost of a division at the degree `2^(k+1)` that succeeds. -/
def divCost (k : Nat) : Nat := 2 * nttCost p k + p.make (2 ^ (k + 1)) + 2 ^ (k + 1) * (3 * p.load + p.look + p.store) + inttCost p k

theorem cost_div (W : Int → Go Int) (k : Nat) (f g : Slice) (h : f.len = 2 ^ (k + 1)) (hg : g.len = 2 ^ (k + 1)) :
    Costs p.of (fun r t => t ≤ divCost p k ∧ ∀ s, r = .ok s → t = divCost p k) (DivZq W f g) := by
  unfold DivZq
  refine Costs.thenS p (cost_ntt p W k _ f h) fun ft l0 => ?_
  refine Costs.thenS p (cost_ntt p W k _ g hg) fun gt l1 => ?_
  unfold divNTT
  rw [if_neg (by omega)]
  refine Costs.bind (P := fun r t => t ≤ p.make (2 ^ (k + 1)) + 2 ^ (k + 1) * (3 * p.load + p.look + p.store) ∧
    ∀ s, r = .ok s → s.len = 2 ^ (k + 1) ∧ t = p.make (2 ^ (k + 1)) + 2 ^ (k + 1) * (3 * p.load + p.look + p.store)) ?_ ?_
  · refine Costs.thenS p (cost_make p _) fun r hr => ?_
    refine Costs.bind (cost_hasZero p gt _ _) fun b t ht => ?_
    obtain ⟨hle, ht⟩ := ht
    rw [l0]
    rw [l1] at hle ht
    have hexp : 2 ^ (k + 1) * (3 * p.load + p.look + p.store) = 2 ^ (k + 1) * p.load + 2 ^ (k + 1) * (2 * p.load + p.look + p.store) := by ring
    cases b with
    | true => exact ⟨by omega, by simp⟩
    | false =>
      have ht := ht rfl
      refine Costs.then p (cost_loop p (n := 2 * p.load + p.look + p.store) (fun i => ?_) _ _) fun _ => ?_
      · unfold divBody
        cost_steps p
        exact (cost_store p _ _ _).mono fun _ t ht => by omega
      · exact ⟨by omega, fun s hs => by cases hs; exact ⟨by rw [hr, l0], by omega⟩⟩
  · rintro (e | d) t ⟨hle, ht⟩
    · exact ⟨by rw [divCost]; omega, by simp⟩
    · obtain ⟨ld, rfl⟩ := ht d rfl
      refine Costs.thenS p (cost_intt p W k _ d ld) fun r hr => ?_
      exact ⟨by rw [divCost]; omega, fun _ _ => by rw [divCost]; omega⟩

/-- Every access costs 1. -/
def each : Prices := ⟨fun _ => 1, 1, 1, 1⟩

/-- Only the elements of new arrays cost something. -/
def elements : Prices := ⟨fun n => n, 0, 0, 0⟩

theorem cost_each (t : List Access) : cost each.of t = t.length := by
  induction t with
  | nil => rfl
  | cons a t ih =>
    unfold cost at ih ⊢
    rw [List.map_cons, List.sum_cons, ih, List.length_cons]
    cases a <;> simp [each, Prices.of, Nat.add_comm]

theorem ntt_each (k : Nat) : nttCost each k + 3 = (10 * k + 9) * 2 ^ k := by
  induction k with
  | zero => rfl
  | succ k ih =>
    have : nttCost each (k + 1) = 2 * nttCost each k + 3 + 2 ^ (k + 1) * 10 := by simp [nttCost, each]
    rw [this, pow_succ]
    nlinarith

theorem intt_each (k : Nat) : inttCost each k + 3 = (11 * k + 11) * 2 ^ k := by
  induction k with
  | zero => rfl
  | succ k ih =>
    have : inttCost each (k + 1) = 2 * inttCost each k + 3 + 2 ^ (k + 1) * 11 := by simp [inttCost, each]
    rw [this, pow_succ]
    nlinarith

theorem mul_each (k : Nat) : mulCost each k + 8 = (31 * k + 35) * 2 ^ k := by
  have h1 := ntt_each k
  have h2 := intt_each k
  have : mulCost each k = 2 * nttCost each k + 1 + 2 ^ (k + 1) * 3 + inttCost each k := by simp [mulCost, each]
  rw [this, pow_succ]
  nlinarith

theorem div_each (k : Nat) : divCost each k + 8 = (31 * k + 39) * 2 ^ k := by
  have h1 := ntt_each k
  have h2 := intt_each k
  have : divCost each k = 2 * nttCost each k + 1 + 2 ^ (k + 1) * 5 + inttCost each k := by simp [divCost, each]
  rw [this, pow_succ]
  nlinarith

theorem ntt_elements (k : Nat) : nttCost elements k = (2 * k + 1) * 2 ^ (k + 1) ∧ inttCost elements k = (2 * k + 1) * 2 ^ (k + 1) := by
  induction k with
  | zero => exact ⟨rfl, rfl⟩
  | succ k ih =>
    have e1 : nttCost elements (k + 1) = 2 * nttCost elements k + 2 * 2 ^ (k + 1) + 2 ^ (k + 2) := by simp [nttCost, elements]
    have e2 : inttCost elements (k + 1) = 2 * inttCost elements k + 2 * 2 ^ (k + 1) + 2 ^ (k + 2) := by simp [inttCost, elements]
    rw [e1, e2, ih.1, ih.2, pow_succ 2 (k + 1)]
    constructor <;> ring

theorem mul_elements (k : Nat) : mulCost elements k = (6 * k + 4) * 2 ^ (k + 1) ∧ divCost elements k = (6 * k + 4) * 2 ^ (k + 1) := by
  have e1 : mulCost elements k = 2 * nttCost elements k + 2 ^ (k + 1) + inttCost elements k := by simp [mulCost, elements]
  have e2 : divCost elements k = 2 * nttCost elements k + 2 ^ (k + 1) + inttCost elements k := by simp [divCost, elements]
  rw [e1, e2, (ntt_elements k).1, (ntt_elements k).2]
  constructor <;> ring

theorem cost_loadAll (s : Slice) (j i : Nat) : Exactly p (j * p.load) (loadAll s j i) := by
  induction j generalizing i with
  | zero => simp [Exactly, loadAll, Costs, pure]
  | succ j ih =>
    unfold loadAll
    refine Costs.then p (cost_load p _ _) fun x => Costs.then p (ih _) fun l => ?_
    show _ = _
    rw [Nat.succ_mul]; omega

theorem cost_append (grow : Nat → Nat) (s : Slice) (v : Int16) :
    Costs each.of (fun r t => r.len = s.len + 1 ∧ t ≤ s.len + 1) (append grow s v) := by
  unfold append
  split
  · exact ⟨rfl, by simp [each, Prices.of]⟩
  · refine Costs.then each (cost_loadAll each s _ _) fun l => ?_
    intro a
    exact ⟨rfl, by simp [each, Prices.of]⟩

theorem cost_appendAll (grow : Nat → Nat) (l : List Int) (s : Slice) :
    Costs each.of (fun r t => r.len = s.len + l.length ∧ 2 * t ≤ l.length * (2 * s.len + l.length + 1)) (appendAll grow l s) := by
  induction l generalizing s with
  | nil => exact ⟨rfl, by simp⟩
  | cons v l ih =>
    unfold appendAll
    refine Costs.bind (cost_append grow s _) fun s1 t ht => ?_
    refine (ih s1).mono fun r u hu => ⟨by rw [hu.1, ht.1, List.length_cons]; omega, ?_⟩
    have h2 := hu.2
    rw [ht.1] at h2
    have := ht.2
    rw [List.length_cons]
    nlinarith

theorem cost_hashLoop (s : Nat → UInt8) (t : Slice) (fuel pos i need : Nat) : Exactly p (need * p.store) (hashLoop s t fuel pos i need) := by
  induction fuel generalizing pos i need with
  | zero =>
    cases need
    · simp [Exactly, hashLoop, Costs, pure]
    · trivial
  | succ fuel ih =>
    cases need with
    | zero => simp [Exactly, hashLoop, Costs, pure]
    | succ need =>
      unfold hashLoop
      split
      · refine Costs.then p (cost_store p _ _ _) fun _ => (ih _ _ _).mono fun _ u hu => by rw [hu, Nat.succ_mul]; omega
      · exact ih _ _ _

theorem cost_verifyBody (grow : Nat → Nat) (xof : Xof) (fuel : Nat) (key : Slice) (hk : key.len = 512) (message salt enc : List UInt8) :
    Costs each.of (fun _ t => t ≤ 208891) (verifyBody grow xof fuel key message salt enc) := by
  unfold verifyBody
  refine Costs.bind (P := fun r t => t = 0 ∧ ∀ v, r = .ok v → v.length = 512) (Costs.run _ fun r hr => ⟨rfl, ?_⟩) ?_
  · rintro v rfl
    have := ((decompress_ok_iff _ _ _ _).1 hr).2.2.1
    omega
  · rintro (e | ss) t ⟨rfl, hs⟩
    · exact Nat.zero_le _
    · have hs := hs ss rfl
      refine Costs.bind (cost_appendAll grow ss nil) fun s1 t ht => ?_
      obtain ⟨l1, ht⟩ := ht
      rw [hs] at l1 ht
      have l1 : s1.len = 512 := by rw [l1]; rfl
      have ht : t ≤ 131328 := by
        have : nil.len = 0 := rfl
        rw [this] at ht
        omega
      have hh : ExactlyS each 513 512 (hashToPoint xof fuel message salt) := by
        unfold hashToPoint
        refine Costs.thenS each (cost_make each _) fun r hr => ?_
        exact Costs.then each (cost_hashLoop each _ _ _ _ _ _) fun _ => ⟨by simp [each], hr⟩
      refine Costs.thenS each hh fun hashed lh => ?_
      refine Costs.thenS each (cost_mul each wrap64 8 s1 key l1 hk) fun pr lp => ?_
      refine Costs.thenS each (cost_sub each hashed pr (by rw [lh, lp]; rfl)) fun s0 l0 => ?_
      refine Costs.then each (cost_loop each (n := 2) (fun i => ?_) _ _) fun _ => ?_
      · unfold centreBody
        cost_steps each
        exact (cost_store each _ _ _).mono fun _ t ht => by rw [ht]; rfl
      · unfold addSquares
        refine Costs.bind (P := fun _ t => t = 512) ?_ ?_
        · exact Costs.then each (cost_loadAll each s0 _ _) fun _ => by show _ = _; rw [l0, lh]; rfl
        · rintro acc t2 rfl
          refine Costs.bind (P := fun _ t => t = 512) ?_ ?_
          · exact Costs.then each (cost_loadAll each s1 _ _) fun _ => by show _ = _; rw [l1]; rfl
          · rintro acc2 t3 rfl
            have hm : mulCost each 8 = 72440 := by have := mul_each 8; omega
            have e1 : each.make 512 = 1 := rfl
            have e2 : 512 * (3 * each.load + 2 * each.store) = 2560 := rfl
            show _ ≤ _
            rw [l0, lh, hm, e1, e2]
            omega

theorem cost_verify (grow : Nat → Nat) (xof : Xof) (fuel : Nat) (key : Slice) (hk : key.len = 512) (message signature : List UInt8) :
    Costs each.of (fun _ t => t ≤ 208891) (Verify grow xof fuel key message signature) := by
  unfold Verify
  refine Costs.then each (cost_run each _) fun salt => ?_
  refine Costs.then each (cost_run each _) fun enc => ?_
  exact (cost_verifyBody grow xof fuel key hk message salt enc).mono fun _ t h => by omega

theorem cost_readKey (grow : Nat → Nat) (b : List UInt8) (n i : Nat) (s : Slice) :
    Costs each.of (fun r t => r.len = s.len + n ∧ 2 * t ≤ n * (2 * s.len + n + 1)) (readKey grow b n i s) := by
  induction n generalizing s i with
  | zero => exact ⟨rfl, by simp⟩
  | succ n ih =>
    unfold readKey
    refine Costs.then each (cost_run each _) fun t1 => ?_
    refine Costs.then each (cost_run each _) fun t2 => ?_
    refine Costs.bind (cost_append grow s _) fun s1 t ht => ?_
    refine (ih _ s1).mono fun r u hu => ⟨by rw [hu.1, ht.1]; omega, ?_⟩
    have h2 := hu.2
    rw [ht.1] at h2
    have := ht.2
    nlinarith

theorem cost_verifyBytes (grow : Nat → Nat) (xof : Xof) (fuel : Nat) (b : List UInt8) :
    Costs each.of (fun _ t => t ≤ 340219) (VerifyBytes grow xof fuel b) := by
  unfold VerifyBytes
  refine Costs.bind (cost_readKey grow b 512 0 nil) fun h t ht => ?_
  obtain ⟨hl, ht⟩ := ht
  have hl : h.len = 512 := by rw [hl]; rfl
  have ht : t ≤ 131328 := by
    have : nil.len = 0 := rfl
    rw [this] at ht
    omega
  refine Costs.then each (cost_run each _) fun msg => ?_
  refine Costs.then each (cost_run each _) fun sig => ?_
  refine Costs.then each (cost_run each _) fun r => ?_
  refine Costs.then each (cost_run each _) fun s => ?_
  exact (cost_verifyBody grow xof fuel h hl msg r s).mono fun _ t h => by omega

end Falcon.Sl
