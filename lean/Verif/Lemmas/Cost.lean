import Verif.Model.Trace
import Verif.Lemmas.Slice3
import Mathlib.Tactic.Ring
/-! The number of accesses of a run, by a condition on code that does not mention memory. -/

namespace Falcon.Sl

/-- The total of a cost per access. -/
def cost (c : Access → Nat) (t : List Access) : Nat := (t.map c).sum

/-- However the loads turn out, code that returns `a` has made accesses of total cost `t` with `P a t`. -/
def Costs {α : Type} (c : Access → Nat) : (α → Nat → Prop) → MM α → Prop
  | P, .done (.ok a) => P a 0
  | _, .done .panic => True
  | _, .done .diverge => True
  | P, .make l k => ∀ n, Costs c (fun a t => P a (c (.make l.length) + t)) (k n)
  | P, .load a i k => ∀ v, Costs c (fun b t => P b (c (.load a i) + t)) (k v)
  | P, .store a i _ k => Costs c (fun b t => P b (c (.store a i) + t)) k
  | P, .look i k => ∀ v, Costs c (fun b t => P b (c (.look i) + t)) (k v)

theorem Costs.sound {α : Type} {c : Access → Nat} {P : α → Nat → Prop} {p : MM α} (h : Costs c P p) {m : Mem} {a : α} {m1 : Mem}
    (e : exec p m = .ok (a, m1)) : P a (cost c (trace p m)) := by
  induction p generalizing m P with
  | done r =>
    cases r with
    | ok b =>
      simp only [exec, Go.ok_bind, Go.ok.injEq, Prod.mk.injEq] at e
      obtain ⟨rfl, rfl⟩ := e
      exact h
    | panic => cases e
    | diverge => cases e
  | make l k ih => exact ih _ (h _) e
  | load a i k ih =>
    simp only [exec, idx] at e
    cases hv : (m.arr a)[i]? with
    | none => rw [hv] at e; cases e
    | some v =>
      rw [hv] at e
      have := ih v (h v) e
      simpa only [trace, hv, cost, List.map_cons, List.sum_cons] using this
  | store a i v k ih =>
    simp only [exec] at e
    split at e
    · split at e <;> cases e
    · exact ih h e
  | look i k ih =>
    simp only [exec] at e
    cases hv : invAt i with
    | panic => rw [hv] at e; cases e
    | diverge => rw [hv] at e; cases e
    | ok v =>
      rw [hv] at e
      have := ih v (h v) e
      simpa only [trace, hv, cost, List.map_cons, List.sum_cons] using this

theorem Costs.mono {α : Type} {c : Access → Nat} {P Q : α → Nat → Prop} {p : MM α} (h : Costs c P p) (hq : ∀ a t, P a t → Q a t) :
    Costs c Q p := by
  induction p generalizing P Q with
  | done r =>
    cases r with
    | ok b => exact hq _ _ h
    | panic => trivial
    | diverge => trivial
  | make l k ih => exact fun n => ih n (h n) fun a t => hq a _
  | load a i k ih => exact fun n => ih n (h n) fun a t => hq a _
  | store a i v k ih => exact ih h fun a t => hq a _
  | look i k ih => exact fun n => ih n (h n) fun a t => hq a _

theorem Costs.bind {α β : Type} {c : Access → Nat} {P : α → Nat → Prop} {Q : β → Nat → Prop} {p : MM α} {f : α → MM β} (h : Costs c P p)
    (hf : ∀ a t, P a t → Costs c (fun b u => Q b (t + u)) (f a)) : Costs c Q (p >>= f) := by
  show Costs c Q (p.bind f)
  induction p generalizing P Q with
  | done r =>
    cases r with
    | ok b => exact (hf _ _ h).mono fun a t ht => by simpa using ht
    | panic => trivial
    | diverge => trivial
  | make l k ih => exact fun n => ih n (h n) fun a t ht => (hf a _ ht).mono fun b u hu => by rwa [Nat.add_assoc] at hu
  | load a i k ih => exact fun n => ih n (h n) fun a t ht => (hf a _ ht).mono fun b u hu => by rwa [Nat.add_assoc] at hu
  | store a i v k ih => exact ih h fun a t ht => (hf a _ ht).mono fun b u hu => by rwa [Nat.add_assoc] at hu
  | look i k ih => exact fun n => ih n (h n) fun a t ht => (hf a _ ht).mono fun b u hu => by rwa [Nat.add_assoc] at hu

/-- Costs by kind of access. -/
structure Prices where
  make : Nat → Nat
  load : Nat
  store : Nat
  look : Nat

def Prices.of (p : Prices) : Access → Nat
  | .make l => p.make l
  | .load _ _ => p.load
  | .store _ _ => p.store
  | .look _ => p.look

variable (p : Prices)

/-- Exactly the cost `n`. -/
abbrev Exactly {α : Type} (n : Nat) (x : MM α) : Prop := Costs p.of (fun _ t => t = n) x

/-- Exactly the cost `n`, and the result is a slice of length `l`. -/
abbrev ExactlyS (n l : Nat) (x : MM Slice) : Prop := Costs p.of (fun s t => t = n ∧ s.len = l) x

theorem cost_load (s : Slice) (i : Nat) : Exactly p p.load (load s i) := by
  unfold load
  split
  · exact fun v => rfl
  · trivial

theorem cost_store (s : Slice) (i : Nat) (v : Int16) : Exactly p p.store (store s i v) := by
  unfold store
  split
  · exact rfl
  · trivial

theorem cost_make (n : Nat) : ExactlyS p (p.make n) n (make n) := fun a => ⟨by simp [Prices.of], rfl⟩

theorem cost_run {α : Type} (x : Go α) : Exactly p 0 (run x) := by
  cases x
  · exact rfl
  · trivial
  · trivial

theorem cost_lookup (i : Int) : Exactly p p.look (lookup i) := fun _ => rfl

theorem Costs.then {α β : Type} {n : Nat} {x : MM α} {f : α → MM β} {Q : β → Nat → Prop} (h : Exactly p n x)
    (hf : ∀ a, Costs p.of (fun b u => Q b (n + u)) (f a)) : Costs p.of Q (x >>= f) :=
  Costs.bind h fun a t ht => by subst ht; exact hf a

theorem cost_loop {body : Nat → MM Unit} {n : Nat} (h : ∀ i, Exactly p n (body i)) (j i : Nat) : Exactly p (j * n) (forLoop body j i) := by
  induction j generalizing i with
  | zero => simp [Exactly, forLoop, Costs, pure]
  | succ j ih => exact Costs.then p (h i) fun _ => (ih (i + 1)).mono fun _ t ht => by rw [ht, Nat.succ_mul, Nat.add_comm]

/-- Steps through loads, stores, lookups and code without effect. -/
macro "cost_steps" p:term : tactic => `(tactic| (
  repeat' (first
    | (refine Costs.then $p (cost_load $p _ _) fun _ => ?_)
    | (refine Costs.then $p (cost_run $p _) fun _ => ?_)
    | (refine Costs.then $p (cost_lookup $p _) fun _ => ?_)
    | (refine Costs.then $p (cost_store $p _ _ _) fun _ => ?_))))

theorem cost_splitPolysBody (f f0 f1 : Slice) (i : Nat) : Exactly p (2 * p.load + 2 * p.store) (splitPolysBody f f0 f1 i) := by
  unfold splitPolysBody
  cost_steps p
  exact (cost_store p _ _ _).mono fun _ t ht => by omega

theorem cost_mergePolysBody (f f0 f1 : Slice) (i : Nat) : Exactly p (2 * p.load + 2 * p.store) (mergePolysBody f f0 f1 i) := by
  unfold mergePolysBody
  cost_steps p
  exact (cost_store p _ _ _).mono fun _ t ht => by omega

theorem cost_splitBody (W : Int → Go Int) (w : List Nat) (f f0 f1 : Slice) (i : Nat) :
    Exactly p (4 * p.load + 2 * p.store + p.look) (splitBody W w f f0 f1 i) := by
  unfold splitBody
  cost_steps p
  exact (cost_store p _ _ _).mono fun _ t ht => by omega

theorem cost_mergeBody (W : Int → Go Int) (w : List Nat) (f f0 f1 : Slice) (i : Nat) :
    Exactly p (4 * p.load + 2 * p.store) (mergeBody W w f f0 f1 i) := by
  unfold mergeBody
  cost_steps p
  exact (cost_store p _ _ _).mono fun _ t ht => by omega

theorem Costs.thenS {β : Type} {n l : Nat} {x : MM Slice} {f : Slice → MM β} {Q : β → Nat → Prop} (h : ExactlyS p n l x)
    (hf : ∀ s, s.len = l → Costs p.of (fun b u => Q b (n + u)) (f s)) : Costs p.of Q (x >>= f) :=
  Costs.bind h fun a t ht => by obtain ⟨rfl, hl⟩ := ht; exact hf a hl

theorem cost_splitPolys (f : Slice) : Costs p.of (fun s t => t = 2 * p.make (f.len / 2) + f.len / 2 * (2 * p.load + 2 * p.store) ∧
    s.1.len = f.len / 2 ∧ s.2.len = f.len / 2) (SplitPolysInt f) := by
  unfold SplitPolysInt
  refine Costs.thenS p (cost_make p _) fun f0 h0 => ?_
  refine Costs.thenS p (cost_make p _) fun f1 h1 => ?_
  refine Costs.then p (cost_loop p (cost_splitPolysBody p f f0 f1) _ _) fun _ => ?_
  exact ⟨by omega, h0, h1⟩

theorem cost_split (W : Int → Go Int) (f : Slice) :
    Costs p.of (fun s t => t = 2 * p.make (f.len / 2) + f.len / 2 * (4 * p.load + 2 * p.store + p.look) ∧
      s.1.len = f.len / 2 ∧ s.2.len = f.len / 2) (SplitNTT W f) := by
  unfold SplitNTT
  refine Costs.thenS p (cost_make p _) fun f0 h0 => ?_
  refine Costs.thenS p (cost_make p _) fun f1 h1 => ?_
  refine Costs.then p (cost_loop p (cost_splitBody p W _ f f0 f1) _ _) fun _ => ?_
  exact ⟨by omega, h0, h1⟩

theorem cost_mergePolys (f0 f1 : Slice) :
    ExactlyS p (p.make (2 * f0.len) + f0.len * (2 * p.load + 2 * p.store)) (2 * f0.len) (MergePolysInt f0 f1) := by
  unfold MergePolysInt
  refine Costs.thenS p (cost_make p _) fun f h => ?_
  refine Costs.then p (cost_loop p (cost_mergePolysBody p f f0 f1) _ _) fun _ => ?_
  exact ⟨by simp, h⟩

theorem cost_merge (W : Int → Go Int) (f0 f1 : Slice) :
    ExactlyS p (p.make (2 * f0.len) + f0.len * (4 * p.load + 2 * p.store)) (2 * f0.len) (MergeNTT W f0 f1) := by
  unfold MergeNTT
  refine Costs.thenS p (cost_make p _) fun f h => ?_
  refine Costs.then p (cost_loop p (cost_mergeBody p W _ f f0 f1) _ _) fun _ => ?_
  exact ⟨by simp, h⟩

theorem cost_pair (x y : Int16) : ExactlyS p (p.make 2 + 2 * p.store) 2 (pair x y) := by
  unfold pair
  refine Costs.thenS p (cost_make p _) fun f h => ?_
  cost_steps p
  exact ⟨by omega, h⟩

/-- The cost of `NTT` at the degree `2^(k+1)`. -/
def nttCost : Nat → Nat
  | 0 => 3 * p.load + p.make 2 + 2 * p.store
  | k + 1 => 2 * nttCost k + 2 * p.make (2 ^ (k + 1)) + p.make (2 ^ (k + 2)) + 2 ^ (k + 1) * (6 * p.load + 4 * p.store)

/-- The cost of `INTT` at the degree `2^(k+1)`. -/
def inttCost : Nat → Nat
  | 0 => 4 * p.load + p.look + p.make 2 + 2 * p.store
  | k + 1 => 2 * inttCost k + 2 * p.make (2 ^ (k + 1)) + p.make (2 ^ (k + 2)) + 2 ^ (k + 1) * (6 * p.load + 4 * p.store + p.look)

theorem cost_ntt (W : Int → Go Int) (k d : Nat) (f : Slice) (h : f.len = 2 ^ (k + 1)) : ExactlyS p (nttCost p k) (2 ^ (k + 1)) (NTT W d f) := by
  induction k generalizing d f with
  | zero =>
    cases d with
    | zero => trivial
    | succ d =>
      unfold NTT
      rw [if_neg (by omega), if_pos (by omega)]
      cost_steps p
      exact (cost_pair p _ _).mono fun _ t ht => ⟨by rw [nttCost]; omega, ht.2⟩
  | succ k ih =>
    cases d with
    | zero => trivial
    | succ d =>
      have e : f.len / 2 = 2 ^ (k + 1) := by rw [h, pow_succ]; omega
      have e4 : 2 ≤ 2 ^ (k + 1) := by rw [pow_succ]; have := Nat.one_le_two_pow (n := k); omega
      unfold NTT
      rw [if_pos (by omega)]
      refine Costs.bind (cost_splitPolys p f) fun s t ht => ?_
      obtain ⟨rfl, h0, h1⟩ := ht
      rw [e] at h0 h1 ⊢
      refine Costs.thenS p (ih d _ h0) fun s0 l0 => ?_
      refine Costs.thenS p (ih d _ h1) fun s1 l1 => ?_
      refine (cost_merge p W s0 s1).mono fun s t ht => ⟨?_, ?_⟩
      · rw [ht.1, l0, nttCost, show 2 * 2 ^ (k + 1) = 2 ^ (k + 2) by rw [pow_succ 2 (k + 1)]; omega]
        ring
      · rw [ht.2, l0, pow_succ 2 (k + 1)]
        omega

theorem cost_intt (W : Int → Go Int) (k d : Nat) (f : Slice) (h : f.len = 2 ^ (k + 1)) :
    ExactlyS p (inttCost p k) (2 ^ (k + 1)) (INTT W d f) := by
  induction k generalizing d f with
  | zero =>
    cases d with
    | zero => trivial
    | succ d =>
      unfold INTT
      rw [if_neg (by omega), if_pos (by omega)]
      cost_steps p
      exact (cost_pair p _ _).mono fun _ t ht => ⟨by rw [inttCost]; omega, ht.2⟩
  | succ k ih =>
    cases d with
    | zero => trivial
    | succ d =>
      have e : f.len / 2 = 2 ^ (k + 1) := by rw [h, pow_succ]; omega
      have e4 : 2 ≤ 2 ^ (k + 1) := by rw [pow_succ]; have := Nat.one_le_two_pow (n := k); omega
      unfold INTT
      rw [if_pos (by omega)]
      refine Costs.bind (cost_split p W f) fun s t ht => ?_
      obtain ⟨rfl, h0, h1⟩ := ht
      rw [e] at h0 h1 ⊢
      refine Costs.thenS p (ih d _ h0) fun s0 l0 => ?_
      refine Costs.thenS p (ih d _ h1) fun s1 l1 => ?_
      refine (cost_mergePolys p s0 s1).mono fun s t ht => ⟨?_, ?_⟩
      · rw [ht.1, l0, inttCost, show 2 * 2 ^ (k + 1) = 2 ^ (k + 2) by rw [pow_succ 2 (k + 1)]; omega]
        ring
      · rw [ht.2, l0, pow_succ 2 (k + 1)]
        omega

theorem cost_mulNTT (W : Int → Go Int) (f g : Slice) : ExactlyS p (p.make f.len + f.len * (2 * p.load + p.store)) f.len (mulNTT W f g) := by
  unfold mulNTT
  refine Costs.thenS p (cost_make p _) fun r h => ?_
  split
  · trivial
  · refine Costs.then p (cost_loop p (n := 2 * p.load + p.store) (fun i => ?_) _ _) fun _ => ⟨by simp, h⟩
    unfold mulBody
    cost_steps p
    exact (cost_store p _ _ _).mono fun _ t ht => by omega

/-- The cost of `MulZq` at the degree `2^(k+1)`. -/
def mulCost (k : Nat) : Nat := 2 * nttCost p k + p.make (2 ^ (k + 1)) + 2 ^ (k + 1) * (2 * p.load + p.store) + inttCost p k

theorem cost_mul (W : Int → Go Int) (k : Nat) (f g : Slice) (h : f.len = 2 ^ (k + 1)) (hg : g.len = 2 ^ (k + 1)) :
    ExactlyS p (mulCost p k) (2 ^ (k + 1)) (MulZq W f g) := by
  unfold MulZq
  refine Costs.thenS p (cost_ntt p W k _ f h) fun ft l0 => ?_
  refine Costs.thenS p (cost_ntt p W k _ g hg) fun gt l1 => ?_
  refine Costs.thenS p (cost_mulNTT p W ft gt) fun r l2 => ?_
  rw [l0] at l2 ⊢
  exact (cost_intt p W k _ r l2).mono fun s t ht => ⟨by rw [ht.1, mulCost]; ring, ht.2⟩

theorem cost_sub (f g : Slice) (h : f.len = g.len) : ExactlyS p (2 * p.make f.len + f.len * (3 * p.load + 2 * p.store)) f.len (SubZq f g) := by
  unfold SubZq
  have hn : ExactlyS p (p.make g.len + g.len * (p.load + p.store)) g.len (negZq g) := by
    unfold negZq
    refine Costs.thenS p (cost_make p _) fun r h => ?_
    refine Costs.then p (cost_loop p (n := p.load + p.store) (fun i => ?_) _ _) fun _ => ⟨by simp, h⟩
    unfold negBody
    cost_steps p
    exact (cost_store p _ _ _).mono fun _ t ht => by omega
  refine Costs.thenS p hn fun s hs => ?_
  unfold addZq
  refine Costs.thenS p (cost_make p _) fun r hr => ?_
  split
  · trivial
  · refine Costs.then p (cost_loop p (n := 2 * p.load + p.store) (fun i => ?_) _ _) fun _ => ⟨by rw [h]; ring, hr⟩
    unfold addBody
    cost_steps p
    exact (cost_store p _ _ _).mono fun _ t ht => by omega

end Falcon.Sl
