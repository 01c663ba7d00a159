import Verif.Props.Forge2
/-!
# The law of the hash-to-point function, and forging by trying salts (C17, C71)

A stream of `2N` bytes is described by `N` words of 16 bits, so uniform streams are counted as functions `Fin N → Fin 65536`.
-/

-- This linter unfolds the type of vectors.
set_option linter.constructorNameAsVariable false

namespace Falcon
open Spec

/-- The stream `s` begins with the bytes of the words `d`, high byte first. -/
def Begins {N : Nat} (s : Nat → UInt8) (d : Fin N → Fin 65536) : Prop :=
  ∀ i : Fin N, 256 * (s (2 * i.val)).toNat + (s (2 * i.val + 1)).toNat = (d i).val

/-- The first `k` words below `5q` of a list, modulo q. -/
def firstWords : Nat → List Nat → Option (List Nat)
  | 0, _ => some []
  | _ + 1, [] => none
  | k + 1, e :: l => if e < 61445 then (firstWords k l).map (e % 12289 :: ·) else firstWords (k + 1) l

theorem firstWords_eq (k : Nat) (l : List Nat) : firstWords k l =
    if k ≤ (l.filter fun e => decide (e < 5 * 12289)).length then
      some (((l.filter fun e => decide (e < 5 * 12289)).take k).map (· % 12289)) else none := by
  induction l generalizing k with
  | nil => cases k <;> simp [firstWords]
  | cons e l ih =>
    cases k with
    | zero => simp [firstWords]
    | succ k =>
      have hd : ∀ x : Nat, x < 5 * 12289 ↔ x < 61445 := fun x => by omega
      rw [firstWords]
      by_cases h : e < 61445
      · rw [if_pos h, ih, List.filter_cons_of_pos (by rw [decide_eq_true_eq, hd]; exact h)]
        simp only [List.length_cons, Nat.add_le_add_iff_right]
        split <;> simp
      · rw [if_neg h, ih, List.filter_cons_of_neg (by rw [decide_eq_true_eq, hd]; exact h)]

/-- The words of `d` as natural numbers. -/
def wordsOf {N : Nat} (d : Fin N → Fin 65536) : List Nat := List.ofFn fun i => (d i).val

theorem samples_begins {N : Nat} {s : Nat → UInt8} {d : Fin N → Fin 65536} (h : Begins s d) : Spec.samples s 0 N = wordsOf d := by
  apply List.ext_getElem
  · simp [Spec.samples, wordsOf]
  · intro i h1 h2
    have hi : i < N := by simpa [wordsOf] using h2
    simp only [Spec.samples, wordsOf, List.getElem_map, List.getElem_range, List.getElem_ofFn]
    have := h ⟨i, hi⟩
    simpa using this

/-- Hashing is a function of the words. -/
theorem hash_begins {N : Nat} {xof : Xof} {d : Fin N → Fin 65536} {m salt : List UInt8} (h : Begins (xof (salt ++ m)) d) :
    hashToPoint xof N m salt = match firstWords 512 (wordsOf d) with
      | some l => .ok (l.map Int16.ofNat)
      | none => .diverge := by
  rw [C16_hash_exact, firstWords_eq, accepted, samples_begins h]
  split
  · simp only [List.map_map]; rfl
  · rfl

/-- The number of streams of `N` words whose first `k` accepted words are prescribed. -/
def hashCount : Nat → Nat → Nat
  | N, 0 => 65536 ^ N
  | 0, _ + 1 => 0
  | N + 1, k + 1 => 5 * hashCount N k + 4091 * hashCount N (k + 1)

theorem sum_words (G : Nat → Nat) (h : Nat) :
    ∑ a : Fin 65536, (if a.val < 61445 then G (a.val % 12289) else h) = 5 * ∑ r ∈ Finset.range 12289, G r + 4091 * h := by
  rw [Fin.sum_univ_eq_sum_range (fun a => if a < 61445 then G (a % 12289) else h) 65536]
  have key : ∀ k n, ∑ a ∈ Finset.range (n * k), G (a % n) = k * ∑ r ∈ Finset.range n, G r := by
    intro k n
    induction k with
    | zero => simp
    | succ k ih =>
      rw [Nat.mul_succ, Finset.sum_range_add, ih, Nat.succ_mul]
      congr 1
      apply Finset.sum_congr rfl
      intro r hr
      rw [Nat.mul_add_mod, Nat.mod_eq_of_lt (Finset.mem_range.1 hr)]
  have h1 : ∑ a ∈ Finset.range 61445, (if a < 61445 then G (a % 12289) else h) = ∑ a ∈ Finset.range 61445, G (a % 12289) := by
    apply Finset.sum_congr rfl
    intro a ha
    rw [if_pos (Finset.mem_range.1 ha)]
  have h2 : ∑ a ∈ Finset.range 4091, (if 61445 + a < 61445 then G ((61445 + a) % 12289) else h) = 4091 * h := by
    rw [Finset.sum_congr rfl fun a _ => if_neg (by omega : ¬61445 + a < 61445), Finset.sum_const, Finset.card_range, smul_eq_mul]
  have h3 := key 5 12289
  rw [show (65536 : Nat) = 61445 + 4091 from rfl, Finset.sum_range_add, h1, h2]
  exact congrArg (· + 4091 * h) h3

theorem card_cons {N : Nat} (P : List Nat → Prop) [DecidablePred P] :
    (Finset.univ.filter fun d : Fin (N + 1) → Fin 65536 => P (wordsOf d)).card =
      ∑ a : Fin 65536, (Finset.univ.filter fun d : Fin N → Fin 65536 => P (a.val :: wordsOf d)).card := by
  simp only [Finset.card_filter]
  rw [← (Fin.consEquiv fun _ => Fin 65536).sum_comp, Fintype.sum_prod_type]
  simp only [Fin.consEquiv, Equiv.coe_fn_mk, wordsOf, List.ofFn_succ, Fin.cons_zero, Fin.cons_succ]
  rfl

theorem hash_count (N k : Nat) (c : List Nat) (hc : c.length = k) (hq : ∀ x ∈ c, x < 12289) :
    (Finset.univ.filter fun d : Fin N → Fin 65536 => firstWords k (wordsOf d) = some c).card = hashCount N k := by
  induction N generalizing k c with
  | zero =>
    cases k with
    | zero =>
      have : c = [] := List.length_eq_zero_iff.1 hc
      subst this
      simp [firstWords, hashCount]
    | succ k =>
      simp [firstWords, hashCount, wordsOf]
  | succ N ih =>
    cases k with
    | zero =>
      have : c = [] := List.length_eq_zero_iff.1 hc
      subst this
      simp only [firstWords, hashCount, Finset.filter_true, Finset.card_univ, Fintype.card_fun, Fintype.card_fin]
    | succ k =>
      obtain ⟨r, c, rfl⟩ : ∃ r c', c = r :: c' := List.exists_cons_of_length_eq_add_one hc
      have hr : r < 12289 := hq r List.mem_cons_self
      rw [card_cons fun l => firstWords (k + 1) l = some (r :: c)]
      have h1 := ih k c (by simpa using hc) fun x hx => hq x (List.mem_cons_of_mem _ hx)
      have h2 := ih (k + 1) (r :: c) hc hq
      have e : ∀ a : Fin 65536, (Finset.univ.filter fun d : Fin N → Fin 65536 => firstWords (k + 1) (a.val :: wordsOf d) = some (r :: c)).card =
          if a.val < 61445 then (fun x => if x = r then hashCount N k else 0) (a.val % 12289) else hashCount N (k + 1) := by
        intro a
        simp only [firstWords]
        split
        · split
          · next hx =>
            rw [← h1]
            congr 1
            ext d
            simp only [Finset.mem_filter_univ, Option.map_eq_some_iff, List.cons.injEq, hx, true_and]
            constructor
            · rintro ⟨x, hx, rfl⟩; exact hx
            · intro h; exact ⟨c, h, rfl⟩
          · next hx =>
            rw [Finset.card_eq_zero, Finset.filter_eq_empty_iff]
            intro d _ h
            rw [Option.map_eq_some_iff] at h
            obtain ⟨x, -, h⟩ := h
            exact hx (List.cons.inj h).1
        · exact h2
      rw [Finset.sum_congr rfl fun a _ => e a, sum_words (fun x => if x = r then hashCount N k else 0), hashCount]
      rw [Finset.sum_ite_eq' (Finset.range 12289) r, if_pos (Finset.mem_range.2 hr)]

/-- The words on which hashing returns the point `c`, whatever the message and the salt. -/
def HashesTo {N : Nat} (d : Fin N → Fin 65536) (c : Point) : Prop :=
  ∀ xof m salt, Begins (xof (salt ++ m)) d → hashToPoint xof N m salt = .ok (pointOf c)

/-- The stream of given words, followed by zeros. -/
def streamOf {N : Nat} (d : Fin N → Fin 65536) (i : Nat) : UInt8 :=
  if h : i / 2 < N then (if i % 2 = 0 then UInt8.ofNat ((d ⟨i / 2, h⟩).val / 256) else UInt8.ofNat ((d ⟨i / 2, h⟩).val % 256)) else 0

theorem streamOf_begins {N : Nat} (d : Fin N → Fin 65536) : Begins (streamOf d) d := by
  intro i
  have h := (d i).isLt
  have e0 : streamOf d (2 * i.val) = UInt8.ofNat ((d i).val / 256) := by
    have hi : 2 * i.val / 2 = i.val := by omega
    simp only [streamOf, hi, i.isLt, dif_pos, show 2 * i.val % 2 = 0 by omega, if_true]
  have e1 : streamOf d (2 * i.val + 1) = UInt8.ofNat ((d i).val % 256) := by
    have hi : (2 * i.val + 1) / 2 = i.val := by omega
    simp only [streamOf, hi, i.isLt, dif_pos, show (2 * i.val + 1) % 2 = 1 by omega, Nat.one_ne_zero, if_false]
  rw [e0, e1, UInt8.toNat_ofNat', UInt8.toNat_ofNat']
  omega

theorem hashesTo_iff {N : Nat} (d : Fin N → Fin 65536) (c : Point) :
    HashesTo d c ↔ firstWords 512 (wordsOf d) = some (List.ofFn fun i => (c i).val) := by
  have el : (List.ofFn fun i => (c i).val).map Int16.ofNat = pointOf c := by rw [List.map_ofFn]; rfl
  constructor
  · intro h
    have h := h (fun _ => streamOf d) [] [] (streamOf_begins d)
    rw [hash_begins (streamOf_begins d)] at h
    rw [firstWords_eq] at h ⊢
    split at h
    · next l hl =>
      split at hl
      · next hle =>
        rw [if_pos hle]
        simp only [Option.some.injEq] at hl ⊢
        rw [hl]
        replace h := Go.ok.inj h
        rw [← el] at h
        have hb : ∀ x ∈ l, x < 12289 := by
          intro x hx
          rw [← hl, List.mem_map] at hx
          obtain ⟨y, -, rfl⟩ := hx
          exact Nat.mod_lt _ (by norm_num)
        have hc : ∀ x ∈ List.ofFn fun i => (c i).val, x < 12289 := by
          intro x hx
          rw [List.mem_ofFn] at hx
          obtain ⟨i, rfl⟩ := hx
          exact (c i).isLt
        generalize (List.ofFn fun i => (c i).val) = r at h hc
        clear hl hle
        induction l generalizing r with
        | nil => cases r with
          | nil => rfl
          | cons y r => simp at h
        | cons x l ih => cases r with
          | nil => simp at h
          | cons y r =>
            simp only [List.map_cons, List.cons.injEq] at h
            have hx := hb x List.mem_cons_self
            have hy := hc y List.mem_cons_self
            have e := congrArg Int16.toInt h.1
            rw [i16_ofNat (by omega), i16_ofNat (by omega)] at e
            rw [ih (fun z hz => hb z (List.mem_cons_of_mem _ hz)) r h.2 fun z hz => hc z (List.mem_cons_of_mem _ hz),
              show x = y by omega]
      · simp at hl
    · simp at h
  · intro h xof m salt hs
    rw [hash_begins hs, h]
    simp only [el]

open Classical in
/-- C17. For every length `N`, every point is the hash value of the same number of streams of `2N` bytes. -/
theorem C17_hash_uniform (N : Nat) (c : Point) :
    (Finset.univ.filter fun d : Fin N → Fin 65536 => HashesTo d c).card = hashCount N 512 := by
  rw [← hash_count N 512 (List.ofFn fun i => (c i).val) (List.length_ofFn) (by
    intro x hx
    rw [List.mem_ofFn] at hx
    obtain ⟨i, rfl⟩ := hx
    exact (c i).isLt)]
  congr 1
  ext d
  rw [Finset.mem_filter_univ, Finset.mem_filter_univ, hashesTo_iff]

/-- Two words are enough for 2 coefficients in `5^2` ways. -/
example : hashCount 2 2 = 25 ∧ hashCount 3 2 = 25 * 65536 + 2 * 25 * 4091 := by decide +kernel

theorem firstWords_none {k : Nat} {l : List Nat} (h : firstWords k l = none) :
    15 ^ l.length ≤ 15 ^ (k - 1) * (l.map fun e => if e < 61445 then 1 else 15).prod := by
  induction l generalizing k with
  | nil => simp; exact Nat.one_le_pow _ _ (by norm_num)
  | cons e l ih =>
    cases k with
    | zero => simp [firstWords] at h
    | succ k =>
      rw [firstWords] at h
      rw [List.length_cons, List.map_cons, List.prod_cons, pow_succ]
      split at h
      · next he =>
        rw [if_pos he, one_mul]
        cases k with
        | zero => simp [firstWords] at h
        | succ k =>
          have := ih (Option.map_eq_none_iff.1 h)
          simp only [Nat.add_sub_cancel] at this ⊢
          rw [pow_succ]
          nlinarith
      · next he =>
        rw [if_neg he]
        have := ih h
        simp only [Nat.add_sub_cancel] at this ⊢
        nlinarith

/-- Streams that do not contain enough accepted words are rare. -/
theorem short_streams (N : Nat) :
    15 ^ N * (Finset.univ.filter fun d : Fin N → Fin 65536 => firstWords 512 (wordsOf d) = none).card ≤ 15 ^ 511 * 122810 ^ N := by
  have h1 : ∑ d : Fin N → Fin 65536, ∏ i, (if (d i).val < 61445 then 1 else 15) = 122810 ^ N := by
    have e : ∑ a : Fin 65536, (if a.val < 61445 then 1 else 15) = 122810 := by
      rw [sum_words (fun _ => 1) 15, Finset.sum_const, Finset.card_range]
      norm_num
    rw [← e, Fintype.sum_pow]
  rw [← h1, Finset.mul_sum, Finset.card_eq_sum_ones, Finset.mul_sum]
  refine (Finset.sum_le_sum fun d hd => ?_).trans
    (Finset.sum_le_univ_sum_of_nonneg (s := Finset.univ.filter fun d : Fin N → Fin 65536 => firstWords 512 (wordsOf d) = none)
      fun _ => Nat.zero_le _)
  rw [Finset.mem_filter_univ] at hd
  have := firstWords_none hd
  rw [wordsOf, List.length_ofFn, List.map_ofFn, List.prod_ofFn] at this
  rw [mul_one]
  exact this

theorem short_numeric : 2 ^ 1000 * (15 ^ 511 * 122810 ^ 1024) ≤ 15 ^ 1024 * 65536 ^ 1024 := by decide +kernel

open Classical in
/-- C17. Hashing returns from 2048 bytes of a uniform stream, except with probability below `2^-1000`. -/
theorem C17_hash_returns :
    2 ^ 1000 * (Finset.univ.filter fun d : Fin 1024 → Fin 65536 => ¬∃ c, HashesTo d c).card ≤ 65536 ^ 1024 := by
  have h := short_streams 1024
  have hs : (Finset.univ.filter fun d : Fin 1024 → Fin 65536 => ¬∃ c, HashesTo d c) ⊆
      Finset.univ.filter fun d : Fin 1024 → Fin 65536 => firstWords 512 (wordsOf d) = none := by
    intro d hd
    rw [Finset.mem_filter_univ] at hd ⊢
    by_contra hc
    obtain ⟨l, hl⟩ := Option.ne_none_iff_exists'.1 hc
    apply hd
    have hl' := hl
    rw [firstWords_eq] at hl'
    split at hl'
    · next hle =>
      have hl' := Option.some.inj hl'
      have len : l.length = 512 := by
        rw [← hl', List.length_map, List.length_take]
        omega
      have hb : ∀ i (h : i < l.length), l[i] < 12289 := by
        intro i h
        have hm : ∀ x ∈ l, ∃ y, y % 12289 = x := by
          intro x hx
          rw [← hl', List.mem_map] at hx
          obtain ⟨y, -, e⟩ := hx
          exact ⟨y, e⟩
        obtain ⟨y, e⟩ := hm _ (List.getElem_mem h)
        rw [← e]
        exact Nat.mod_lt _ (by norm_num)
      refine ⟨fun i => ⟨l[i.val]'(by rw [len]; exact i.isLt), hb _ _⟩, ?_⟩
      rw [hashesTo_iff, hl]
      refine congrArg some ?_
      apply List.ext_getElem
      · rw [List.length_ofFn]; exact len
      · intro i h1 h2
        rw [List.getElem_ofFn]
    · simp at hl'
  have hn := short_numeric
  have hc := Finset.card_le_card hs
  generalize (Finset.univ.filter fun d : Fin 1024 → Fin 65536 => ¬∃ c, HashesTo d c).card = x at hc ⊢
  generalize (Finset.univ.filter fun d : Fin 1024 → Fin 65536 => firstWords 512 (wordsOf d) = none).card = y at h hc
  have hp : 0 < (15 : Nat) ^ 1024 := by positivity
  generalize (15 : Nat) ^ 1024 = a at h hn hp
  generalize (15 : Nat) ^ 511 * 122810 ^ 1024 = b at h hn
  generalize (65536 : Nat) ^ 1024 = z at hn ⊢
  generalize (2 : Nat) ^ 1000 = t at hn ⊢
  apply Nat.le_of_mul_le_mul_left _ hp
  calc a * (t * x) ≤ a * (t * y) := Nat.mul_le_mul_left _ (Nat.mul_le_mul_left _ hc)
    _ = t * (a * y) := by ring
    _ ≤ t * b := Nat.mul_le_mul_left _ h
    _ ≤ a * z := hn

/-- The words with which `Verify` accepts the body under the key, whatever the message and the salt. -/
def AcceptsStream (pk : List Int16) (body : List UInt8) (d : Fin 1024 → Fin 65536) : Prop :=
  ∀ xof fuel m sig, 1024 ≤ fuel → 41 ≤ sig.length → sig.drop 41 = body → Begins (xof (saltOf sig ++ m)) d →
    Verify xof fuel pk m sig = .ok true

open Classical in
/-- The streams that hash to one of the points of a set, counted. -/
theorem card_hash_set (N : Nat) (S : Finset Point) :
    (Finset.univ.filter fun d : Fin N → Fin 65536 => ∃ c ∈ S, HashesTo d c).card = S.card * hashCount N 512 := by
  have hu : (Finset.univ.filter fun d : Fin N → Fin 65536 => ∃ c ∈ S, HashesTo d c) =
      S.biUnion fun c => Finset.univ.filter fun d : Fin N → Fin 65536 => HashesTo d c := by
    ext d
    simp only [Finset.mem_filter_univ, Finset.mem_biUnion]
  rw [hu, Finset.card_biUnion, Finset.sum_congr rfl fun c _ => C17_hash_uniform N c, Finset.sum_const, smul_eq_mul]
  intro c _ c' _ hne
  refine Finset.disjoint_filter.2 fun d _ h h' => ?_
  apply hne
  rw [hashesTo_iff] at h h'
  rw [h] at h'
  have := List.ofFn_injective (Option.some.inj h')
  funext i
  exact Fin.ext (congrFun this i)

theorem card_point : (Finset.univ : Finset Point).card = 12289 ^ 512 := by
  rw [Finset.card_univ, Fintype.card_fun, Fintype.card_fin, Fintype.card_fin]

open Classical in
theorem card_hash_all (N : Nat) :
    (Finset.univ.filter fun d : Fin N → Fin 65536 => ∃ c, HashesTo d c).card = 12289 ^ 512 * hashCount N 512 := by
  have h := card_hash_set N Finset.univ
  rw [card_point] at h
  rw [← h]
  generalize hashCount N 512 = w
  simp only [Finset.mem_univ, true_and]

open Classical in
theorem share_of_returns (N : Nat)
    (h1 : 2 ^ 1000 * (Finset.univ.filter fun d : Fin N → Fin 65536 => ¬∃ c, HashesTo d c).card ≤ 65536 ^ N) :
    65536 ^ N * (2 ^ 1000 - 1) ≤ 2 ^ 1000 * (12289 ^ 512 * hashCount N 512) := by
  have h2 := card_hash_all N
  have h3 := Finset.card_filter_add_card_filter_not (s := (Finset.univ : Finset (Fin N → Fin 65536))) fun d => ∃ c, HashesTo d c
  have hd : (Finset.univ : Finset (Fin N → Fin 65536)).card = 65536 ^ N := by
    rw [Finset.card_univ, Fintype.card_fun, Fintype.card_fin, Fintype.card_fin]
  rw [h2, hd] at h3
  clear h2 hd
  generalize (Finset.univ.filter fun d : Fin N → Fin 65536 => ¬∃ c, HashesTo d c).card = x at h1 h3
  generalize (12289 : Nat) ^ 512 * hashCount N 512 = y at h3 ⊢
  generalize (65536 : Nat) ^ N = z at h1 h3 ⊢
  generalize (2 : Nat) ^ 1000 = t at h1 ⊢
  rw [Nat.mul_sub, mul_one, Nat.sub_le_iff_le_add, ← h3]
  nlinarith

/-- C17. The streams of 2048 bytes are shared out evenly between the points, but for a fraction of `2^-1000`. -/
theorem C17_hash_share : 65536 ^ 1024 * (2 ^ 1000 - 1) ≤ 2 ^ 1000 * (12289 ^ 512 * hashCount 1024 512) :=
  share_of_returns 1024 C17_hash_returns

theorem share_arith (x k q w z t t' : Nat) (h : q ≤ 1900 * k) (h1 : k * w ≤ x) (h2 : z * t' ≤ t * (q * w)) (hn : 1900 * t ≤ 2000 * t')
    (ht : 0 < t) : z ≤ 2000 * x := by
  have h5 : z * t' ≤ t * (1900 * x) := by
    calc z * t' ≤ t * (q * w) := h2
      _ ≤ t * ((1900 * k) * w) := Nat.mul_le_mul_left _ (Nat.mul_le_mul_right _ h)
      _ = t * (1900 * (k * w)) := by ring
      _ ≤ _ := Nat.mul_le_mul_left _ (Nat.mul_le_mul_left _ h1)
  have h6 : z * (1900 * t) ≤ z * (2000 * t') := Nat.mul_le_mul_left _ hn
  apply Nat.le_of_mul_le_mul_left _ (show 0 < 1900 * t by omega)
  nlinarith

open Classical in
theorem stream_of_points (N : Nat) (S : Finset Point) (P : (Fin N → Fin 65536) → Prop) (hP : ∀ d, ∀ c ∈ S, HashesTo d c → P d)
    (h : 12289 ^ 512 ≤ 1900 * S.card) (h2 : 65536 ^ N * (2 ^ 1000 - 1) ≤ 2 ^ 1000 * (12289 ^ 512 * hashCount N 512)) :
    65536 ^ N ≤ 2000 * (Finset.univ.filter P).card := by
  have hs : (Finset.univ.filter fun d : Fin N → Fin 65536 => ∃ c ∈ S, HashesTo d c) ⊆ Finset.univ.filter P := by
    intro d hd
    rw [Finset.mem_filter_univ] at hd ⊢
    obtain ⟨c, h1, h2⟩ := hd
    exact hP d c h1 h2
  have h1 := Finset.card_le_card hs
  rw [card_hash_set] at h1
  exact share_arith _ _ _ _ _ _ _ h h1 h2 (by decide +kernel) (by positivity)

theorem accepts_stream {pk : List Int16} {body : List UInt8} {c : Point} {d : Fin 1024 → Fin 65536} (h : Accepts pk body c)
    (hd : HashesTo d c) : AcceptsStream pk body d := by
  intro xof fuel m sig hf hl hd' hb
  have h1 := hd xof m (saltOf sig) hb
  exact h xof fuel m sig hl hd' (C16_hash_fuel_mono xof 1024 fuel hf m _ _ h1)

theorem of_mem_filter {A : Type} {i : Fintype A} {P : A → Prop} {j : DecidablePred P} {c : A} (h : c ∈ Finset.univ.filter P) : P c :=
  (Finset.mem_filter.1 h).2

open Classical in
/-- C71 is violated. There is one signature body that `Verify` accepts, under every public key and for every message, with
probability at least 1/2000 over a uniform output of the extendable-output function. -/
theorem C71_violated_stream : ∃ body : List UInt8, body.length = 625 ∧ ∀ pk : List Int16, pk.length = 512 →
    65536 ^ 1024 ≤ 2000 * (Finset.univ.filter fun d => AcceptsStream pk body d).card := by
  obtain ⟨body, hl, hb⟩ := C71_violated_likely
  refine ⟨body, hl, fun pk hpk => ?_⟩
  exact stream_of_points 1024 _ _ (fun d c hc hd => accepts_stream (of_mem_filter hc) hd) (hb pk hpk) C17_hash_share

/-- A family of streams, one for each of `2^17` salts. -/
abbrev Streams : Type := Fin (2 ^ 17) → Fin 1024 → Fin 65536

theorem search_numeric : 2 ^ 90 * 1999 ^ 2 ^ 17 ≤ 2000 ^ 2 ^ 17 := by decide +kernel

open Classical in
/-- C71 is violated. With `2^17` salts whose streams are independent and uniform, an attacker who knows only the public key finds a
salt with which the fixed body is accepted, except with probability below `2^-90`. -/
theorem C71_violated_search : ∃ body : List UInt8, body.length = 625 ∧ ∀ pk : List Int16, pk.length = 512 →
    2 ^ 90 * (Finset.univ.filter fun D : Streams => ¬∃ k, AcceptsStream pk body (D k)).card ≤ (65536 ^ 1024) ^ 2 ^ 17 := by
  obtain ⟨body, hl, hb⟩ := C71_violated_stream
  refine ⟨body, hl, fun pk hpk => ?_⟩
  have h := hb pk hpk
  have hc := Finset.card_filter_add_card_filter_not (s := (Finset.univ : Finset (Fin 1024 → Fin 65536))) fun d => AcceptsStream pk body d
  have hd : (Finset.univ : Finset (Fin 1024 → Fin 65536)).card = 65536 ^ 1024 := by
    rw [Finset.card_univ, Fintype.card_fun, Fintype.card_fin, Fintype.card_fin]
  have hf : (Finset.univ.filter fun D : Streams => ¬∃ k, AcceptsStream pk body (D k)) =
      Fintype.piFinset fun _ => Finset.univ.filter fun d => ¬AcceptsStream pk body d := by
    ext D
    rw [Finset.mem_filter_univ, Fintype.mem_piFinset]
    simp only [not_exists, Finset.mem_filter_univ]
  rw [hf, Fintype.card_piFinset, Finset.prod_const, Finset.card_univ, Fintype.card_fin]
  rw [hd] at hc
  clear hf hd hb
  have hn := search_numeric
  generalize (Finset.univ.filter fun d => AcceptsStream pk body d).card = x at *
  generalize (Finset.univ.filter fun d => ¬AcceptsStream pk body d).card = y at *
  generalize (65536 : Nat) ^ 1024 = z at *
  generalize (2 : Nat) ^ 17 = K at *
  have hy : 2000 * y ≤ 1999 * z := by omega
  have h1 : 2000 ^ K * y ^ K ≤ 1999 ^ K * z ^ K := by
    rw [← mul_pow, ← mul_pow]
    exact Nat.pow_le_pow_left hy K
  have hp : 0 < 1999 ^ K := by positivity
  apply Nat.le_of_mul_le_mul_left _ hp
  calc 1999 ^ K * (2 ^ 90 * y ^ K) = (2 ^ 90 * 1999 ^ K) * y ^ K := by ring
    _ ≤ 2000 ^ K * y ^ K := Nat.mul_le_mul_right _ hn
    _ ≤ _ := h1

/-- The streams of the theorems exist: for every family and every injective choice of salts there is an extendable-output function with
these streams. -/
example (D : Streams) (salts : Fin (2 ^ 17) → List UInt8) (hs : Function.Injective salts) (m : List UInt8) :
    ∃ xof : Xof, ∀ k, Begins (xof (salts k ++ m)) (D k) := by
  classical
  refine ⟨fun x => if h : ∃ k, x = salts k ++ m then streamOf (D h.choose) else fun _ => 0, fun k => ?_⟩
  have h : ∃ j, salts k ++ m = salts j ++ m := ⟨k, rfl⟩
  show Begins (if h : ∃ j, salts k ++ m = salts j ++ m then streamOf (D h.choose) else fun _ => 0) (D k)
  rw [dif_pos h]
  have e := hs (List.append_cancel_right h.choose_spec)
  rw [← e]
  exact streamOf_begins _

end Falcon
