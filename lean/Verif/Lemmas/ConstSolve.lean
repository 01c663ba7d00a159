import Verif.Lemmas.ConstPoly
import Verif.Props.Ntrugen
/-!
# `NtruSolve` on constant polynomials
-/

namespace Falcon
open Spec Polynomial F64

/-! ### Integers -/

theorem poly_cst (n : Nat) (c : Int) : poly (cst n c) = C c := by
  have h : ∀ m, poly (List.replicate m (0 : Int)) = 0 := by
    intro m
    induction m with
    | zero => rfl
    | succ m ih => rw [List.replicate_succ, poly_cons, ih]; simp
  rw [cst, poly_cons, h]
  simp

theorem karamul_cst (k : Nat) (a b : Int) : karamul (cst (2 ^ k) a) (cst (2 ^ k) b) = .ok (cst (2 ^ k) (a * b)) := by
  have hp : 1 ≤ 2 ^ k := Nat.one_le_two_pow
  obtain ⟨r, e, l, h⟩ := karamul_ok k _ _ (cst_length _ hp a) (cst_length _ hp b)
  rw [e, C35_unique (2 ^ k) (cst (2 ^ k) (a * b)) r (cst_length _ hp _) l]
  unfold polyZ
  rw [poly_cst] at h ⊢
  rw [poly_cst, ← C_mul] at h
  exact h

theorem fieldNorm_cst (k : Nat) (a : Int) : fieldNorm (cst (2 ^ (k + 1)) a) = .ok (cst (2 ^ k) (a * a)) := by
  have hp : 1 ≤ 2 ^ k := Nat.one_le_two_pow
  obtain ⟨r, e, l, h⟩ := fieldNorm_ok k _ (cst_length _ Nat.one_le_two_pow a)
  rw [e, C35_unique (2 ^ k) (cst (2 ^ k) (a * a)) r (cst_length _ hp _) l]
  unfold polyZ
  rw [show 2 ^ (k + 1) = 2 * 2 ^ k by ring, cst_split _ hp, poly_cst, poly_cst] at h
  rw [poly_cst]
  simpa [pow_two] using h

theorem galois_cst (n : Nat) (c : Int) : galoisConjugate (cst n c) = cst n c := by
  unfold galoisConjugate cst
  rw [List.mapIdx_cons]
  congr 1
  · simp
  · apply List.ext_getElem
    · simp
    · intro i h1 h2
      simp

theorem lift_cst (n : Nat) (hn : 1 ≤ n) (c : Int) : lift (cst n c) = cst (2 * n) c := by
  obtain ⟨m, rfl⟩ : ∃ m, n = m + 1 := ⟨n - 1, by omega⟩
  have h : ∀ m, lift (List.replicate m (0 : Int)) = List.replicate (2 * m) 0 := by
    intro m
    induction m with
    | zero => rfl
    | succ m ih =>
      rw [show 2 * (m + 1) = 2 * m + 1 + 1 by ring, List.replicate_succ, List.replicate_succ, List.replicate_succ, ← ih]
      rfl
  have e : cst (2 * (m + 1)) c = c :: 0 :: List.replicate (2 * m) 0 := by
    unfold cst
    rw [show 2 * (m + 1) - 1 = 2 * m + 1 by omega, List.replicate_succ]
  rw [e, ← h m]
  rfl

theorem sub_cst (n : Nat) (hn : 1 ≤ n) (x F : Int) (sh : Nat) : subShifted (cst n x) sh n 0 (cst n F) = .ok (cst n (F - 2 ^ sh * x)) := by
  have l1 := cst_length n hn x
  have l2 := cst_length n hn F
  obtain ⟨r, e, -, -⟩ := subShifted_ok (cst n x) sh n 0 (cst n F) (by omega) (by omega)
  rw [e, subShifted_coeff _ sh n _ r l1 l2 e]
  simp [cst]

theorem foldl_zeros (P : Int → Int → Bool) (m : Nat) (c : Int) (hP : P 0 0 = false) :
    (List.replicate (m + 1) (0 : Int)).foldl (fun b v => if P b v then v else b) c = if P c 0 then 0 else c := by
  have h0 : ∀ m, (List.replicate m (0 : Int)).foldl (fun b v => if P b v then v else b) 0 = 0 := by
    intro m
    induction m with
    | zero => rfl
    | succ m ih => rw [List.replicate_succ, List.foldl_cons, hP]; simpa using ih
  induction m generalizing c with
  | zero => simp
  | succ m ih =>
    rw [List.replicate_succ, List.foldl_cons]
    by_cases h : P c 0 = true
    · rw [if_pos h, h0]
    · rw [if_neg h, ih, if_neg h]

theorem max_cst (n : Nat) (hn : 2 ≤ n) (c : Int) : maxFromBigInt (cst n c) = .ok (max c 0) := by
  obtain ⟨m, rfl⟩ : ∃ m, n = m + 2 := ⟨n - 2, by omega⟩
  unfold maxFromBigInt cst
  rw [show idx (c :: List.replicate (m + 2 - 1) 0) 0 = .ok c by rfl, Go.ok_bind, List.foldl_cons]
  simp only [gt_iff_lt, lt_self_iff_false, if_false]
  have := foldl_zeros (fun b v => decide (b < v)) m c (by decide)
  simp only [decide_eq_true_eq] at this
  rw [show m + 2 - 1 = m + 1 by omega, this, Go.pure_eq]
  congr 1
  split <;> omega

theorem min_cst (n : Nat) (hn : 2 ≤ n) (c : Int) : minFromBigInt (cst n c) = .ok (min c 0) := by
  obtain ⟨m, rfl⟩ : ∃ m, n = m + 2 := ⟨n - 2, by omega⟩
  unfold minFromBigInt cst
  rw [show idx (c :: List.replicate (m + 2 - 1) 0) 0 = .ok c by rfl, Go.ok_bind, List.foldl_cons]
  simp only [lt_self_iff_false, if_false]
  have := foldl_zeros (fun b v => decide (v < b)) m c (by decide)
  simp only [decide_eq_true_eq] at this
  rw [show m + 2 - 1 = m + 1 by omega, this, Go.pure_eq]
  congr 1
  split <;> omega

/-- Continuation-passing application; the kernel evaluates the argument first. -/
def force {α : Type} (n : Nat) (k : Nat → α) : α := match n with | 0 => k 0 | m + 1 => k (m + 1)

theorem force_eq {α : Type} (n : Nat) (k : Nat → α) : force n k = k n := by cases n <;> rfl

/-- The same for an integer. -/
def forceI {α : Type} (a : Int) (k : Int → α) : α :=
  match a with
  | .ofNat n => force n fun m => k (.ofNat m)
  | .negSucc n => force n fun m => k (.negSucc m)

theorem forceI_eq {α : Type} (a : Int) (k : Int → α) : forceI a k = k a := by
  cases a with
  | ofNat n => exact force_eq n fun m => k (.ofNat m)
  | negSucc n => exact force_eq n fun m => k (.negSucc m)

/-- The binary logarithm of a number below `2^(2^(k+1))`. -/
def lg : Nat → Nat → Nat
  | 0, v => if v < 2 then 0 else 1
  | k + 1, v => if v < 2 ^ 2 ^ (k + 1) then lg k v else force (lg k (v >>> 2 ^ (k + 1))) fun r => 2 ^ (k + 1) + r

theorem lg_spec (k v : Nat) (h0 : 0 < v) (h : v < 2 ^ 2 ^ (k + 1)) : 2 ^ lg k v ≤ v ∧ v < 2 ^ (lg k v + 1) := by
  induction k generalizing v with
  | zero =>
    unfold lg
    norm_num at h
    split <;> omega
  | succ k ih =>
    rw [lg]
    split
    · rename_i h1
      exact ih v h0 h1
    · rename_i h1
      rw [force_eq, Nat.shiftRight_eq_div_pow]
      have hp : 0 < 2 ^ 2 ^ (k + 1) := by positivity
      obtain ⟨i1, i2⟩ := ih (v / 2 ^ 2 ^ (k + 1)) (Nat.div_pos (not_lt.1 h1) hp) (by
        rw [Nat.div_lt_iff_lt_mul hp, ← pow_add, ← two_mul, ← pow_succ']
        exact h)
      constructor
      · rw [pow_add, mul_comm]
        exact (Nat.le_div_iff_mul_le hp).1 i1
      · rw [show 2 ^ (k + 1) + lg k (v / 2 ^ 2 ^ (k + 1)) + 1 = (lg k (v / 2 ^ 2 ^ (k + 1)) + 1) + 2 ^ (k + 1) by ring, pow_add]
        exact (Nat.div_lt_iff_lt_mul hp).1 i2

/-- `bitsize` through the binary logarithm. -/
def sBits (a : Int) : Nat :=
  if a = 0 then 0 else if a.natAbs < 2 ^ 2 ^ 14 then 8 * (lg 13 a.natAbs / 8 + 1) else bitsize a

/-- The size that `reduce` computes. -/
def sSize (a b : Int) : Nat := max 53 (max (sBits a) (sBits b))

theorem sBits_eq (a : Int) : sBits a = bitsize a := by
  obtain ⟨⟨c, hc⟩, h2, h3⟩ := bitsizeLoop_spec a.natAbs
  unfold sBits
  split
  · rename_i h
    subst h
    unfold bitsize bitsizeLoop
    simp
  rename_i h
  split
  · rename_i h4
    obtain ⟨lo, hi⟩ := lg_spec 13 _ (by omega) h4
    unfold bitsize
    apply le_antisymm
    · have : lg 13 a.natAbs < bitsizeLoop a.natAbs := (Nat.pow_lt_pow_iff_right (by decide)).1 (lo.trans_lt h2)
      omega
    · refine h3 _ (Dvd.intro _ rfl) (hi.trans_le (Nat.pow_le_pow_right (by decide) ?_))
      omega
  · rfl

theorem bitsize_zero : bitsize 0 = 0 := by
  unfold bitsize bitsizeLoop
  simp

theorem size_cst (n : Nat) (hn : 2 ≤ n) (a b : Int) : sizeOf2 (cst n a) (cst n b) = .ok (sSize a b) := by
  unfold sizeOf2
  rw [min_cst n hn, max_cst n hn, min_cst n hn, max_cst n hn]
  simp only [Go.ok_bind]
  have h : ∀ c : Int, (bitsize (min c 0) = bitsize c ∧ bitsize (max c 0) = 0) ∨ (bitsize (min c 0) = 0 ∧ bitsize (max c 0) = bitsize c) := by
    intro c
    rcases le_total c 0 with h | h
    · left; rw [min_eq_left h, max_eq_right h, bitsize_zero]; exact ⟨rfl, rfl⟩
    · right; rw [min_eq_right h, max_eq_left h, bitsize_zero]; exact ⟨rfl, rfl⟩
  have ha := h a
  have hb := h b
  unfold sSize
  rw [sBits_eq, sBits_eq]
  generalize bitsize (min a 0) = p1 at *
  generalize bitsize (max a 0) = p2 at *
  generalize bitsize (min b 0) = p3 at *
  generalize bitsize (max b 0) = p4 at *
  generalize bitsize a = p5 at *
  generalize bitsize b = p6 at *
  unfold goMax
  rw [show idx [(53 : Int), (p1 : Int), (p2 : Int), (p3 : Int), (p4 : Int)] 0 = .ok 53 by rfl]
  simp only [Go.ok_bind, List.foldl_cons, List.foldl_nil, Go.pure_eq, Go.ok.injEq]
  repeat' split
  all_goals omega

/-! ### Babai's coefficient -/

/-- The leading bits of a coefficient, as `reduce` converts them. -/
def sAdj (size : Nat) (c : Int) : F64 := ieeeOps.ofInt (bigInt64 (c >>> (size - 53)))

theorem bigInt64_le (x : Int) : |(bigInt64 x : ℚ)| ≤ 2 ^ 63 := by
  have h : -2 ^ 63 ≤ bigInt64 x ∧ bigInt64 x ≤ 2 ^ 63 := by
    unfold bigInt64 i64
    simp only [Int.bmod_def]
    split <;> split <;> (try split) <;> omega
  rw [abs_le]
  constructor
  · have : ((-2 ^ 63 : Int) : ℚ) ≤ bigInt64 x := by exact_mod_cast h.1
    push_cast at this; exact this
  · have : (bigInt64 x : ℚ) ≤ ((2 ^ 63 : Int) : ℚ) := by exact_mod_cast h.2
    push_cast at this; exact this

theorem lim_ge : (2 : ℚ) ^ 200 ≤ lim := by
  unfold lim
  rw [← zpow_natCast]
  exact zpow_le_zpow_right₀ (by norm_num) (by norm_num)

/-- The value of the converted bits. -/
def adjV (size : Nat) (c : Int) : ℚ := rd ((bigInt64 (c >>> (size - 53)) : Int) : ℚ)

theorem is_sAdj (size : Nat) (c : Int) : Is (sAdj size c) (adjV size c) ∧ Rp (adjV size c) ∧ |adjV size c| ≤ 2 ^ 65 := by
  have h := bigInt64_le (c >>> (size - 53))
  have h2 : |(bigInt64 (c >>> (size - 53)) : ℚ)| ≤ lim := h.trans (le_trans (by norm_num) lim_ge)
  refine ⟨is_ofRat_le _ h2, rp_rd _, ?_⟩
  have := rd_le _ h2
  unfold adjV
  refine this.trans ?_
  linarith

theorem adjust_cst (n size : Nat) (c : Int) : List.Forall₂ Is (adjust ieeeOps size (cst n c)) (cst n (adjV size c)) := by
  have h0 : ieeeOps.ofInt (bigInt64 ((0 : Int) >>> (size - 53))) = .zero false := by
    rw [Int.zero_shiftRight]
    decide +kernel
  unfold adjust cst
  rw [List.map_cons, List.map_replicate, h0]
  refine .cons (is_sAdj size c).1 ?_
  generalize n - 1 = m
  induction m with
  | zero => exact .nil
  | succ m ih => exact .cons (.inl ⟨rfl, _, rfl⟩) ih

/-- Lists of equal complex numbers with imaginary part zero. -/
def AllC (n : Nat) (v : ℚ) (c : List (F64 × F64)) : Prop := c.length = n ∧ ∀ z ∈ c, Cst v z

theorem zipWith_all {n : Nat} {u v w : ℚ} (op : F64 × F64 → F64 × F64 → F64 × F64) (hop : ∀ x y, Cst u x → Cst v y → Cst w (op x y))
    {a b : List (F64 × F64)} (ha : AllC n u a) (hb : AllC n v b) : AllC n w (List.zipWith op a b) := by
  refine ⟨by rw [List.length_zipWith, ha.1, hb.1, min_self], ?_⟩
  intro z hz
  obtain ⟨i, hi, rfl⟩ := List.getElem_of_mem hz
  rw [List.getElem_zipWith]
  exact hop _ _ (ha.2 _ (List.getElem_mem _)) (hb.2 _ (List.getElem_mem _))

theorem AllC.adj {n : Nat} {u : ℚ} {a : List (F64 × F64)} (ha : AllC n u a) : AllC n u (AdjFFT ieeeOps a) := by
  refine ⟨by unfold AdjFFT; rw [List.length_map]; exact ha.1, ?_⟩
  intro z hz
  obtain ⟨x, hx, rfl⟩ := List.mem_map.1 hz
  exact (ha.2 x hx).conj

theorem AllC.mul {n : Nat} {u v : ℚ} {a b : List (F64 × F64)} (ha : AllC n u a) (hb : AllC n v b) (h : |u * v| ≤ 2 ^ 198) :
    ∃ c, MulFFT ieeeOps a b = .ok c ∧ AllC n (rd (u * v)) c := by
  unfold MulFFT
  rw [if_neg (by rw [ha.1, hb.1]; omega)]
  refine ⟨_, rfl, zipWith_all _ (fun x y hx hy => hx.mul hy (h.trans ?_) two_le_lim) ha hb⟩
  have := lim_ge
  linarith

theorem AllC.add {n : Nat} {u v : ℚ} {a b : List (F64 × F64)} (ha : AllC n u a) (hb : AllC n v b) (h : |u + v| ≤ 2 ^ 200) :
    ∃ c, AddFFT ieeeOps a b = .ok c ∧ AllC n (rd (u + v)) c := by
  unfold AddFFT
  rw [if_neg (by rw [ha.1, hb.1]; simp)]
  exact ⟨_, rfl, zipWith_all _ (fun x y hx hy => hx.add hy (h.trans lim_ge)) ha hb⟩

theorem AllC.div {n : Nat} {u v : ℚ} {a b : List (F64 × F64)} (ha : AllC n u a) (hb : AllC n v b) (h0 : v ≠ 0) (hu : Rp u) (hv : Rp v)
    (bu : |u| ≤ 2 ^ 200) (bv : |v| ≤ 2 ^ 200) (h : |u / v| ≤ 2 ^ 200) : ∃ c, DivFFT ieeeOps a b = .ok c ∧ AllC n (rd (u / v)) c := by
  unfold DivFFT
  rw [if_neg (by rw [ha.1, hb.1]; simp)]
  exact ⟨_, rfl, zipWith_all _ (fun x y hx hy => hx.div hy h0 hu hv (bu.trans lim_ge) (bv.trans lim_ge) (h.trans lim_ge)) ha hb⟩

/-- The numerator and the denominator of Babai's coefficient. -/
def sNum (fa ga Fa Ga : F64) : F64 := F64.add (F64.mul Fa fa) (F64.mul Ga ga)

/-- Babai's coefficient. -/
def sBabai (fa ga Fa Ga : F64) : Int := toI64 (F64.round (F64.div (sNum fa ga Fa Ga) (sNum fa ga fa ga)))

/-- Rounding to an integer does not depend on the sign of a zero. -/
theorem toInt_is {a b : F64} {v : ℚ} (ha : Is a v) (hb : Is b v) : toI64 (F64.round a) = toI64 (F64.round b) := by
  rcases ha with ⟨h0, s, rfl⟩ | ⟨h0, rfl⟩
  · rcases hb with ⟨-, t, rfl⟩ | ⟨h1, -⟩
    · rfl
    · exact absurd h0 h1
  · rcases hb with ⟨h1, -⟩ | ⟨-, rfl⟩
    · exact absurd h1 h0
    · rfl

theorem round_cst (n : Nat) (v : ℚ) (r : List F64) (h : List.Forall₂ Is r (cst n v)) (a : F64) (ha : Is a v) :
    RoundAll ieeeOps r = cst n (toI64 (F64.round a)) := by
  unfold cst at h ⊢
  generalize n - 1 = m at h ⊢
  cases h with | @cons x _ xs _ hx h =>
  unfold RoundAll
  rw [List.map_cons]
  congr 1
  · exact toInt_is hx ha
  · induction m generalizing xs with
    | zero => cases h; rfl
    | succ m ih =>
      rw [List.replicate_succ] at h ⊢
      cases h with | @cons y _ ys _ hy h =>
      rw [List.map_cons, ih h]
      congr 1
      have hz : Is (.zero false) 0 := .inl ⟨rfl, _, rfl⟩
      exact (toInt_is hy hz).trans (by decide +kernel)

theorem sNum_is {fa ga Fa Ga : F64} {a b A B : ℚ} (ha : Is fa a) (hb : Is ga b) (hA : Is Fa A) (hB : Is Ga B) (ba : |a| ≤ 2 ^ 65) (bb : |b| ≤ 2 ^ 65)
    (bA : |A| ≤ 2 ^ 65) (bB : |B| ≤ 2 ^ 65) :
    |A * a| ≤ 2 ^ 130 ∧ |B * b| ≤ 2 ^ 130 ∧ |rd (A * a) + rd (B * b)| ≤ 2 ^ 133 ∧ |rd (rd (A * a) + rd (B * b))| ≤ 2 ^ 135 ∧
      Is (sNum fa ga Fa Ga) (rd (rd (A * a) + rd (B * b))) := by
  have L := lim_ge
  have m1 : |A * a| ≤ 2 ^ 130 := by
    rw [abs_mul]
    have := mul_le_mul bA ba (abs_nonneg a) (by norm_num)
    refine this.trans (by norm_num)
  have m2 : |B * b| ≤ 2 ^ 130 := by
    rw [abs_mul]
    have := mul_le_mul bB bb (abs_nonneg b) (by norm_num)
    refine this.trans (by norm_num)
  have l1 : |A * a| ≤ lim := m1.trans (le_trans (by norm_num) L)
  have l2 : |B * b| ≤ lim := m2.trans (le_trans (by norm_num) L)
  have r1 := rd_le _ l1
  have r2 := rd_le _ l2
  have s : |rd (A * a) + rd (B * b)| ≤ 2 ^ 133 := by
    refine (abs_add_le _ _).trans ?_
    linarith
  have ls : |rd (A * a) + rd (B * b)| ≤ lim := s.trans (le_trans (by norm_num) L)
  have r3 := rd_le _ ls
  exact ⟨m1, m2, s, by linarith, (hA.mul ha l1).add (hB.mul hb l2) ls⟩

theorem babai_cst (k : Nat) (h1 : 1 ≤ k) (h2 : k ≤ 10) {fa ga Fa Ga : F64} {a b A B : ℚ} (ha : Is fa a) (hb : Is ga b) (hA : Is Fa A) (hB : Is Ga B)
    (pA : Rp A) (pB : Rp B) (ba : |a| ≤ 2 ^ 65) (bb : |b| ≤ 2 ^ 65) (bA : |A| ≤ 2 ^ 65) (bB : |B| ≤ 2 ^ 65) (hd : 1 ≤ (sNum fa ga fa ga).val)
    (f g : List (F64 × F64)) (hf : AllC (2 ^ k) a f) (hg : AllC (2 ^ k) b g) (F G : List F64) (hF : List.Forall₂ Is F (cst (2 ^ k) A))
    (hG : List.Forall₂ Is G (cst (2 ^ k) B)) : babai ieeeOps f g F G = .ok (cst (2 ^ k) (sBabai fa ga Fa Ga)) := by
  have L := lim_ge
  have e65 : (2 : ℚ) ^ 65 ≤ lim := le_trans (by norm_num) L
  obtain ⟨c1, e1, l1, q1⟩ := FFT_cst k h1 h2 A pA (bA.trans e65) F hF
  obtain ⟨c2, e2, l2, q2⟩ := FFT_cst k h1 h2 B pB (bB.trans e65) G hG
  have s1 : AllC (2 ^ k) A c1 := ⟨l1, q1⟩
  have s2 : AllC (2 ^ k) B c2 := ⟨l2, q2⟩
  obtain ⟨d1, d2, d3, d4, d5⟩ := sNum_is ha hb ha hb ba bb ba bb
  obtain ⟨n1, n2, n3, n4, n5⟩ := sNum_is ha hb hA hB ba bb bA bB
  rw [d5.val] at hd
  set D := rd (rd (a * a) + rd (b * b)) with hD
  set N := rd (rd (A * a) + rd (B * b)) with hN
  have D0 : D ≠ 0 := by linarith
  have hq : |N / D| ≤ 2 ^ 135 := by
    rw [abs_div, abs_of_pos (by linarith : 0 < D)]
    exact (div_le_self (abs_nonneg _) hd).trans n4
  obtain ⟨x1, y1, z1⟩ := hf.mul hf.adj (d1.trans (by norm_num))
  obtain ⟨x2, y2, z2⟩ := hg.mul hg.adj (d2.trans (by norm_num))
  obtain ⟨x3, y3, z3⟩ := z1.add z2 (d3.trans (by norm_num))
  obtain ⟨x4, y4, z4⟩ := s1.mul hf.adj (n1.trans (by norm_num))
  obtain ⟨x5, y5, z5⟩ := s2.mul hg.adj (n2.trans (by norm_num))
  obtain ⟨x6, y6, z6⟩ := z4.add z5 (n3.trans (by norm_num))
  obtain ⟨x7, y7, z7⟩ := z6.div z3 D0 (rp_rd _) (rp_rd _) (n4.trans (by norm_num)) (d4.trans (by norm_num)) (hq.trans (by norm_num))
  have lq : |N / D| ≤ lim := hq.trans (le_trans (by norm_num) L)
  have rq := rd_le _ lq
  obtain ⟨r, e8, hr⟩ := IFFT_cst k h1 h2 _ (rp_rd (N / D)) (by linarith) x7 z7.1 z7.2
  unfold babai
  rw [e1, Go.ok_bind, e2, Go.ok_bind, y1, Go.ok_bind, y2, Go.ok_bind, y3, Go.ok_bind, y4, Go.ok_bind, y5, Go.ok_bind, y6, Go.ok_bind, y7, Go.ok_bind, e8,
    Go.ok_bind, Go.pure_eq, round_cst _ _ r hr _ (n5.div d5 D0 lq)]
  rfl

/-! ### `reduce` and `NtruSolve` -/

/-- The loop of `reduce` on constants; `none` if the number of iterations is not enough. -/
def sLoop (f g : Int) (size : Nat) : Nat → Int → Int → Option (Int × Int)
  | 0, _, _ => none
  | fuel + 1, F, G =>
    force (sSize F G) fun S =>
    if S < size then some (F, G)
    else
      forceI (sBabai (sAdj size f) (sAdj size g) (sAdj S F) (sAdj S G)) fun q =>
      if q = 0 then some (F, G)
      else forceI (F - 2 ^ (S - size) * (f * q)) fun F' => forceI (G - 2 ^ (S - size) * (g * q)) fun G' => sLoop f g size fuel F' G'

/-- `reduce` on constants. -/
def sReduce (fuel : Nat) (f g F G : Int) : Option (Int × Int) :=
  force (sSize f g) fun size =>
  if (sNum (sAdj size f) (sAdj size g) (sAdj size f) (sAdj size g)).val < 1 then none else sLoop f g size fuel F G

/-- `NtruSolve` on constants with `2^k` coefficients. -/
def sSolve : Nat → Nat → Int → Int → Option (Int × Int)
  | _, 0, _, _ => none
  | 0, _ + 1, f, g =>
    let r := xgcd f g
    if bigInt64 r.1 ≠ 1 then none else some (-Q * r.2.2, Q * r.2.1)
  | k + 1, fuel + 1, f, g =>
    forceI (f * f) fun f2 => forceI (g * g) fun g2 =>
    match sSolve k fuel f2 g2 with
    | none => none
    | some r => forceI (r.1 * g) fun F => forceI (r.2 * f) fun G => sReduce (fuel + 1) f g F G

theorem allZeroes_cst (n : Nat) (q : Int) : allZeroes (cst n q) = decide (q = 0) := by
  have h : ∀ m, allZeroes (List.replicate m 0) = true := by
    intro m
    induction m with
    | zero => rfl
    | succ m ih => rw [List.replicate_succ, allZeroes, if_neg (by simp), ih]
  unfold cst
  rw [allZeroes, h]
  by_cases hq : q = 0 <;> simp [hq]

theorem loop_cst (k : Nat) (h1 : 1 ≤ k) (h2 : k ≤ 10) (f g : Int) (size : Nat)
    (hd : 1 ≤ (sNum (sAdj size f) (sAdj size g) (sAdj size f) (sAdj size g)).val) (fa ga : List (F64 × F64)) (hf : AllC (2 ^ k) (adjV size f) fa)
    (hg : AllC (2 ^ k) (adjV size g) ga) (fuel : Nat) (F G : Int) (r : Int × Int) (h : sLoop f g size fuel F G = some r) :
    reduceLoop ieeeOps (cst (2 ^ k) f) (cst (2 ^ k) g) size fa ga fuel (cst (2 ^ k) F) (cst (2 ^ k) G) = .ok (cst (2 ^ k) r.1, cst (2 ^ k) r.2) := by
  have hp : 2 ^ 1 ≤ 2 ^ k := Nat.pow_le_pow_right (by omega) h1
  induction fuel generalizing F G with
  | zero => cases h
  | succ fuel ih =>
    rw [reduceLoop, size_cst _ (by omega), Go.ok_bind]
    rw [sLoop] at h
    simp only [force_eq, forceI_eq] at h
    split at h
    · rename_i hs
      rw [if_pos hs]
      have := Option.some.inj h
      subst this
      rfl
    rename_i hs
    obtain ⟨a1, a2, a3⟩ := is_sAdj size f
    obtain ⟨b1, b2, b3⟩ := is_sAdj size g
    obtain ⟨A1, A2, A3⟩ := is_sAdj (sSize F G) F
    obtain ⟨B1, B2, B3⟩ := is_sAdj (sSize F G) G
    rw [if_neg hs, babai_cst k h1 h2 a1 b1 A1 B1 A2 B2 a3 b3 A3 B3 hd fa ga hf hg _ _ (adjust_cst _ _ F) (adjust_cst _ _ G), Go.ok_bind, allZeroes_cst]
    split at h
    · rename_i hz
      rw [if_pos (by simpa using hz)]
      have := Option.some.inj h
      subst this
      rfl
    rename_i hz
    rw [if_neg (by simpa using hz), karamul_cst, Go.ok_bind, karamul_cst, Go.ok_bind, cst_length _ (by omega), sub_cst _ (by omega), Go.ok_bind,
      sub_cst _ (by omega), Go.ok_bind]
    exact ih _ _ h

theorem reduce_cst (k : Nat) (h1 : 1 ≤ k) (h2 : k ≤ 10) (f g F G : Int) (fuel : Nat) (r : Int × Int) (h : sReduce fuel f g F G = some r) :
    reduce ieeeOps fuel (cst (2 ^ k) f) (cst (2 ^ k) g) (cst (2 ^ k) F) (cst (2 ^ k) G) = .ok (cst (2 ^ k) r.1, cst (2 ^ k) r.2) := by
  have hp : 2 ^ 1 ≤ 2 ^ k := Nat.pow_le_pow_right (by omega) h1
  have e65 : (2 : ℚ) ^ 65 ≤ lim := le_trans (by norm_num) lim_ge
  unfold sReduce at h
  simp only [force_eq] at h
  split at h
  · cases h
  rename_i hd
  obtain ⟨-, a2, a3⟩ := is_sAdj (sSize f g) f
  obtain ⟨-, b2, b3⟩ := is_sAdj (sSize f g) g
  obtain ⟨c1, e1, l1, q1⟩ := FFT_cst k h1 h2 _ a2 (a3.trans e65) _ (adjust_cst (2 ^ k) (sSize f g) f)
  obtain ⟨c2, e2, l2, q2⟩ := FFT_cst k h1 h2 _ b2 (b3.trans e65) _ (adjust_cst (2 ^ k) (sSize f g) g)
  unfold reduce
  rw [size_cst _ (by omega), Go.ok_bind, e1, Go.ok_bind, e2, Go.ok_bind]
  exact loop_cst k h1 h2 f g _ (not_lt.1 hd) c1 c2 ⟨l1, q1⟩ ⟨l2, q2⟩ fuel F G r h

theorem solve_cst (k : Nat) (h2 : k ≤ 10) (fuel : Nat) (f g : Int) (r : Int × Int) (h : sSolve k fuel f g = some r) :
    NtruSolve ieeeOps fuel (cst (2 ^ k) f) (cst (2 ^ k) g) = .ok (some (cst (2 ^ k) r.1, cst (2 ^ k) r.2)) := by
  induction k generalizing fuel f g r with
  | zero =>
    rcases fuel with _ | fuel
    · simp [sSolve] at h
    rw [sSolve] at h
    split at h
    · cases h
    rename_i hd
    have := Option.some.inj h
    subst this
    rw [NtruSolve, if_pos (by rfl), show idx (cst (2 ^ 0) f) 0 = .ok f by rfl, Go.ok_bind, show idx (cst (2 ^ 0) g) 0 = .ok g by rfl, Go.ok_bind]
    show (if bigInt64 (xgcd f g).1 ≠ 1 then pure none else pure (some ([-Q * (xgcd f g).2.2], [Q * (xgcd f g).2.1]))) = _
    rw [if_neg hd]
    rfl
  | succ k ih =>
    rcases fuel with _ | fuel
    · simp [sSolve] at h
    have hp : 1 ≤ 2 ^ k := Nat.one_le_two_pow
    rw [sSolve] at h
    simp only [forceI_eq] at h
    rcases hs : sSolve k fuel (f * f) (g * g) with _ | p
    · rw [hs] at h; cases h
    rw [hs] at h
    simp only at h
    rw [NtruSolve, if_neg (by rw [cst_length _ Nat.one_le_two_pow, pow_succ]; omega), fieldNorm_cst, Go.ok_bind, fieldNorm_cst, Go.ok_bind,
      ih (by omega) fuel _ _ p hs, Go.ok_bind]
    simp only
    rw [lift_cst _ hp, lift_cst _ hp, galois_cst, galois_cst, show 2 * 2 ^ k = 2 ^ (k + 1) by ring, karamul_cst, Go.ok_bind, karamul_cst, Go.ok_bind,
      reduce_cst (k + 1) (by omega) h2 f g _ _ _ r h]
    rfl

end Falcon
