import Verif.Lemmas.Int32
/-!
# Evaluating the ring operations with a 32-bit `int`

Certificates, checked by computation on natural numbers, for the result of `MulZq` with 32-bit arithmetic on given vectors.
-/

namespace Falcon
open Spec Polynomial

/-- The residue modulo 12289 of the signed 32-bit number with bits `u`. -/
def fix32 (u : Nat) : Nat := if u < 2147483648 then u % 12289 else (u + 1337) % 12289

/-- The residue of `(a-b)*c` computed in 32 bits. -/
def diff32 (a b c : Nat) : Nat := fix32 ((a + 4294967296 - b) * c % 4294967296)

theorem diff32_spec (a b c : Nat) (hb : b < 12289) : ((((a : Int) - b) * c).bmod (2 ^ 32)) % 12289 = (diff32 a b c : Int) := by
  have e : ((((a + 4294967296 - b) * c % 4294967296 : Nat)) : Int) = (((a : Int) - b) * c) % 4294967296 := by
    push_cast
    rw [Nat.cast_sub (by omega)]
    push_cast
    rw [show ((a : Int) + 4294967296 - b) * c = ((a : Int) - b) * c + 4294967296 * c by ring, Int.add_mul_emod_self_left]
  unfold diff32
  rw [Int.bmod_def]
  generalize (a + 4294967296 - b) * c % 4294967296 = u at e ⊢
  norm_num
  rw [← e]
  unfold fix32
  split <;> split <;> push_cast <;> omega

/-- The steps of `SplitNTT` on `f`, with roots `w`, give `f0` and `f1`. -/
def chk32 : List Nat → List Nat → List Nat → List Nat → Bool
  | a :: _ :: w, x :: y :: f, s :: f0, t :: f1 =>
    decide (0 < a) && decide (a < 12289) && a * (a ^ 12287 % 12289) % 12289 == 1 && decide (x < 12289) && decide (y < 12289) &&
      (x + y) * 6145 % 12289 == s && diff32 x y (6145 * (a ^ 12287 % 12289)) == t && chk32 w f f0 f1
  | [], [], [], [] => true
  | _, _, _, _ => false

/-- `int16` from small numbers. -/
def toI16 (l : List Nat) : List Int16 := l.map Int16.ofNat

theorem ofNat_toInt (x : Nat) (h : x < 12289) : (Int16.ofNat x).toInt = x := by
  rw [Int16.toInt_ofNat', Int.bmod_def]
  norm_num
  omega

theorem reduceQ_nat {y : Int} {x : Nat} (h : y % 12289 = x) : reduceQ y = Int16.ofNat x := by
  apply Int16.toInt_inj.1
  rw [reduceQ_toInt, ofNat_toInt x (by omega), h]

theorem inv_unique {a v u : Nat} (hv : a * v % 12289 = 1) (hu : a * u % 12289 = 1) (lv : v < 12289) (lu : u < 12289) : v = u := by
  have h1 := inv_cast hv
  have h2 := inv_cast hu
  have h3 : (v : Zq) = u := by
    calc (v : Zq) = (a * u) * v := by rw [h2, one_mul]
      _ = (a * v) * u := by ring
      _ = u := by rw [h1, one_mul]
  have := (ZMod.natCast_eq_natCast_iff' v u 12289).1 h3
  omega

theorem chk32_spec : ∀ w f f0 f1 : List Nat, chk32 w f f0 f1 = true → splitLoop wrap32 w (toI16 f) = .ok (toI16 f0, toI16 f1) := by
  intro w f f0 f1
  have hW := wrap32_good
  fun_induction chk32 w f f0 f1 with
  | case1 a b w x y f s f0 t f1 ih =>
    intro h
    simp only [Bool.and_eq_true, decide_eq_true_eq, beq_iff_eq] at h
    obtain ⟨⟨⟨⟨⟨⟨⟨h1, h2⟩, h3⟩, h4⟩, h5⟩, h6⟩, h7⟩, h8⟩ := h
    obtain ⟨v, hv, hv1, hv2⟩ := inv_spec h1 h2
    have ev : v = a ^ 12287 % 12289 := inv_unique hv1 h3 hv2 (Nat.mod_lt _ (by norm_num))
    rw [← ev] at h7
    have h0 : idx (a :: b :: w) 0 = .ok a := rfl
    have i1 := ih h8
    show splitLoop wrap32 (a :: b :: w) (Int16.ofNat x :: Int16.ofNat y :: toI16 f) = _
    have hd := diff32_spec x y (6145 * v) h5
    push_cast at hd
    rw [splitLoop, ofNat_toInt x h4, ofNat_toInt y h5, hW _ (by omega) (by omega), Go.ok_bind, show i2 = 6145 from rfl,
      hW _ (by omega) (by omega), Go.ok_bind, hW _ (by omega) (by omega), Go.ok_bind, hW _ (by omega) (by omega), Go.ok_bind, h0, Go.ok_bind,
      hv, Go.ok_bind, wrap32, Go.ok_bind, show List.drop 2 (a :: b :: w) = w from rfl, i1, Go.ok_bind,
      reduceQ_nat (x := s) (by rw [← h6]; push_cast; rfl), reduceQ_nat (x := t) (by rw [← h7, ← hd]; ring_nf)]
    rfl
  | case2 => intro _; simp [toI16, splitLoop]
  | case3 => intro h; simp at h

/-- The intermediate values of `INTT` with 32-bit arithmetic. -/
inductive Cert where
  | leaf (a b x y : Nat)
  | node (f : List Nat) (l r : Cert)

/-- The input of the transform. -/
def Cert.val : Cert → List Nat
  | .leaf a b _ _ => [a, b]
  | .node f _ _ => f

/-- Interleaving. -/
def weave : List Nat → List Nat → List Nat
  | a :: l, b :: r => a :: b :: weave l r
  | _, _ => []

/-- Its output. -/
def Cert.out : Cert → List Nat
  | .leaf _ _ x y => [x, y]
  | .node _ l r => weave l.out r.out

/-- The values are right, at degree `2^k`. -/
def Cert.ok : Nat → Cert → Bool
  | 1, .leaf a b x y => decide (a < 12289) && decide (b < 12289) && (a + b) * 6145 % 12289 == x && diff32 a b 66427450 == y
  | k + 2, .node f l r => f.length == 2 ^ (k + 2) && chk32 (level (k + 2)) f l.val r.val && l.ok (k + 1) && r.ok (k + 1)
  | _, _ => false

theorem weave_spec (f0 f1 : List Nat) (h : f0.length = f1.length) : mergePolys (toI16 f0) (toI16 f1) = .ok (toI16 (weave f0 f1)) := by
  induction f0 generalizing f1 with
  | nil => cases f1 <;> simp [toI16, mergePolys, weave]
  | cons a f0 ih =>
    cases f1 with
    | nil => simp at h
    | cons b f1 =>
      have := ih f1 (by simpa using h)
      simp only [toI16, List.map_cons, mergePolys, weave] at this ⊢
      rw [this]
      rfl

theorem weave_length (f0 f1 : List Nat) (h : f0.length = f1.length) : (weave f0 f1).length = 2 * f0.length := by
  induction f0 generalizing f1 with
  | nil => cases f1 <;> rfl
  | cons a f0 ih =>
    cases f1 with
    | nil => simp at h
    | cons b f1 =>
      simp only [weave, List.length_cons]
      rw [ih f1 (by simpa using h)]
      ring

theorem Cert.ok_spec (k : Nat) (c : Cert) (h : c.ok k = true) : INTT wrap32 (toI16 c.val) = .ok (toI16 c.out) ∧ c.out.length = 2 ^ k := by
  have hW := wrap32_good
  fun_induction Cert.ok k c with
  | case1 a b x y =>
    simp only [Bool.and_eq_true, decide_eq_true_eq, beq_iff_eq] at h
    obtain ⟨⟨⟨h1, h2⟩, h3⟩, h4⟩ := h
    refine ⟨?_, rfl⟩
    have hi : idx inv_mod_q 1479 = .ok 10810 := by decide +kernel
    have hd := diff32_spec a b 66427450 h2
    push_cast at hd
    show INTT wrap32 [Int16.ofNat a, Int16.ofNat b] = .ok [Int16.ofNat x, Int16.ofNat y]
    rw [INTT]
    simp only [List.length_cons, List.length_nil, gt_iff_lt, Nat.reduceAdd, Nat.lt_irrefl, ↓reduceDIte]
    rw [ofNat_toInt a h1, ofNat_toInt b h2, hW _ (by omega) (by omega), Go.ok_bind, show i2 = 6145 from rfl, hW _ (by omega) (by omega), Go.ok_bind,
      hW _ (by omega) (by omega), Go.ok_bind, hi, Go.ok_bind, show (((10810 : Nat)) : Int) = 10810 from rfl,
      hW _ (by omega) (by omega), Go.ok_bind, wrap32, Go.ok_bind, reduceQ_nat (x := x) (by rw [← h3]; push_cast; rfl),
      reduceQ_nat (x := y) (by rw [← h4, ← hd]; ring_nf)]
    rfl
  | case2 k f l r ihl ihr =>
    simp only [Bool.and_eq_true, beq_iff_eq] at h
    obtain ⟨⟨⟨h1, h2⟩, h3⟩, h4⟩ := h
    obtain ⟨el, ll⟩ := ihl h3
    obtain ⟨er, lr⟩ := ihr h4
    have hp : 2 ^ 2 ≤ 2 ^ (k + 2) := Nat.pow_le_pow_right (by decide) (by omega)
    have hlen : (toI16 f).length = 2 ^ (k + 2) := by rw [toI16, List.length_map, h1]
    have hs : SplitNTT wrap32 (toI16 f) = .ok (toI16 l.val, toI16 r.val) := by
      unfold SplitNTT
      rw [hlen]
      have := chk32_spec _ _ _ _ h2
      unfold level at this
      exact this
    refine ⟨?_, ?_⟩
    · show INTT wrap32 (toI16 f) = .ok (toI16 (weave l.out r.out))
      rw [INTT, dif_pos (by rw [hlen]; omega)]
      split
      · rename_i s es
        rw [hs] at es
        cases es
        rw [el, er, Go.ok_bind, Go.ok_bind, weave_spec _ _ (ll.trans lr.symm)]
      · rename_i es; rw [hs] at es; cases es
      · rename_i es; rw [hs] at es; cases es
    · show (weave l.out r.out).length = _
      rw [weave_length _ _ (ll.trans lr.symm), ll, pow_succ 2 (k + 1)]
      ring
  | case3 => simp at h

/-- The value at `w` modulo 12289, by Horner's rule. -/
def horner (f : List Nat) (w : Nat) : Nat := f.foldr (fun a acc => (a + w * acc) % 12289) 0

/-- The natResidues of the coefficients. -/
def natResidues (f : List Int16) : List Nat := f.map fun x => (x.toInt % 12289).toNat

theorem horner_spec (f : List Int16) (w : Nat) : ((horner (natResidues f) w : Nat) : Zq) = (polyQ f).eval (w : Zq) := by
  induction f with
  | nil => simp [horner, natResidues, polyQ]
  | cons a f ih =>
    simp only [natResidues, List.map_cons, horner, List.foldr_cons, polyQ, poly_cons] at ih ⊢
    rw [ZMod.natCast_mod]
    push_cast
    rw [ih]
    have : ((((a.toInt % 12289).toNat : Nat)) : Zq) = zq a := by
      have h : (((a.toInt % 12289).toNat : Nat) : Int) = a.toInt % 12289 := Int.toNat_of_nonneg (Int.emod_nonneg _ (by norm_num))
      rw [← Int.cast_natCast (R := Zq), h]
      exact (ZMod.intCast_mod a.toInt 12289)
    rw [this]
    simp
    try ring

/-- The result of `MulZq` with a 32-bit `int`, from a certificate. -/
theorem MulZq_cert (k : Nat) (h1 : 1 ≤ k) (h : k ≤ 10) (f g : List Int16) (hf : f.length = 2 ^ k) (hg : g.length = 2 ^ k) (c : Cert)
    (hc : c.ok k = true) (hp : c.val = (level k).map fun w => horner (natResidues f) w * horner (natResidues g) w % 12289) :
    MulZq wrap32 f g = .ok (toI16 c.out) := by
  have hW := wrap32_good
  obtain ⟨F, eF, lF, rF, vF⟩ := NTT_spec wrap64_good k h1 h f hf
  obtain ⟨G, eG, lG, rG, vG⟩ := NTT_spec wrap64_good k h1 h g hg
  obtain ⟨P, eP, lP, rP, vP⟩ := mulLoop_spec wrap64_good F G (lF.trans lG.symm)
  have hv := vP _ _ _ vF vG
  have : P = toI16 c.val := by
    apply map_zq_inj rP
    · intro x hx
      rw [toI16, hp, List.map_map, List.mem_map] at hx
      obtain ⟨w, -, rfl⟩ := hx
      rw [Function.comp, ofNat_toInt _ (Nat.mod_lt _ (by norm_num))]
      have := Nat.mod_lt (horner (natResidues f) w * horner (natResidues g) w) (show 12289 > 0 by norm_num)
      omega
    · rw [hv, toI16, hp, rootsZ, wz, List.map_map, List.map_map, List.map_map]
      apply List.map_congr_left
      intro w _
      simp only [Function.comp]
      rw [← horner_spec, ← horner_spec]
      unfold zq
      rw [ofNat_toInt _ (Nat.mod_lt _ (by norm_num)), Int.cast_natCast, ZMod.natCast_mod]
      push_cast
      rfl
  unfold MulZq
  rw [NTT_32 hW, eF, Go.ok_bind, NTT_32 hW, eG, Go.ok_bind, mulNTT_32 hW, mulNTT, if_neg (by simpa using lF.trans lG.symm), eP, Go.ok_bind, this]
  exact (c.ok_spec k hc).1

end Falcon
