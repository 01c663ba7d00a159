import Verif.Model.Ntrugen
import Verif.Lemmas.Poly
import Verif.Spec.Ntru
/-! Lemmas about Karatsuba multiplication, the tower maps and xgcd. -/

namespace Falcon
open Spec Polynomial

theorem idx_ok {α : Type*} {l : List α} {i : Nat} (h : i < l.length) : idx l i = .ok l[i] := by
  simp [idx, h]

section
variable {R : Type*} [CommRing R]

theorem poly_replicate_zero (n : Nat) : poly (List.replicate n (0 : R)) = 0 := by
  induction n with
  | zero => rfl
  | succ n ih => simp [List.replicate_succ, ih]

theorem poly_modify (l : List R) (i : Nat) (v : R) (h : i < l.length) :
    poly (l.modify i (· + v)) = poly l + C v * X ^ i := by
  induction l generalizing i with
  | nil => simp at h
  | cons a l ih =>
    cases i with
    | zero => simp; ring
    | succ i =>
      simp only [List.length_cons] at h
      simp only [List.modify_succ_cons, poly_cons, ih i (by omega)]
      ring

theorem poly_zipWith_add (f g : List R) (h : f.length = g.length) :
    poly (List.zipWith (· + ·) f g) = poly f + poly g := by
  induction f generalizing g with
  | nil => cases g with
    | nil => simp
    | cons b g => simp at h
  | cons a f ih => cases g with
    | nil => simp at h
    | cons b g =>
      simp only [List.zipWith_cons_cons, poly_cons, ih g (by simpa using h), C_add]
      ring

theorem poly_take_drop (l : List R) (n : Nat) (h : n ≤ l.length) : poly l = poly (l.take n) + X ^ n * poly (l.drop n) := by
  conv_lhs => rw [← List.take_append_drop n l, poly_append]
  rw [List.length_take, Nat.min_eq_left h]

theorem poly_full (l : List R) (m : Nat) (h : l.length = m) : poly ((l.drop 0).take m) = poly l := by
  rw [List.drop_zero, List.take_of_length_le (by omega)]

theorem poly_window (l : List R) (i m : Nat) (h : i < l.length) :
    poly ((l.drop i).take (m + 1)) = C l[i] + X * poly ((l.drop (i + 1)).take m) := by
  rw [List.drop_eq_getElem_cons h, List.take_succ_cons, poly_cons]

end

theorem addAt_ok (l : List Int) (i : Nat) (v : Int) (h : i < l.length) :
    ∃ r, addAt l i v = .ok r ∧ r.length = l.length ∧ poly r = poly l + C v * X ^ i := by
  unfold addAt
  rw [if_pos h]
  exact ⟨_, rfl, by simp, poly_modify l i v h⟩

theorem addHalves_ok (a0 a1 : List Int) (m i : Nat) (h0 : i + m ≤ a0.length) (h1 : i + m ≤ a1.length) :
    ∃ r, addHalves a0 a1 m i = .ok r ∧ r.length = m ∧
      poly r = poly ((a0.drop i).take m) + poly ((a1.drop i).take m) := by
  induction m generalizing i with
  | zero => exact ⟨[], rfl, rfl, by simp⟩
  | succ m ih =>
    obtain ⟨r, hr, hl, hp⟩ := ih (i + 1) (by omega) (by omega)
    rw [addHalves, idx_ok (by omega), Go.ok_bind, idx_ok (by omega), Go.ok_bind, hr, Go.ok_bind]
    refine ⟨_, rfl, by simp [hl], ?_⟩
    rw [poly_window _ _ _ (by omega), poly_window _ _ _ (by omega), poly_cons, hp, C_add]
    ring

theorem karaCorrect_ok (x y : List Int) (m i : Nat) (z : List Int) (h0 : i + m ≤ x.length) (h1 : i + m ≤ y.length)
    (h2 : i + m ≤ z.length) : ∃ r, karaCorrect x y m i z = .ok r ∧ r.length = z.length ∧
      poly r = poly z - X ^ i * (poly ((x.drop i).take m) + poly ((y.drop i).take m)) := by
  induction m generalizing i z with
  | zero => exact ⟨z, rfl, rfl, by simp⟩
  | succ m ih =>
    obtain ⟨z', hz, hl, hp⟩ := addAt_ok z i (-(x[i]'(by omega) + y[i]'(by omega))) (by omega)
    obtain ⟨r, hr, hrl, hrp⟩ := ih (i + 1) z' (by omega) (by omega) (by omega)
    rw [karaCorrect, idx_ok (by omega), Go.ok_bind, idx_ok (by omega), Go.ok_bind, hz, Go.ok_bind]
    refine ⟨r, hr, hrl.trans hl, ?_⟩
    rw [poly_window _ _ _ (by omega), poly_window _ _ _ (by omega), hrp, hp, C_neg, C_add]
    ring

theorem karaCombine_ok (x y w : List Int) (n n2 m i : Nat) (ab : List Int) (h0 : i + m ≤ x.length) (h1 : i + m ≤ y.length)
    (h2 : i + m ≤ w.length) (h3 : i + m + n ≤ ab.length) (h4 : i + m + n2 ≤ ab.length) :
    ∃ r, karaCombine x y w n n2 m i ab = .ok r ∧ r.length = ab.length ∧
      poly r = poly ab + X ^ i * (poly ((x.drop i).take m) + X ^ n * poly ((y.drop i).take m)
        + X ^ n2 * poly ((w.drop i).take m)) := by
  induction m generalizing i ab with
  | zero => exact ⟨ab, rfl, rfl, by simp⟩
  | succ m ih =>
    obtain ⟨s1, e1, l1, p1⟩ := addAt_ok ab i (x[i]'(by omega)) (by omega)
    obtain ⟨s2, e2, l2, p2⟩ := addAt_ok s1 (i + n) (y[i]'(by omega)) (by omega)
    obtain ⟨s3, e3, l3, p3⟩ := addAt_ok s2 (i + n2) (w[i]'(by omega)) (by omega)
    obtain ⟨r, hr, hrl, hrp⟩ := ih (i + 1) s3 (by omega) (by omega) (by omega) (by omega) (by omega)
    rw [karaCombine, idx_ok (by omega), Go.ok_bind, e1, Go.ok_bind, idx_ok (by omega), Go.ok_bind, e2, Go.ok_bind,
      idx_ok (by omega), Go.ok_bind, e3, Go.ok_bind]
    refine ⟨r, hr, by omega, ?_⟩
    rw [poly_window _ _ _ (by omega), poly_window _ _ _ (by omega), poly_window _ _ _ (by omega), hrp, p3, p2, p1]
    ring

theorem slice_ok {α : Type*} (l : List α) (lo hi : Nat) (h1 : lo ≤ hi) (h2 : hi ≤ l.length) :
    slice l lo hi = .ok ((l.take hi).drop lo) := by
  simp [slice, h1, h2]

theorem Karatsuba_ok (k : Nat) (a b : List Int) (ha : a.length = 2 ^ k) (hb : b.length = 2 ^ k) :
    ∃ r, Karatsuba a b (2 ^ k) = .ok r ∧ r.length = 2 ^ (k + 1) ∧ poly r = poly a * poly b := by
  induction k generalizing a b with
  | zero =>
    match a, b, ha, hb with
    | [x], [y], _, _ =>
      rw [Karatsuba, if_pos (by simp)]
      exact ⟨[x * y, 0], rfl, rfl, by simp⟩
  | succ k ih =>
    have e := pow_succ 2 k
    have e' := pow_succ 2 (k + 1)
    have hp : 0 < 2 ^ k := Nat.two_pow_pos k
    rw [Karatsuba, if_neg (by omega), dif_neg (by omega)]
    have e2 : 2 ^ (k + 1) / 2 = 2 ^ k := by omega
    simp only [e2]
    rw [slice_ok a 0 _ (by omega) (by omega), Go.ok_bind, slice_ok a _ _ (by omega) (by omega), Go.ok_bind,
      slice_ok b 0 _ (by omega) (by omega), Go.ok_bind, slice_ok b _ _ (by omega) (by omega), Go.ok_bind]
    simp only [List.drop_zero, List.take_length]
    have la0 : (a.take (2 ^ k)).length = 2 ^ k := by rw [List.length_take]; omega
    have lb0 : (b.take (2 ^ k)).length = 2 ^ k := by rw [List.length_take]; omega
    have la1 : (a.drop (2 ^ k)).length = 2 ^ k := by rw [List.length_drop]; omega
    have lb1 : (b.drop (2 ^ k)).length = 2 ^ k := by rw [List.length_drop]; omega
    obtain ⟨ax, eax, lax, pax⟩ := addHalves_ok (a.take (2 ^ k)) (a.drop (2 ^ k)) (2 ^ k) 0 (by omega) (by omega)
    obtain ⟨bx, ebx, lbx, pbx⟩ := addHalves_ok (b.take (2 ^ k)) (b.drop (2 ^ k)) (2 ^ k) 0 (by omega) (by omega)
    obtain ⟨u, eu, lu, pu⟩ := ih _ _ la0 lb0
    obtain ⟨v, ev, lv, pv⟩ := ih _ _ la1 lb1
    obtain ⟨w, ew, lw, pw⟩ := ih _ _ lax lbx
    obtain ⟨w', ew', lw', pw'⟩ := karaCorrect_ok u v (2 ^ (k + 1)) 0 w (by omega) (by omega) (by omega)
    obtain ⟨r, er, lr, pr⟩ := karaCombine_ok u v w' (2 ^ (k + 1)) (2 ^ k) (2 ^ (k + 1)) 0
      (List.replicate (2 * 2 ^ (k + 1)) 0) (by omega) (by omega) (by omega)
      (by rw [List.length_replicate]; omega) (by rw [List.length_replicate]; omega)
    rw [eax, Go.ok_bind, ebx, Go.ok_bind, eu, Go.ok_bind, ev, Go.ok_bind, ew, Go.ok_bind, ew', Go.ok_bind]
    refine ⟨r, er, by rw [lr, List.length_replicate]; omega, ?_⟩
    rw [poly_take_drop a (2 ^ k) (by omega), poly_take_drop b (2 ^ k) (by omega)]
    rw [poly_full _ _ la0, poly_full _ _ la1] at pax
    rw [poly_full _ _ lb0, poly_full _ _ lb1] at pbx
    rw [poly_full _ _ lu, poly_full _ _ lv] at pw'
    rw [poly_full _ _ lu, poly_full _ _ lv, poly_full w' _ (by omega), poly_replicate_zero] at pr
    rw [pr, pw', pw, pax, pbx, pu, pv, e, pow_mul]
    ring

theorem foldLoop_ok (ab : List Int) (n m i : Nat) (h : i + m + n ≤ ab.length) :
    ∃ r, foldLoop ab n m i = .ok r ∧ r.length = m ∧
      poly r = poly ((ab.drop i).take m) - poly ((ab.drop (i + n)).take m) := by
  induction m generalizing i with
  | zero => exact ⟨[], rfl, rfl, by simp⟩
  | succ m ih =>
    obtain ⟨r, hr, hl, hp⟩ := ih (i + 1) (by omega)
    rw [foldLoop, idx_ok (by omega), Go.ok_bind, idx_ok (by omega), Go.ok_bind, hr, Go.ok_bind]
    refine ⟨_, rfl, by simp [hl], ?_⟩
    rw [poly_window _ _ _ (by omega), poly_window _ _ _ (by omega), poly_cons, hp, C_sub,
      show i + 1 + n = i + n + 1 by omega]
    ring

theorem karamul_ok (k : Nat) (a b : List Int) (ha : a.length = 2 ^ k) (hb : b.length = 2 ^ k) :
    ∃ r, karamul a b = .ok r ∧ r.length = 2 ^ k ∧ CongrZ (2 ^ k) (poly a * poly b) (poly r) := by
  have e := pow_succ 2 k
  obtain ⟨ab, h1, h2, h3⟩ := Karatsuba_ok k a b ha hb
  obtain ⟨r, h4, h5, h6⟩ := foldLoop_ok ab (2 ^ k) (2 ^ k) 0 (by omega)
  unfold karamul
  simp only [ha, h1, Go.ok_bind]
  refine ⟨r, h4, h5, ?_⟩
  unfold CongrZ
  rw [h6, ← h3, poly_take_drop ab (2 ^ k) (by omega), List.drop_zero, Nat.zero_add,
    List.take_of_length_le (l := ab.drop (2 ^ k)) (by rw [List.length_drop]; omega)]
  exact ⟨poly (ab.drop (2 ^ k)), by ring⟩

theorem poly_galois (a : List Int) : poly (galoisConjugate a) = (poly a).comp (-X) := by
  have key : ∀ (a : List Int) (s : Int), poly (a.mapIdx fun i v => (-1) ^ i * v * s) = C s * (poly a).comp (-X) := by
    intro a
    induction a with
    | nil => simp
    | cons x a ih =>
      intro s
      have h2 : (a.mapIdx fun i v => (-1) ^ (i + 1) * v * s) = a.mapIdx fun i v => (-1) ^ i * v * (-s) := by
        apply List.mapIdx_eq_mapIdx_iff.2
        intro i hi
        rw [pow_succ]; ring
      simp only [List.mapIdx_cons, poly_cons, pow_zero, one_mul, h2, ih (-s), add_comp, mul_comp, C_comp, X_comp, C_neg, C_mul]
      ring
  have := key a 1
  simpa [galoisConjugate] using this

theorem galois_length (a : List Int) : (galoisConjugate a).length = a.length := by simp [galoisConjugate]

theorem galois_galois (a : List Int) : galoisConjugate (galoisConjugate a) = a := by
  apply poly_injective (by simp [galois_length])
  rw [poly_galois, poly_galois, comp_assoc]
  simp

theorem lift_length (a : List Int) : (lift a).length = 2 * a.length := by
  induction a with
  | nil => rfl
  | cons x a ih => simp [lift] at ih ⊢; omega

theorem poly_lift (a : List Int) : poly (lift a) = (poly a).comp (X ^ 2) := by
  induction a with
  | nil => simp [lift]
  | cons x a ih =>
    have : lift (x :: a) = x :: 0 :: lift a := by simp [lift]
    rw [this, poly_cons, poly_cons, ih, poly_cons]
    simp
    ring

theorem poly_split {R : Type*} [CommRing R] (f : List R) (h : 2 ∣ f.length) :
    poly f = (poly (splitPolys f).1).comp (X ^ 2) + X * (poly (splitPolys f).2).comp (X ^ 2) := by
  induction f using List.twoStepInduction with
  | nil => simp [splitPolys]
  | singleton a => simp at h
  | cons_cons a b rest ih _ =>
    have := ih (by simp at h; omega)
    simp only [splitPolys, poly_cons, this]
    simp
    ring

theorem normLoop_ok (x : List Int) (m i : Nat) (z : List Int) (h0 : i + m ≤ x.length) (h2 : i + m + 1 ≤ z.length) :
    ∃ r, normLoop x m i z = .ok r ∧ r.length = z.length ∧
      poly r = poly z - X ^ (i + 1) * poly ((x.drop i).take m) := by
  induction m generalizing i z with
  | zero => exact ⟨z, rfl, rfl, by simp⟩
  | succ m ih =>
    obtain ⟨z', hz, hl, hp⟩ := addAt_ok z (i + 1) (-(x[i]'(by omega))) (by omega)
    obtain ⟨r, hr, hrl, hrp⟩ := ih (i + 1) z' (by omega) (by omega)
    rw [normLoop, idx_ok (by omega), Go.ok_bind, hz, Go.ok_bind]
    refine ⟨r, hr, hrl.trans hl, ?_⟩
    rw [poly_window _ _ _ (by omega), hrp, hp, C_neg]
    ring

theorem congrZ_comp_sq {n : Nat} {p q : ℤ[X]} (h : CongrZ n p q) : CongrZ (2 * n) (p.comp (X ^ 2)) (q.comp (X ^ 2)) := by
  obtain ⟨r, hr⟩ := h
  refine ⟨r.comp (X ^ 2), ?_⟩
  rw [← sub_comp, hr]
  simp [pow_mul]

/-- The norm map: length, and its description by the even and odd parts. -/
theorem fieldNorm_ok (k : Nat) (a : List Int) (ha : a.length = 2 ^ (k + 1)) :
    ∃ r, fieldNorm a = .ok r ∧ r.length = 2 ^ k ∧
      CongrZ (2 ^ k) (poly (splitPolys a).1 ^ 2 - X * poly (splitPolys a).2 ^ 2) (poly r) := by
  have e := pow_succ 2 k
  have hp : 0 < 2 ^ k := Nat.two_pow_pos k
  have l1 : (splitPolys a).1.length = 2 ^ k := by rw [splitPolys_length1]; omega
  have l2 : (splitPolys a).2.length = 2 ^ k := by rw [splitPolys_length2]; omega
  obtain ⟨u, hu, lu, cu⟩ := karamul_ok k _ _ l1 l1
  obtain ⟨v, hv, lv, cv⟩ := karamul_ok k _ _ l2 l2
  have e2 : a.length / 2 = 2 ^ k := by omega
  obtain ⟨w, hw, lw, pw⟩ := normLoop_ok v (2 ^ k - 1) 0 u (by omega) (by omega)
  obtain ⟨r, hr, lr, pr⟩ := addAt_ok w 0 (v[2 ^ k - 1]'(by omega)) (by omega)
  unfold fieldNorm
  simp only [e2]
  rw [hu, Go.ok_bind, hv, Go.ok_bind, hw, Go.ok_bind, idx_ok (by omega), Go.ok_bind]
  refine ⟨r, hr, by omega, ?_⟩
  have hv' : poly v = poly ((v.drop 0).take (2 ^ k - 1)) + X ^ (2 ^ k - 1) * C v[2 ^ k - 1] := by
    rw [poly_take_drop v (2 ^ k - 1) (by omega), List.drop_zero]
    congr 2
    rw [List.drop_eq_getElem_cons (by omega), List.drop_of_length_le (by omega)]
    simp
  have hX : (X : ℤ[X]) ^ (2 ^ k) = X * X ^ (2 ^ k - 1) := by
    rw [← pow_succ']; congr 1; omega
  obtain ⟨c1, hc1⟩ := cu
  obtain ⟨c2, hc2⟩ := cv
  refine ⟨c1 - X * c2 - C v[2 ^ k - 1], ?_⟩
  rw [pr, pw]
  have : poly ((v.drop 0).take (2 ^ k - 1)) = poly v - X ^ (2 ^ k - 1) * C v[2 ^ k - 1] := by rw [hv']; ring
  rw [this]
  linear_combination hc1 - X * hc2 + C v[2 ^ k - 1] * hX

theorem fieldNorm_conj (k : Nat) (a r : List Int) (ha : a.length = 2 ^ (k + 1))
    (h : CongrZ (2 ^ k) (poly (splitPolys a).1 ^ 2 - X * poly (splitPolys a).2 ^ 2) (poly r)) :
    CongrZ (2 ^ (k + 1)) (poly a * (poly a).comp (-X)) ((poly r).comp (X ^ 2)) := by
  have h2 := congrZ_comp_sq h
  have e : poly a * (poly a).comp (-X) = (poly (splitPolys a).1 ^ 2 - X * poly (splitPolys a).2 ^ 2).comp (X ^ 2) := by
    rw [poly_split a (by rw [ha, pow_succ]; omega)]
    simp only [add_comp, mul_comp, X_comp, comp_assoc, pow_comp, sub_comp, neg_sq]
    ring
  rw [e, pow_succ, mul_comm]
  exact h2

theorem xgcdLoop_spec (B N : Int) (b n x0 x1 y0 y1 : Int) (h1 : b = x0 * B + y0 * N) (h2 : n = x1 * B + y1 * N) :
    (xgcdLoop b n x0 x1 y0 y1).1 = (xgcdLoop b n x0 x1 y0 y1).2.1 * B + (xgcdLoop b n x0 x1 y0 y1).2.2 * N ∧
    (xgcdLoop b n x0 x1 y0 y1).1.natAbs = Int.gcd b n ∧ (0 ≤ b → 0 ≤ n → 0 ≤ (xgcdLoop b n x0 x1 y0 y1).1) := by
  fun_induction xgcdLoop with
  | case1 b x0 x1 y0 y1 => exact ⟨h1, by simp, fun h _ => h⟩
  | case2 b n x0 x1 y0 y1 h q ih =>
    have := ih h2 (by
      have := Int.emod_add_mul_ediv b n
      have e : b % n = b - n * q := by simp only [q]; omega
      rw [e, h1]
      nth_rewrite 1 [h2]
      ring)
    refine ⟨this.1, ?_, fun _ h2 => this.2.2 h2 (Int.emod_nonneg _ h)⟩
    rw [this.2.1, Int.gcd_comm, Int.gcd_emod]

end Falcon
