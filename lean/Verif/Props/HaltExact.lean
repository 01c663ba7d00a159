import Verif.Props.Halt
/-!
# When `reduce` terminates in exact arithmetic (C70)
-/

namespace Falcon
open Spec Polynomial ComplexConjugate

/-- A coefficient halfway between two integers. -/
def IsTie (x : ℝ) : Prop := ∃ m : ℤ, x = m + 1 / 2

/-- `κ` is the quotient `(F f* + G g*)/(f f* + g g*)` of R[x]/(x^n+1). -/
def IsQuot (k : Nat) (f g F G κ : List ℝ) : Prop := κ.length = 2 ^ k ∧
  (X ^ 2 ^ k + 1 : ℝ[X]) ∣ poly κ * gramPoly f g - (poly F * poly (adjList f) + poly G * poly (adjList g))

theorem quot_unique (k : Nat) (f g F G κ μ : List ℝ) (hc : IsCoprime (X ^ 2 ^ k + 1 : ℝ[X]) (gramPoly f g)) (h1 : IsQuot k f g F G κ)
    (h2 : IsQuot k f g F G μ) : κ = μ := by
  obtain ⟨l1, c1, e1⟩ := h1
  obtain ⟨l2, c2, e2⟩ := h2
  apply C50_unique k _ _ l1 l2
  apply hc.dvd_of_dvd_mul_left
  exact ⟨c1 - c2, by linear_combination e1 - e2⟩

/-! ### Rounding -/

/-- The integer that `math.Round` and the conversion to `int` give in exact arithmetic. -/
noncomputable def rnd (x : ℝ) : ℤ := exactOps.toInt (exactOps.round x)

theorem rnd_eq (x : ℝ) : rnd x = if 0 ≤ x then ⌊x + 1 / 2⌋ else ⌈x - 1 / 2⌉ := by
  have ht : ∀ m : ℤ, truncR (m : ℝ) = m := by
    intro m
    unfold truncR
    split <;> simp
  unfold rnd
  show truncR (if 0 ≤ x then (⌊x + 1 / 2⌋ : ℝ) else (⌈x - 1 / 2⌉ : ℝ)) = _
  split <;> rw [ht]

theorem rnd_dist (x : ℝ) : |x - rnd x| ≤ 1 / 2 := by
  rw [rnd_eq, abs_le]
  split
  · have h1 := Int.floor_le (x + 1 / 2)
    have h2 := Int.lt_floor_add_one (x + 1 / 2)
    constructor <;> linarith
  · have h1 := Int.le_ceil (x - 1 / 2)
    have h2 := Int.ceil_lt_add_one (x - 1 / 2)
    constructor <;> linarith

theorem rnd_of_lt (x : ℝ) (h : |x| < 1 / 2) : rnd x = 0 := by
  rw [abs_lt] at h
  rw [rnd_eq]
  split
  · rw [Int.floor_eq_iff]
    push_cast
    constructor <;> linarith
  · rw [Int.ceil_eq_iff]
    push_cast
    constructor <;> linarith

theorem tie_of_half (x : ℝ) (h : |x| = 1 / 2) : IsTie x := by
  rcases eq_or_eq_neg_of_abs_eq h with h | h
  · exact ⟨0, by push_cast; linarith⟩
  · exact ⟨-1, by push_cast; linarith⟩

theorem tie_sub (x : ℝ) (m : ℤ) : IsTie (x - m) ↔ IsTie x := by
  constructor
  · rintro ⟨a, h⟩
    exact ⟨a + m, by push_cast; linarith⟩
  · rintro ⟨a, h⟩
    exact ⟨a - m, by push_cast; linarith⟩

theorem not_tie_small (x : ℝ) (h : |x| < 1 / 2) : ¬ IsTie x := by
  rintro ⟨m, hm⟩
  rw [abs_lt, hm] at h
  have h1 : (-1 : ℝ) < m := by linarith [h.1]
  have h2 : (m : ℝ) < 0 := by linarith [h.2]
  have h3 : (-1 : ℤ) < m := by exact_mod_cast h1
  have h4 : m < 0 := by exact_mod_cast h2
  omega

/-! ### One iteration -/

/-- `subShifted` subtracts coefficient by coefficient. -/
theorem subShifted_coeff (x : List Int) (sh n : Nat) (F r : List Int) (h0 : x.length = n) (h1 : F.length = n)
    (h : subShifted x sh n 0 F = .ok r) : r = List.zipWith (fun a b : Int => a - 2 ^ sh * b) F x := by
  obtain ⟨r', e, l, p⟩ := subShifted_ok x sh n 0 F (by omega) (by omega)
  rw [h, Go.ok.injEq] at e
  subst e
  rw [poly_full _ _ h0] at p
  apply poly_injective (by simp [l, h0, h1])
  rw [p]
  clear p h
  have hz : ∀ (F x : List Int), F.length = x.length → poly (List.zipWith (fun a b : Int => a - 2 ^ sh * b) F x) = poly F - C (2 ^ sh) * poly x := by
    intro F
    induction F with
    | nil => intro x hx; have := List.length_eq_zero_iff.1 hx.symm; subst this; simp
    | cons a F ih =>
      intro x hx
      rcases x with _ | ⟨b, x⟩
      · simp at hx
      · have := ih x (by simpa using hx)
        simp only [List.zipWith_cons_cons, poly_cons, this, C_sub, C_mul]
        ring
  rw [hz F x (by omega)]
  simp

theorem shift_sub (a b : Int) (s : Nat) : (a - 2 ^ s * b) >>> s = a >>> s - b := by
  rw [Int.shiftRight_eq_div_pow, Int.shiftRight_eq_div_pow]
  have h : ((2 ^ s : Nat) : Int) ≠ 0 := by positivity
  push_cast at h ⊢
  rw [Int.sub_mul_ediv_left a b h]

theorem map_shift_sub (F x : List Int) (s : Nat) : (List.zipWith (fun a b : Int => a - 2 ^ s * b) F x).map (fun v : Int => v >>> s) =
    List.zipWith (fun a b : Int => a - b) (F.map fun v : Int => v >>> s) x := by
  induction F generalizing x with
  | nil => simp
  | cons a F ih =>
    rcases x with _ | ⟨b, x⟩
    · simp
    · simp [ih, shift_sub]

theorem poly_zipWith_sub (F x : List Int) (h : F.length = x.length) (c : ℝ) (m : Int) (hm : (m : ℝ) = c) :
    poly (realI (List.zipWith (fun a b : Int => a - m * b) F x)) = poly (realI F) - C c * poly (realI x) := by
  subst hm
  induction F generalizing x with
  | nil => have := List.length_eq_zero_iff.1 h.symm; subst this; simp [realI]
  | cons a F ih =>
    rcases x with _ | ⟨b, x⟩
    · simp at h
    · have := ih x (by simpa using h)
      simp only [realI, List.zipWith_cons_cons, List.map_cons, poly_cons] at this ⊢
      rw [this]
      push_cast
      simp only [C_sub, C_mul]
      ring

/-- Subtracting a multiple of `(f, g)` subtracts from the quotient. -/
theorem quot_sub (k : Nat) (f g F G κ : List ℝ) (q fk gk F1 G1 : List ℝ) (lq : q.length = 2 ^ k) (c : ℝ)
    (hq : IsQuot k f g F G κ) (c1 : (X ^ 2 ^ k + 1 : ℝ[X]) ∣ poly f * poly q - poly fk) (c2 : (X ^ 2 ^ k + 1 : ℝ[X]) ∣ poly g * poly q - poly gk)
    (e1 : poly F1 = poly F - C c * poly fk) (e2 : poly G1 = poly G - C c * poly gk) :
    IsQuot k f g F1 G1 (List.zipWith (fun x y : ℝ => x + y) κ (q.map fun x : ℝ => -c * x)) := by
  obtain ⟨lκ, a, ha⟩ := hq
  obtain ⟨b1, hb1⟩ := c1
  obtain ⟨b2, hb2⟩ := c2
  refine ⟨by simp [lκ, lq], ?_⟩
  rw [poly_zipWith_add _ _ (by simp [lκ, lq]), poly_smul, e1, e2]
  refine ⟨a - C c * (b1 * poly (adjList f) + b2 * poly (adjList g)), ?_⟩
  unfold gramPoly at ha ⊢
  simp only [C_neg]
  linear_combination ha - C c * poly (adjList f) * hb1 - C c * poly (adjList g) * hb2

/-- The hypotheses on `(f, g)`: short, with a second Gram-Schmidt vector that is not long. -/
structure Short (k : Nat) (f g : List Int) : Prop where
  lf : f.length = 2 ^ k
  lg : g.length = 2 ^ k
  h0 : ∃ x ∈ f, x ≠ 0
  hn : sqNorm (realI f) + sqNorm (realI g) ≤ 1.17 ^ 2 * 12289
  hgs : ∃ Ft Gt : List ℝ, Ft.length = 2 ^ k ∧ Gt.length = 2 ^ k ∧
    (X ^ 2 ^ k + 1 : ℝ[X]) ∣ poly Ft * gramPoly (realI f) (realI g) - poly (adjList (realI f)) ∧
    (X ^ 2 ^ k + 1 : ℝ[X]) ∣ poly Gt * gramPoly (realI f) (realI g) - poly (adjList (realI g)) ∧ sqNorm Ft + sqNorm Gt ≤ 1

/-- The pair is a solution of the NTRU equation. -/
structure Solves (k : Nat) (f g F G : List Int) : Prop where
  lF : F.length = 2 ^ k
  lG : G.length = 2 ^ k
  det : (X ^ 2 ^ k + 1 : ℝ[X]) ∣ poly (realI f) * poly (realI G) - poly (realI g) * poly (realI F) - C 12289

theorem Short.ne {k : Nat} {f g : List Int} (h : Short k f g) : ∀ w ∈ rootsC k, evalR (realI f) w ≠ 0 ∨ evalR (realI g) w ≠ 0 := by
  intro w hw
  left
  have := int_eval_ne_zero k f h.lf h.h0 w (by rw [rootsC_root k w hw]; ring)
  unfold evalR realI
  rw [List.map_map]
  convert this using 4
  funext x
  simp

theorem realI_length (l : List Int) : (realI l).length = l.length := by simp [realI]

theorem Short.coprime {k : Nat} {f g : List Int} (h : Short k f g) : IsCoprime (X ^ 2 ^ k + 1 : ℝ[X]) (gramPoly (realI f) (realI g)) :=
  gram_coprime k (realI f) (realI g) (by rw [realI_length, h.lf]) (by rw [realI_length, h.lg]) h.ne

theorem Short.small {k : Nat} {f g : List Int} (h : Short k f g) : ∀ v ∈ f ++ g, v.natAbs < 2 ^ 48 := by
  intro v hv
  have hn := h.hn
  have q1 := sqNorm_nonneg (realI f)
  have q2 := sqNorm_nonneg (realI g)
  have hv2 : (v : ℝ) ^ 2 ≤ 1.17 ^ 2 * 12289 := by
    rcases List.mem_append.1 hv with hv | hv
    · exact (sq_le_sqNorm (realI f) v (List.mem_map_of_mem hv)).trans (by linarith)
    · exact (sq_le_sqNorm (realI g) v (List.mem_map_of_mem hv)).trans (by linarith)
  have hv3 : v ^ 2 < 2 ^ 15 := by
    have : (v : ℝ) ^ 2 < 2 ^ 15 := lt_of_le_of_lt hv2 (by norm_num)
    exact_mod_cast this
  have h4 : v < 2 ^ 48 := by nlinarith
  have h5 : -(2 ^ 48) < v := by nlinarith
  omega

/-- A pair whose quotient, after dropping `s` bits, is at most one half is short up to these bits. -/
theorem reduced_small {k : Nat} (h2 : k ≤ 10) {f g F G : List Int} (h : Short k f g) (hs : Solves k f g F G) (s : Nat) (κ : List ℝ)
    (hκ : IsQuot k (realI f) (realI g) (realI (F.map fun v : Int => v >>> s)) (realI (G.map fun v : Int => v >>> s)) κ)
    (hb : ∀ x ∈ κ, |x| ≤ 1 / 2) : ∀ v ∈ F ++ G, |((v >>> s : Int) : ℝ)| < 2 ^ 30 := by
  obtain ⟨Ft, Gt, lFt, lGt, d2, d3, hgs⟩ := h.hgs
  obtain ⟨D, lD', hDb, d4⟩ := shift_det k h2 f g F G hs.lF hs.lG h.hn hs.det s
  have hB : ∀ l : List ℝ, sqNorm l ≤ sqNorm Ft + sqNorm Gt → ∀ x ∈ l, |x| ≤ 1 := by
    intro l hl x hx
    have := sq_le_sqNorm l x hx
    apply abs_le_of_sq_le_sq _ (by norm_num)
    nlinarith
  have q1 := sqNorm_nonneg Ft
  have q2 := sqNorm_nonneg Gt
  obtain ⟨r1, r2⟩ := core_bound k (realI f) (realI g) _ _ κ Ft Gt D (by rw [realI_length, h.lf]) (by rw [realI_length, h.lg])
    (by rw [realI_length, List.length_map, hs.lF]) (by rw [realI_length, List.length_map, hs.lG]) hκ.1 lFt lGt h.coprime (1 / 2) hb 1
    (hB Ft (by linarith)) (hB Gt (by linarith)) hκ.2 d2 d3 d4
  have lf1 := l1_le_sqNorm f
  have lg1 := l1_le_sqNorm g
  have p1 := sqNorm_nonneg (realI f)
  have p2 := sqNorm_nonneg (realI g)
  have hn := h.hn
  norm_num at hn
  intro v hv
  rcases List.mem_append.1 hv with hv | hv
  · apply lt_of_le_of_lt (r1 ((v >>> s : Int) : ℝ) (List.mem_map_of_mem (List.mem_map_of_mem hv)))
    linarith
  · apply lt_of_le_of_lt (r2 ((v >>> s : Int) : ℝ) (List.mem_map_of_mem (List.mem_map_of_mem hv)))
    linarith

/-- What the analysis of the loop needs: no common root, coefficients of at most 48 bits, and solutions with a small quotient are short, also after
dropping bits. -/
structure Tame (k : Nat) (f g : List Int) : Prop where
  lf : f.length = 2 ^ k
  lg : g.length = 2 ^ k
  ne : ∀ w ∈ rootsC k, evalR (realI f) w ≠ 0 ∨ evalR (realI g) w ≠ 0
  small : ∀ v ∈ f ++ g, v.natAbs < 2 ^ 48
  red : ∀ (F G : List Int) (s : Nat) (κ : List ℝ), Solves k f g F G →
    IsQuot k (realI f) (realI g) (realI (F.map fun v : Int => v >>> s)) (realI (G.map fun v : Int => v >>> s)) κ →
    (∀ x ∈ κ, |x| ≤ 1 / 2) → ∀ v ∈ F ++ G, |((v >>> s : Int) : ℝ)| < 2 ^ 44

theorem Tame.coprime {k : Nat} {f g : List Int} (h : Tame k f g) : IsCoprime (X ^ 2 ^ k + 1 : ℝ[X]) (gramPoly (realI f) (realI g)) :=
  gram_coprime k (realI f) (realI g) (by rw [realI_length, h.lf]) (by rw [realI_length, h.lg]) h.ne

theorem Short.tame {k : Nat} (h2 : k ≤ 10) {f g : List Int} (h : Short k f g) : Tame k f g :=
  ⟨h.lf, h.lg, h.ne, h.small, fun _ _ s κ hs hκ hb v hv => (reduced_small h2 h hs s κ hκ hb v hv).trans (by norm_num)⟩

theorem small_size {F G : List Int} (s : Nat) (h : ∀ v ∈ F ++ G, |((v >>> s : Int) : ℝ)| < 2 ^ 44) (S : Nat) (hS : sizeOf2 F G = .ok S) :
    S = 53 ∨ S ≤ s + 52 := by
  obtain ⟨-, -, c⟩ := sizeOf2_spec F G S hS
  rcases c with c | ⟨c, v, hv, hv2⟩
  · exact Or.inl c
  right
  by_contra hc
  have hsm2 : |v >>> s| < 2 ^ 44 := by exact_mod_cast h v hv
  rw [abs_lt, Int.shiftRight_eq_div_pow] at hsm2
  obtain ⟨u1, u2⟩ := hsm2
  have hT : (0 : Int) < ((2 ^ s : Nat) : Int) := by positivity
  have u3 : v < 2 ^ 44 * ((2 ^ s : Nat) : Int) := Int.lt_mul_of_ediv_lt hT u2
  have u4 : -(2 ^ 44) * ((2 ^ s : Nat) : Int) ≤ v := (Int.le_ediv_iff_mul_le hT).1 u1.le
  have u5 : 2 ^ (s + 45) ≤ 2 ^ (S - 8) := Nat.pow_le_pow_right (by decide) (by omega)
  rw [pow_add] at u5
  generalize (2 : Nat) ^ s = T at *
  generalize (2 : Nat) ^ (S - 8) = U at *
  omega

/-- One iteration of the loop, with the quotients before and after. -/
theorem exact_step {k : Nat} (h1 : 1 ≤ k) (h2 : k ≤ 10) {f g F G : List Int} (h : Tame k f g) (hs : Solves k f g F G) (κ : List ℝ)
    (hκ : IsQuot k (realI f) (realI g) (realI F) (realI G) κ) (s : Nat) (hS : sizeOf2 F G = .ok (53 + s)) :
    ∃ μ : List ℝ, IsQuot k (realI f) (realI g) (realI (F.map fun v : Int => v >>> s)) (realI (G.map fun v : Int => v >>> s)) μ ∧
      let loop := reduceLoop exactOps f g 53 ((rootsC k).map (evalR (realI f))) ((rootsC k).map (evalR (realI g)))
      (((∀ x ∈ μ, rnd x = 0) ∧ ∀ fuel, loop (fuel + 1) F G = .ok (F, G)) ∨
      ∃ F1 G1 : List Int, (∃ x ∈ μ, rnd x ≠ 0) ∧ (∀ fuel, loop (fuel + 1) F G = loop fuel F1 G1) ∧ Solves k f g F1 G1 ∧
        IsQuot k (realI f) (realI g) (realI F1) (realI G1) (List.zipWith (fun x y : ℝ => x - 2 ^ s * rnd y) κ μ) ∧
        IsQuot k (realI f) (realI g) (realI (F1.map fun v : Int => v >>> s)) (realI (G1.map fun v : Int => v >>> s))
          (μ.map fun x => x - rnd x)) := by
  obtain ⟨-, hup, -⟩ := sizeOf2_spec F G _ hS
  obtain ⟨μ, lμ, dμ, hb⟩ := babai_exact k h1 h2 (realI f) (realI g) (realI (F.map fun v : Int => v >>> s)) (realI (G.map fun v : Int => v >>> s))
    (by rw [realI_length, h.lf]) (by rw [realI_length, h.lg]) (by rw [realI_length, List.length_map, hs.lF])
    (by rw [realI_length, List.length_map, hs.lG]) h.ne
  rw [← adjust_exact s F (fun v hv => hup v (List.mem_append_left _ hv)), ← adjust_exact s G (fun v hv => hup v (List.mem_append_right _ hv))] at hb
  refine ⟨μ, ⟨lμ, dμ⟩, ?_⟩
  intro loop
  have hr : RoundAll exactOps μ = μ.map rnd := rfl
  rw [hr] at hb
  by_cases hz : allZeroes (μ.map rnd) = true
  · left
    constructor
    · intro x hx
      rw [C55_allZeroes] at hz
      exact hz _ (List.mem_map_of_mem hx)
    · intro fuel
      show reduceLoop _ _ _ _ _ _ _ _ _ = _
      rw [reduceLoop, hS, Go.ok_bind, if_neg (by omega), hb, Go.ok_bind, if_pos hz]
      rfl
  · right
    have lq : (μ.map rnd).length = 2 ^ k := by rw [List.length_map, lμ]
    obtain ⟨fk, e1, l1, c1⟩ := karamul_ok k f (μ.map rnd) h.lf lq
    obtain ⟨gk, e2, l2, c2⟩ := karamul_ok k g (μ.map rnd) h.lg lq
    have lf := h.lf
    have lF := hs.lF
    have lG := hs.lG
    obtain ⟨F1, e3, l3, -⟩ := subShifted_ok fk s f.length 0 F (by omega) (by omega)
    obtain ⟨G1, e4, l4, -⟩ := subShifted_ok gk s f.length 0 G (by omega) (by omega)
    have z3 := subShifted_coeff fk s f.length F F1 (by omega) (by omega) e3
    have z4 := subShifted_coeff gk s f.length G G1 (by omega) (by omega) e4
    have real : ∀ a r : List Int, CongrZ (2 ^ k) (polyZ a * polyZ (μ.map rnd)) (polyZ r) →
        (X ^ 2 ^ k + 1 : ℝ[X]) ∣ poly (realI a) * poly (realI (μ.map rnd)) - poly (realI r) := by
      intro a r hc
      obtain ⟨c, hcc⟩ := hc
      refine ⟨c.map (Int.castRingHom ℝ), ?_⟩
      have := congrArg (Polynomial.map (Int.castRingHom ℝ)) hcc
      unfold polyZ at this
      simp only [Polynomial.map_sub, Polynomial.map_mul, Polynomial.map_add, Polynomial.map_pow, Polynomial.map_X, Polynomial.map_one] at this
      rw [poly_realI, poly_realI, poly_realI]
      exact this
    have r1 := real f fk c1
    have r2 := real g gk c2
    have pF : poly (realI F1) = poly (realI F) - C (2 ^ s) * poly (realI fk) := by
      rw [z3]; exact poly_zipWith_sub F fk (by omega) (2 ^ s) (2 ^ s) (by push_cast; rfl)
    have pG : poly (realI G1) = poly (realI G) - C (2 ^ s) * poly (realI gk) := by
      rw [z4]; exact poly_zipWith_sub G gk (by omega) (2 ^ s) (2 ^ s) (by push_cast; rfl)
    have one : ∀ A B : List Int, List.zipWith (fun a b : Int => a - b) A B = List.zipWith (fun a b : Int => a - 1 * b) A B := by
      intro A B; simp only [one_mul]
    have sF : poly (realI (F1.map fun v : Int => v >>> s)) = poly (realI (F.map fun v : Int => v >>> s)) - C 1 * poly (realI fk) := by
      rw [z3, map_shift_sub, one]
      exact poly_zipWith_sub _ fk (by rw [List.length_map]; omega) 1 1 (by push_cast; rfl)
    have sG : poly (realI (G1.map fun v : Int => v >>> s)) = poly (realI (G.map fun v : Int => v >>> s)) - C 1 * poly (realI gk) := by
      rw [z4, map_shift_sub, one]
      exact poly_zipWith_sub _ gk (by rw [List.length_map]; omega) 1 1 (by push_cast; rfl)
    refine ⟨F1, G1, ?_, ?_, ⟨by omega, by omega, ?_⟩, ?_, ?_⟩
    · by_contra hc
      push Not at hc
      apply hz
      rw [C55_allZeroes]
      intro y hy
      obtain ⟨x, hx, rfl⟩ := List.mem_map.1 hy
      exact hc x hx
    · intro fuel
      show reduceLoop _ _ _ _ _ _ _ _ _ = reduceLoop _ _ _ _ _ _ _ _ _
      rw [reduceLoop, hS, Go.ok_bind, if_neg (by omega), hb, Go.ok_bind, if_neg hz, e1, Go.ok_bind, e2, Go.ok_bind,
        show 53 + s - 53 = s by omega, e3, Go.ok_bind, e4, Go.ok_bind]
    · obtain ⟨c, hc⟩ := hs.det
      obtain ⟨a, ha⟩ := r1
      obtain ⟨b, hb⟩ := r2
      rw [pF, pG]
      exact ⟨c + C (2 ^ s) * (poly (realI f) * b - poly (realI g) * a),
        by linear_combination hc + C (2 ^ s) * (poly (realI f) * hb - poly (realI g) * ha)⟩
    · have := quot_sub k (realI f) (realI g) (realI F) (realI G) κ (realI (μ.map rnd)) (realI fk) (realI gk) (realI F1) (realI G1)
        (by rw [realI_length, lq]) (2 ^ s) hκ r1 r2 pF pG
      convert this using 1
      unfold realI
      rw [List.map_map, List.map_map, List.zipWith_map_right]
      congr 1
      funext x y
      simp only [Function.comp_apply]
      ring
    · have := quot_sub k (realI f) (realI g) _ _ μ (realI (μ.map rnd)) (realI fk) (realI gk) _ _
        (by rw [realI_length, lq]) 1 ⟨lμ, dμ⟩ r1 r2 sF sG
      convert this using 1
      unfold realI
      rw [List.map_map, List.map_map, List.zipWith_map_right, List.zipWith_self]
      congr 1
      funext x
      simp only [Function.comp_apply]
      ring

/-- Subtracting integers from the coefficients does not change the ties. -/
theorem ties_zipWith (s : Nat) (κ μ : List ℝ) (h : κ.length = μ.length) :
    (∃ x ∈ List.zipWith (fun x y : ℝ => x - 2 ^ s * rnd y) κ μ, IsTie x) ↔ ∃ x ∈ κ, IsTie x := by
  induction κ generalizing μ with
  | nil => simp
  | cons a κ ih =>
    rcases μ with _ | ⟨b, μ⟩
    · simp at h
    · have e : IsTie (a - 2 ^ s * (rnd b : ℝ)) ↔ IsTie a := by
        rw [← tie_sub a (2 ^ s * rnd b)]
        push_cast
        rfl
      simp only [List.zipWith_cons_cons, List.mem_cons, exists_eq_or_imp, e, ih μ (by simpa using h)]

theorem map_shift_zero (l : List Int) : (l.map fun v : Int => v >>> 0) = l := by
  conv_rhs => rw [← List.map_id l]
  apply List.map_congr_left
  intro v _
  simp

/-- With a tie, the loop does not end. -/
theorem loop_tie {k : Nat} (h1 : 1 ≤ k) (h2 : k ≤ 10) {f g : List Int} (h : Tame k f g) (fuel : Nat) (F G : List Int) (hs : Solves k f g F G)
    (κ : List ℝ) (hκ : IsQuot k (realI f) (realI g) (realI F) (realI G) κ) (ht : ∃ x ∈ κ, IsTie x) :
    reduceLoop exactOps f g 53 ((rootsC k).map (evalR (realI f))) ((rootsC k).map (evalR (realI g))) fuel F G = .diverge := by
  induction fuel generalizing F G κ with
  | zero => rfl
  | succ fuel ih =>
    obtain ⟨S, hS⟩ := sizeOf2_ok F G (ne_nil_of_length hs.lF) (ne_nil_of_length hs.lG)
    obtain ⟨h53, -, -⟩ := sizeOf2_spec F G S hS
    obtain ⟨s, rfl⟩ : ∃ s, S = 53 + s := ⟨S - 53, by omega⟩
    obtain ⟨μ, hμ, ⟨hz, -⟩ | ⟨F1, G1, -, hl, hs1, hq, -⟩⟩ := exact_step h1 h2 h hs κ hκ s hS
    · exfalso
      have hb : ∀ x ∈ μ, |x| < 1 / 2 := fun x hx => round_zero x (hz x hx)
      rcases small_size s (h.red F G s μ hs hμ fun x hx => (hb x hx).le) _ hS with e | e
      · obtain rfl : s = 0 := by omega
        rw [map_shift_zero, map_shift_zero] at hμ
        have := quot_unique k _ _ _ _ _ _ h.coprime hκ hμ
        subst this
        obtain ⟨x, hx, hx2⟩ := ht
        exact not_tie_small x (hb x hx) hx2
      · omega
    · rw [hl]
      exact ih F1 G1 hs1 _ hq ((ties_zipWith s κ μ (by rw [hκ.1, hμ.1])).2 ht)

/-- Without a tie, the loop ends. -/
theorem loop_no_tie {k : Nat} (h1 : 1 ≤ k) (h2 : k ≤ 10) {f g : List Int} (h : Tame k f g) (fuel S : Nat) (F G : List Int) (hs : Solves k f g F G)
    (κ : List ℝ) (hκ : IsQuot k (realI f) (realI g) (realI F) (realI G) κ) (ht : ¬ ∃ x ∈ κ, IsTie x) (hS : sizeOf2 F G = .ok S)
    (hfu : S ≤ fuel + 51 ∨ (S = 53 ∧ 1 ≤ fuel ∧ ∀ x ∈ κ, |x| ≤ 1 / 2)) :
    ∃ r, reduceLoop exactOps f g 53 ((rootsC k).map (evalR (realI f))) ((rootsC k).map (evalR (realI g))) fuel F G = .ok r := by
  induction fuel generalizing F G κ S with
  | zero =>
    obtain ⟨h53, -, -⟩ := sizeOf2_spec F G S hS
    omega
  | succ fuel ih =>
    obtain ⟨h53, -, -⟩ := sizeOf2_spec F G S hS
    obtain ⟨s, rfl⟩ : ∃ s, S = 53 + s := ⟨S - 53, by omega⟩
    obtain ⟨μ, hμ, ⟨-, hl⟩ | ⟨F1, G1, hnz, hl, hs1, hq, hq2⟩⟩ := exact_step h1 h2 h hs κ hκ s hS
    · exact ⟨_, hl fuel⟩
    · have hb : ∀ x ∈ μ.map fun x => x - (rnd x : ℝ), |x| ≤ 1 / 2 := by
        intro y hy
        obtain ⟨x, _, rfl⟩ := List.mem_map.1 hy
        exact rnd_dist x
      obtain ⟨S1, hS1⟩ := sizeOf2_ok F1 G1 (ne_nil_of_length hs1.lF) (ne_nil_of_length hs1.lG)
      obtain ⟨h53', -, -⟩ := sizeOf2_spec F1 G1 S1 hS1
      have hsz := small_size s (h.red F1 G1 s _ hs1 hq2 hb) _ hS1
      have ht1 : ¬ ∃ x ∈ List.zipWith (fun x y : ℝ => x - 2 ^ s * rnd y) κ μ, IsTie x := by
        rw [ties_zipWith s κ μ (by rw [hκ.1, hμ.1])]
        exact ht
      rw [hl]
      refine ih S1 F1 G1 hs1 _ hq ht1 hS1 ?_
      by_cases hs0 : s = 0
      · subst hs0
        rw [map_shift_zero, map_shift_zero] at hμ hq2
        have e := quot_unique k _ _ _ _ _ _ h.coprime hκ hμ
        subst e
        right
        rcases hfu with hfu | ⟨-, -, hfu⟩
        · refine ⟨by omega, by omega, ?_⟩
          rw [quot_unique k _ _ _ _ _ _ h.coprime hq hq2]
          exact hb
        · exfalso
          obtain ⟨x, hx, hx2⟩ := hnz
          apply hx2
          apply rnd_of_lt
          apply lt_of_le_of_ne (hfu x hx)
          intro he
          exact ht ⟨x, hx, tie_of_half x he⟩
      · left
        have : 53 + s ≤ fuel + 1 + 51 := by omega
        omega

theorem reduce_loop {k : Nat} (h1 : 1 ≤ k) (h2 : k ≤ 10) {f g : List Int} (h : Tame k f g) (fuel : Nat) (F G : List Int) :
    reduce exactOps fuel f g F G =
      reduceLoop exactOps f g 53 ((rootsC k).map (evalR (realI f))) ((rootsC k).map (evalR (realI g))) fuel F G := by
  obtain ⟨size, esz⟩ := sizeOf2_ok f g (ne_nil_of_length h.lf) (ne_nil_of_length h.lg)
  have hsize : size = 53 := by
    obtain ⟨a, _, c⟩ := sizeOf2_spec f g size esz
    rcases c with c | ⟨c, v, hv, hv2⟩
    · exact c
    · have := h.small v hv
      have : 2 ^ 48 ≤ 2 ^ (size - 8) := Nat.pow_le_pow_right (by decide) (by omega)
      omega
  subst hsize
  have hsz := sizeOf2_spec f g 53 esz
  have af := adjust_exact 0 f (fun v hv => hsz.2.1 v (List.mem_append_left _ hv))
  have ag := adjust_exact 0 g (fun v hv => hsz.2.1 v (List.mem_append_right _ hv))
  rw [map_shift_zero, Nat.add_zero] at af ag
  unfold reduce
  rw [esz, Go.ok_bind, af, FFT_exact k h1 h2 (realI f) (by rw [realI_length, h.lf]), Go.ok_bind, ag,
    FFT_exact k h1 h2 (realI g) (by rw [realI_length, h.lg]), Go.ok_bind]

/-- The NTRU equation over the reals. -/
theorem solves_of_det {k : Nat} {f g F G : List Int} (lF : F.length = 2 ^ k) (lG : G.length = 2 ^ k)
    (hdet : CongrZ (2 ^ k) (ntruDet f g F G) (C 12289)) : Solves k f g F G := by
  refine ⟨lF, lG, ?_⟩
  obtain ⟨c, hcc⟩ := hdet
  refine ⟨c.map (Int.castRingHom ℝ), ?_⟩
  have := congrArg (Polynomial.map (Int.castRingHom ℝ)) hcc
  unfold ntruDet polyZ at this
  simp only [Polynomial.map_sub, Polynomial.map_mul, Polynomial.map_add, Polynomial.map_pow, Polynomial.map_X, Polynomial.map_one,
    Polynomial.map_C] at this
  rw [poly_realI, poly_realI, poly_realI, poly_realI]
  convert this using 2
  simp

theorem exact_tame (k : Nat) (h1 : 1 ≤ k) (h2 : k ≤ 10) (f g F G : List Int) (h : Tame k f g) (lF : F.length = 2 ^ k) (lG : G.length = 2 ^ k)
    (hdet : CongrZ (2 ^ k) (ntruDet f g F G) (C 12289)) (κ : List ℝ) (hκ : IsQuot k (realI f) (realI g) (realI F) (realI G) κ) :
    ((∃ x ∈ κ, IsTie x) → ∀ fuel, reduce exactOps fuel f g F G = .diverge) ∧
    ((¬ ∃ x ∈ κ, IsTie x) → ∀ S, sizeOf2 F G = .ok S → ∀ fuel, S ≤ fuel → ∃ r, reduce exactOps fuel f g F G = .ok r) := by
  have hs := solves_of_det lF lG hdet
  constructor
  · intro ht fuel
    rw [reduce_loop h1 h2 h]
    exact loop_tie h1 h2 h fuel F G hs κ hκ ht
  · intro ht S hS fuel hfu
    rw [reduce_loop h1 h2 h]
    exact loop_no_tie h1 h2 h fuel S F G hs κ hκ ht hS (Or.inl (by omega))

/-- C70: in exact arithmetic, for a short `(f, g)` and a solution `(F, G)` of the NTRU equation, `reduce` returns exactly when no coefficient of
`(F f* + G g*)/(f f* + g g*)` is halfway between two integers. The number of iterations is then at most the bit size of the largest coefficient
(rounded up to a multiple of 8, and at least 53); otherwise no number of iterations suffices. -/
theorem C70_exact (k : Nat) (h1 : 1 ≤ k) (h2 : k ≤ 10) (f g F G : List Int) (h : Short k f g) (lF : F.length = 2 ^ k) (lG : G.length = 2 ^ k)
    (hdet : CongrZ (2 ^ k) (ntruDet f g F G) (C 12289)) (κ : List ℝ) (hκ : IsQuot k (realI f) (realI g) (realI F) (realI G) κ) :
    ((∃ x ∈ κ, IsTie x) → ∀ fuel, reduce exactOps fuel f g F G = .diverge) ∧
    ((¬ ∃ x ∈ κ, IsTie x) → ∀ S, sizeOf2 F G = .ok S → ∀ fuel, S ≤ fuel → ∃ r, reduce exactOps fuel f g F G = .ok r) :=
  exact_tame k h1 h2 f g F G (h.tame h2) lF lG hdet κ hκ

/-! ### Degree 2 -/

theorem tie_div (x N : Int) (hN : 0 < N) : IsTie ((x : ℝ) / N) ↔ 2 * x % (2 * N) = N := by
  have hNr : (0 : ℝ) < N := by exact_mod_cast hN
  constructor
  · rintro ⟨m, hm⟩
    rw [div_eq_iff hNr.ne'] at hm
    have h : 2 * x = N + 2 * N * m := by
      have : (2 * x : ℝ) = N + 2 * N * m := by linarith
      exact_mod_cast this
    rw [h, Int.add_mul_emod_self_left, Int.emod_eq_of_lt hN.le (by omega)]
  · intro h
    refine ⟨2 * x / (2 * N), ?_⟩
    have h2 := Int.emod_add_mul_ediv (2 * x) (2 * N)
    rw [h] at h2
    rw [div_eq_iff hNr.ne']
    have : (N + 2 * N * (2 * x / (2 * N) : Int) : ℝ) = 2 * x := by exact_mod_cast h2
    linarith

/-- `f f* + g g*` for degree 2. -/
theorem gram2 (a b c d : Int) : gramPoly (realI [a, b]) (realI [c, d]) =
    C ((a * a + b * b + c * c + d * d : Int) : ℝ) - (X ^ 2 ^ 1 + 1) * C ((b * b + d * d : Int) : ℝ) := by
  unfold gramPoly
  simp only [realI, adjList, List.map_cons, List.map_nil, List.reverse_cons, List.reverse_nil, List.nil_append, poly_cons, poly_nil]
  push_cast
  simp only [map_add, map_mul, map_neg]
  ring

/-- The quotient for degree 2. -/
theorem quot2 (a b c d : Int) (p q r s : ℝ) (N : Int) (hN : N = a * a + b * b + c * c + d * d) (h0 : 0 < N) :
    IsQuot 1 (realI [a, b]) (realI [c, d]) [p, q] [r, s]
      [(p * a + q * b + (r * c + s * d)) / N, (q * a - p * b + (s * c - r * d)) / N] := by
  refine ⟨rfl, ?_⟩
  have hNr : (N : ℝ) ≠ 0 := by exact_mod_cast h0.ne'
  rw [gram2, ← hN]
  generalize hu : (p * a + q * b + (r * c + s * d)) / (N : ℝ) = u
  generalize hv : (q * a - p * b + (s * c - r * d)) / (N : ℝ) = v
  rw [div_eq_iff hNr] at hu hv
  refine ⟨-(C u + X * C v) * C ((b * b + d * d : Int) : ℝ) + C q * C (b : ℝ) + C s * C (d : ℝ), ?_⟩
  have hu' := congrArg (fun x : ℝ => (C x : ℝ[X])) hu
  have hv' := congrArg (fun x : ℝ => (C x : ℝ[X])) hv
  simp only [C_add, C_mul, C_sub] at hu' hv'
  simp only [realI, adjList, List.map_cons, List.map_nil, List.reverse_cons, List.reverse_nil, List.nil_append, poly_cons, poly_nil]
  push_cast
  simp only [map_add, map_mul, map_neg]
  linear_combination -hu' - X * hv'

theorem short2 (a b c d : Int) (h0 : a ≠ 0 ∨ b ≠ 0) (hN : a * a + b * b + c * c + d * d ≤ 16822) : Short 1 [a, b] [c, d] := by
  have hp : 0 < a * a + b * b + c * c + d * d := by
    rcases h0 with h | h
    · have := mul_self_pos.2 h
      nlinarith
    · have := mul_self_pos.2 h
      nlinarith
  have hpr : (0 : ℝ) < ((a * a + b * b + c * c + d * d : Int) : ℝ) := by exact_mod_cast hp
  have hp1 : (1 : ℝ) ≤ ((a * a + b * b + c * c + d * d : Int) : ℝ) := by exact_mod_cast hp
  refine ⟨rfl, rfl, ?_, ?_, ?_⟩
  · rcases h0 with h | h
    · exact ⟨a, by simp, h⟩
    · exact ⟨b, by simp, h⟩
  · have : ((a * a + b * b + c * c + d * d : Int) : ℝ) ≤ 16822 := by exact_mod_cast hN
    push_cast at this
    simp only [sqNorm, realI, List.map_cons, List.map_nil, List.sum_cons, List.sum_nil]
    norm_num
    nlinarith
  · have q1 := quot2 a b c d 1 0 0 0 _ rfl hp
    have q2 := quot2 a b c d 0 0 1 0 _ rfl hp
    refine ⟨_, _, q1.1, q2.1, ?_, ?_, ?_⟩
    · simpa using q1.2
    · simpa using q2.2
    · generalize hN' : ((a * a + b * b + c * c + d * d : Int) : ℝ) = N at hpr hp1
      push_cast at hN'
      simp only [sqNorm, List.map_cons, List.map_nil, List.sum_cons, List.sum_nil]
      have e : (1 * (a : ℝ) + 0 * b + (0 * c + 0 * d)) / N = a / N := by ring
      have : ((1 * (a : ℝ) + 0 * b + (0 * c + 0 * d)) / N) ^ 2 + (((0 * (a : ℝ) - 1 * b + (0 * c - 0 * d)) / N) ^ 2 + 0) +
          (((0 * (a : ℝ) + 0 * b + (1 * c + 0 * d)) / N) ^ 2 + (((0 * (a : ℝ) - 0 * b + (0 * c - 1 * d)) / N) ^ 2 + 0)) = 1 / N := by
        rw [eq_div_iff hpr.ne']
        field_simp
        rw [← hN']
        ring
      rw [this, div_le_one hpr]
      exact hp1

/-- C70 for degree 2, in integers: `reduce` returns exactly when neither coefficient of `F f* + G g*` is an odd multiple of half the squared
norm of `(f, g)`. -/
theorem C70_degree2 (a b c d p q r s : Int) (h0 : a ≠ 0 ∨ b ≠ 0) (N : Int) (hN : N = a * a + b * b + c * c + d * d) (hle : N ≤ 16822)
    (hdet : CongrZ (2 ^ 1) (ntruDet [a, b] [c, d] [p, q] [r, s]) (C 12289)) :
    (2 * (p * a + q * b + (r * c + s * d)) % (2 * N) = N ∨ 2 * (q * a - p * b + (s * c - r * d)) % (2 * N) = N →
      ∀ fuel, reduce exactOps fuel [a, b] [c, d] [p, q] [r, s] = .diverge) ∧
    (2 * (p * a + q * b + (r * c + s * d)) % (2 * N) ≠ N ∧ 2 * (q * a - p * b + (s * c - r * d)) % (2 * N) ≠ N →
      ∃ fuel F G, reduce exactOps fuel [a, b] [c, d] [p, q] [r, s] = .ok (F, G)) := by
  have hs := short2 a b c d h0 (by omega)
  have hp : 0 < N := by
    rw [hN]
    rcases h0 with h | h
    · have := mul_self_pos.2 h
      nlinarith
    · have := mul_self_pos.2 h
      nlinarith
  have hq := quot2 a b c d p q r s N hN hp
  have ht : (∃ x ∈ [((p * a + q * b + (r * c + s * d) : Int) : ℝ) / N, ((q * a - p * b + (s * c - r * d) : Int) : ℝ) / N], IsTie x) ↔
      (2 * (p * a + q * b + (r * c + s * d)) % (2 * N) = N ∨ 2 * (q * a - p * b + (s * c - r * d)) % (2 * N) = N) := by
    simp only [List.mem_cons, List.not_mem_nil, or_false, exists_eq_or_imp, exists_eq_left, tie_div _ _ hp]
  obtain ⟨c1, c2⟩ := C70_exact 1 (by decide) (by decide) [a, b] [c, d] [p, q] [r, s] hs rfl rfl hdet
    [((p * a + q * b + (r * c + s * d) : Int) : ℝ) / N, ((q * a - p * b + (s * c - r * d) : Int) : ℝ) / N] (by
      push_cast
      exact hq)
  constructor
  · intro h
    exact c1 (ht.2 h)
  · intro h
    obtain ⟨S, hS⟩ := sizeOf2_ok [p, q] [r, s] (by simp) (by simp)
    obtain ⟨⟨F, G⟩, hr⟩ := c2 (fun hc => by rcases ht.1 hc with h3 | h3; exacts [h.1 h3, h.2 h3]) S hS S (le_refl _)
    exact ⟨S, F, G, hr⟩

/-- A case that ends and a case that does not. -/
example : (∃ fuel F G, reduce exactOps fuel [72, 5] [60, 31] [-40 + 1000 * 72, 31 + 1000 * 5] [124 + 1000 * 60, 1000 * 31] = .ok (F, G)) ∧
    ∀ fuel, reduce exactOps fuel [1, 0] [1, 0] [-12289, 0] [0, 0] = .diverge := by
  constructor
  · refine (C70_degree2 72 5 60 31 _ _ _ _ (by decide) _ rfl (by decide) ⟨C (-961), ?_⟩).2 (by decide)
    simp only [ntruDet, polyZ, poly_cons, poly_nil]
    simp
    ring
  · refine (C70_degree2 1 0 1 0 _ _ _ _ (by decide) _ rfl (by decide) ⟨0, ?_⟩).1 (by decide)
    simp only [ntruDet, polyZ, poly_cons, poly_nil]
    simp

theorem loops_exact : Loops exactOps := by
  intro f hf g hg fuel
  refine solve_units2 exactOps f g hf hg (fun fuel => ?_) fuel
  have key : ∀ a b c d : Int, (a = 0 ∧ (b = 1 ∨ b = -1) ∨ b = 0 ∧ (a = 1 ∨ a = -1)) → (c = 0 ∧ (d = 1 ∨ d = -1) ∨ d = 0 ∧ (c = 1 ∨ c = -1)) →
      reduce exactOps fuel [a, b] [c, d] [-12289 * c, 12289 * d] [0, 0] = .diverge := by
    intro a b c d h1 h2
    refine (C70_degree2 a b c d _ _ _ _ (by omega) 2 (by rcases h1 with ⟨rfl, rfl | rfl⟩ | ⟨rfl, rfl | rfl⟩ <;> rcases h2 with ⟨rfl, rfl | rfl⟩ | ⟨rfl, rfl | rfl⟩ <;> decide) (by decide) ?_).1
      (by rcases h1 with ⟨rfl, rfl | rfl⟩ | ⟨rfl, rfl | rfl⟩ <;> rcases h2 with ⟨rfl, rfl | rfl⟩ | ⟨rfl, rfl | rfl⟩ <;> decide) fuel
    have e : c * c + d * d = 1 := by rcases h2 with ⟨rfl, rfl | rfl⟩ | ⟨rfl, rfl | rfl⟩ <;> decide
    have e' := congrArg (fun x : Int => (C x : ℤ[X])) e
    refine ⟨-C (12289 * (d * d)), ?_⟩
    simp only [ntruDet, polyZ, poly_cons, poly_nil]
    simp only [map_add, map_mul, map_neg, map_one, map_zero] at e' ⊢
    linear_combination C 12289 * e'
  simp only [units2, List.mem_cons, List.not_mem_nil, or_false] at hf hg
  rcases hf with rfl | rfl | rfl | rfl <;> rcases hg with rfl | rfl | rfl | rfl <;> exact key _ _ _ _ (by decide) (by decide)

/-- C70 is violated also in exact arithmetic. -/
theorem C70_violated_exact (k : Nat) (h1 : 1 ≤ k) (f g : List Int) (hf : f.length = 2 ^ k) (hg : g.length = 2 ^ k)
    (uf : IsUnitZ (2 ^ k) f) (ug : IsUnitZ (2 ^ k) g) (fuel : Nat) : NtruSolve exactOps fuel f g = .diverge := by
  obtain ⟨k, rfl⟩ : ∃ j, k = j + 1 := ⟨k - 1, by omega⟩
  exact diverge_of_norm exactOps loops_exact k f g hf hg (unit_norm k f hf uf) (unit_norm k g hg ug) fuel

/-- Units exist in every degree; they are for example 1 and `x`. -/
example : IsUnitZ (2 ^ 2) [1, 0, 0, 0] ∧ IsUnitZ (2 ^ 2) [0, 1, 0, 0] ∧ ∀ fuel, NtruSolve exactOps fuel [1, 0, 0, 0] [0, 1, 0, 0] = .diverge := by
  have u1 : IsUnitZ (2 ^ 2) [1, 0, 0, 0] := ⟨[1, 0, 0, 0], rfl, 0, by simp [polyZ]⟩
  have u2 : IsUnitZ (2 ^ 2) [0, 1, 0, 0] := ⟨[0, 0, 0, -1], rfl, -1, by simp [polyZ]; ring⟩
  exact ⟨u1, u2, C70_violated_exact 2 (by decide) _ _ rfl rfl u1 u2⟩

end Falcon
