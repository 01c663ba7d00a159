import Verif.Props.SamplerLaw
/-!
# Which polynomials key generation can draw (C73)
-/

namespace Falcon
open Spec

/-- Every value in `[-18,19]` is returned by the sampler of key generation for some draw, in one iteration. -/
theorem sample_reach {O : FloatOps} (k : KeyArith O) : ∃ D : Int → Draw, ∀ z : Int, -18 ≤ z → z ≤ 19 → ∀ (rand : Rand) (fuel pos : Nat),
    rand pos = some (D z) → Samplerz O rand (O.ofInt 0) (O.lit 1.43300980528773) (O.sub (O.lit 1.43300980528773) (O.lit 0.001)) (fuel + 1) pos =
      .ok (Int8.ofInt z, pos + 1) := by
  have pos : ∀ b < 2, ∀ z0 < 19, baseCount z0 * (128 * acceptBytes (keyShift b z0)) ≠ 0 := by decide +kernel
  have h : ∀ z : Int, ∃ d : Draw, -18 ≤ z → z ≤ 19 → d ∈ keyHits O z := by
    intro z
    by_cases hz : -18 ≤ z ∧ z ≤ 19
    · obtain ⟨b, z0, hb, hz0, e⟩ : ∃ b z0 : Nat, b ≤ 1 ∧ z0 ≤ 18 ∧ z = (b : Int) + (2 * b - 1) * z0 := by
        rcases le_or_gt z 0 with h0 | h0
        · obtain ⟨m, rfl⟩ : ∃ m : Nat, z = -(m : Int) := ⟨(-z).toNat, by omega⟩
          exact ⟨0, m, by omega, by omega, by push_cast; omega⟩
        · obtain ⟨m, rfl⟩ : ∃ m : Nat, z = (m : Int) + 1 := ⟨(z - 1).toNat, by omega⟩
          exact ⟨1, m, by omega, by omega, by push_cast; omega⟩
      have hc := C60_key k b z0 hb hz0
      rw [← e] at hc
      have h0 := pos b (by omega) z0 (by omega)
      rw [← hc] at h0
      obtain ⟨d, hd⟩ := Set.nonempty_of_ncard_ne_zero h0
      exact ⟨d, fun _ _ => hd⟩
    · exact ⟨fun _ => 0, fun h1 h2 => absurd ⟨h1, h2⟩ hz⟩
  choose D hD using h
  refine ⟨D, fun z h1 h2 rand fuel pos hr => ?_⟩
  obtain ⟨e1, e2⟩ := (mem_hits O _ _ _ _ _).1 (hD z h1 h2)
  rw [Samplerz_step O rand _ _ _ fuel pos (D z) hr, e1, Go.ok_bind, if_pos rfl, e2]
  rfl

/-- Digits in `[-18,19]` with a given sum. -/
theorem digits_sum (m : Nat) (c : Int) (h1 : -18 * (m : Int) ≤ c) (h2 : c ≤ 19 * (m : Int)) :
    ∃ l : List Int, l.length = m ∧ (∀ z ∈ l, -18 ≤ z ∧ z ≤ 19) ∧ l.sum = c := by
  induction m generalizing c with
  | zero => exact ⟨[], rfl, by simp, by simp; omega⟩
  | succ m ih =>
    obtain ⟨z, z1, z2, z3, z4⟩ : ∃ z : Int, -18 ≤ z ∧ z ≤ 19 ∧ -18 * (m : Int) ≤ c - z ∧ c - z ≤ 19 * (m : Int) := by
      push_cast at h1 h2
      by_cases hc : c < -18 * (m : Int)
      · exact ⟨c + 18 * m, by omega, by omega, by omega, by omega⟩
      · by_cases hc' : 19 * (m : Int) < c
        · exact ⟨c - 19 * m, by omega, by omega, by omega, by omega⟩
        · exact ⟨0, by omega, by omega, by omega, by omega⟩
    obtain ⟨l, l1, l2, l3⟩ := ih (c - z) z3 z4
    refine ⟨z :: l, by simp [l1], ?_, by rw [List.sum_cons, l3]; omega⟩
    intro y hy
    rcases List.mem_cons.1 hy with rfl | hy
    · exact ⟨z1, z2⟩
    · exact l2 y hy

/-- Digits in `[-18,19]` in blocks of length `m` with given sums. -/
theorem digits_blocks (m : Nat) (h : List Int) (hb : ∀ c ∈ h, -18 * (m : Int) ≤ c ∧ c ≤ 19 * (m : Int)) :
    ∃ l : List Int, l.length = h.length * m ∧ (∀ z ∈ l, -18 ≤ z ∧ z ≤ 19) ∧ ∀ j c, h[j]? = some c → ((l.drop (j * m)).take m).sum = c := by
  induction h with
  | nil => exact ⟨[], by simp, by simp, by simp⟩
  | cons a h ih =>
    obtain ⟨l, l1, l2, l3⟩ := ih fun c hc => hb c (List.mem_cons_of_mem _ hc)
    obtain ⟨d, d1, d2, d3⟩ := digits_sum m a (hb a List.mem_cons_self).1 (hb a List.mem_cons_self).2
    refine ⟨d ++ l, by rw [List.length_append, d1, l1, List.length_cons]; ring, ?_, ?_⟩
    · intro z hz
      rcases List.mem_append.1 hz with hz | hz
      · exact d2 z hz
      · exact l2 z hz
    · intro j c hc
      cases j with
      | zero =>
        rw [Nat.zero_mul, List.drop_zero, ← d1, List.take_left, d3]
        simpa using hc
      | succ j =>
        rw [Nat.succ_mul, Nat.add_comm, ← d1, ← List.drop_drop, List.drop_left, d1]
        exact l3 j c (by simpa using hc)

theorem reach_samples {O : FloatOps} (D : Int → Draw)
    (hD : ∀ z : Int, -18 ≤ z → z ≤ 19 → ∀ (rand : Rand) (fuel pos : Nat), rand pos = some (D z) → Samplerz O rand (O.ofInt 0)
      (O.lit 1.43300980528773) (O.sub (O.lit 1.43300980528773) (O.lit 0.001)) (fuel + 1) pos = .ok (Int8.ofInt z, pos + 1))
    (rand : Rand) (fuel : Nat) (l : List Int) (hl : ∀ z ∈ l, -18 ≤ z ∧ z ≤ 19) (pos : Nat)
    (hr : ∀ i z, l[i]? = some z → rand (pos + i) = some (D z)) :
    genSamples O rand (fuel + 1) l.length pos = .ok (l.map Int8.ofInt, pos + l.length) := by
  induction l generalizing pos with
  | nil => rfl
  | cons a l ih =>
    have ha := hl a List.mem_cons_self
    rw [List.length_cons, genSamples, hD a ha.1 ha.2 rand fuel pos (hr 0 a (by simp)), Go.ok_bind]
    simp only
    rw [ih (fun z hz => hl z (List.mem_cons_of_mem _ hz)) (pos + 1) (fun i z hz => by
      rw [show pos + 1 + i = pos + (i + 1) by omega]
      exact hr (i + 1) z (by simpa using hz)), Go.ok_bind]
    rw [show pos + 1 + l.length = pos + (l.length + 1) by omega]
    rfl

theorem toInt_digit (z : Int) (h1 : -18 ≤ z) (h2 : z ≤ 19) : (Int8.ofInt z).toInt = z := Int8.toInt_ofInt_of_le (by omega) (by omega)

/-- The digits that make `GenPoly` return `h`. -/
theorem genPoly_digits {O : FloatOps} (k : KeyArith O) : ∃ D : Int → Draw, ∀ (n : UInt16), 1 ≤ n.toNat → n.toNat ≤ 4096 → ∀ h : List Int16,
    h.length = n.toNat → (∀ c ∈ h, -18 * ((4096 / n.toNat : Nat) : Int) ≤ c.toInt ∧ c.toInt ≤ 19 * ((4096 / n.toNat : Nat) : Int)) →
    ∃ l : List Int, l.length = 4096 ∧ ∀ (rand : Rand) (fuel pos : Nat), (∀ i z, l[i]? = some z → rand (pos + i) = some (D z)) →
      GenPoly O rand (fuel + 1) n pos = .ok (h, pos + 4096) := by
  obtain ⟨D, hD⟩ := sample_reach k
  refine ⟨D, fun n n1 n2 h hl hb => ?_⟩
  have hkn : n.toNat * (4096 / n.toNat) ≤ 4096 := Nat.mul_div_le 4096 n.toNat
  obtain ⟨l, l1, l2, l3⟩ := digits_blocks (4096 / n.toNat) (h.map Int16.toInt) (by
    intro c hc
    obtain ⟨x, hx, rfl⟩ := List.mem_map.1 hc
    exact hb x hx)
  rw [List.length_map, hl] at l1
  have e4 : (l ++ List.replicate (4096 - l.length) 0).length = 4096 := by
    rw [List.length_append, List.length_replicate, l1]
    omega
  have b4 : ∀ z ∈ l ++ List.replicate (4096 - l.length) (0 : Int), -18 ≤ z ∧ z ≤ 19 := by
    intro z hz
    rcases List.mem_append.1 hz with hz | hz
    · exact l2 z hz
    · rw [List.eq_of_mem_replicate hz]
      omega
  refine ⟨l ++ List.replicate (4096 - l.length) 0, e4, fun rand fuel pos hr => ?_⟩
  have hs := reach_samples D hD rand fuel _ b4 pos hr
  rw [e4] at hs
  unfold GenPoly
  rw [if_neg (by
    intro hc
    have : (4096 : UInt16).toNat < n.toNat := hc
    have e : (4096 : UInt16).toNat = 4096 := rfl
    omega), hs, Go.ok_bind]
  simp only
  obtain ⟨r, er, lr, hr'⟩ := sumBlocks_ok ((l ++ List.replicate (4096 - l.length) 0).map Int8.ofInt) (4096 / n.toNat) n.toNat 0 (by
    rw [List.length_map, e4, Nat.zero_add]
    exact hkn)
  rw [er, Go.ok_bind]
  have e : r = h := by
    apply List.ext_getElem?
    intro j
    by_cases hj : j < n.toNat
    · have hj' : j < h.length := by omega
      rw [hr' j hj, List.getElem?_eq_getElem hj', Nat.zero_add]
      have h5 := l3 j h[j].toInt (by rw [List.getElem?_map, List.getElem?_eq_getElem hj']; rfl)
      have hjk : j * (4096 / n.toNat) + 4096 / n.toNat ≤ l.length := by
        rw [l1, ← Nat.succ_mul]
        exact Nat.mul_le_mul_right _ hj
      rw [← List.map_drop, ← List.map_take, List.map_map, List.drop_append_of_le_length (le_trans (Nat.le_add_right _ _) hjk),
        List.take_append_of_le_length (by rw [List.length_drop]; exact Nat.le_sub_of_add_le (by rw [Nat.add_comm]; exact hjk))]
      have e6 : ((l.drop (j * (4096 / n.toNat))).take (4096 / n.toNat)).map (Int8.toInt ∘ Int8.ofInt) =
          (l.drop (j * (4096 / n.toNat))).take (4096 / n.toNat) := by
        conv_rhs => rw [← List.map_id ((l.drop (j * (4096 / n.toNat))).take (4096 / n.toNat))]
        apply List.map_congr_left
        intro z hz
        have := l2 z (List.mem_of_mem_drop (List.mem_of_mem_take hz))
        exact toInt_digit z this.1 this.2
      rw [e6, h5, Int16.ofInt_toInt]
    · rw [List.getElem?_eq_none (by omega), List.getElem?_eq_none (by omega)]
  rw [e]
  rfl

/-- C73: the polynomials that `GenPoly(n)` returns, for `3 <= n <= 4096`, are exactly those with `n` coefficients between `-18 k` and `19 k`,
where `k = floor(4096/n)` is the number of samples per coefficient. -/
theorem C73_range {O : FloatOps} (k : KeyArith O) (n : UInt16) (h3 : 3 ≤ n.toNat) (hn : n.toNat ≤ 4096) (pos : Nat) (h : List Int16) :
    (∃ rand fuel pos', GenPoly O rand fuel n pos = .ok (h, pos')) ↔
      h.length = n.toNat ∧ ∀ c ∈ h, -18 * ((4096 / n.toNat : Nat) : Int) ≤ c.toInt ∧ c.toInt ≤ 19 * ((4096 / n.toNat : Nat) : Int) := by
  constructor
  · rintro ⟨rand, fuel, pos', e⟩
    obtain ⟨l1, f0, e0, l0, hf⟩ := C48_genPoly O k.ints rand fuel n h3 pos h pos' e
    obtain ⟨-, b0⟩ := genSamples_ok O k.ints rand fuel 4096 pos f0 pos' e0
    refine ⟨l1, fun c hc => ?_⟩
    obtain ⟨i, hi, rfl⟩ := List.getElem_of_mem hc
    obtain ⟨c', hc', es, -⟩ := hf i (by omega)
    rw [List.getElem?_eq_getElem hi, Option.some.injEq] at hc'
    rw [hc', es]
    have hkn : n.toNat * (4096 / n.toNat) ≤ 4096 := Nat.mul_div_le 4096 n.toNat
    have hik : i * (4096 / n.toNat) + 4096 / n.toNat ≤ n.toNat * (4096 / n.toNat) := by
      rw [← Nat.succ_mul]
      exact Nat.mul_le_mul_right _ (by omega)
    have hb := sum_bounds (((f0.drop (i * (4096 / n.toNat))).take (4096 / n.toNat)).map Int8.toInt) (-18) 19 (by
      intro v hv
      obtain ⟨w, hw, rfl⟩ := List.mem_map.1 hv
      exact b0 w (List.mem_of_mem_drop (List.mem_of_mem_take hw)))
    have hlen : (((f0.drop (i * (4096 / n.toNat))).take (4096 / n.toNat)).map Int8.toInt).length = 4096 / n.toNat := by
      rw [List.length_map, List.length_take, List.length_drop]
      omega
    rw [hlen] at hb
    exact hb
  · rintro ⟨l1, hb⟩
    obtain ⟨D, hD⟩ := genPoly_digits k
    obtain ⟨l, el, hl⟩ := hD n (by omega) hn h l1 hb
    refine ⟨fun i => some (D (l.getD (i - pos) 0)), 1, pos + 4096, hl _ 0 pos fun i z hz => ?_⟩
    simp only [Nat.add_sub_cancel_left, List.getD_eq_getElem?_getD, hz, Option.getD_some]

/-- C73: for every two such polynomials there is a source of 8192 draws of 11 random bytes from which key generation draws them first. -/
theorem C73_source {O : FloatOps} (k : KeyArith O) (n : UInt16) (h1 : 1 ≤ n.toNat) (hn : n.toNat ≤ 4096) (f g : List Int16) (hf : f.length = n.toNat)
    (hg : g.length = n.toNat) (bf : ∀ c ∈ f, -18 * ((4096 / n.toNat : Nat) : Int) ≤ c.toInt ∧ c.toInt ≤ 19 * ((4096 / n.toNat : Nat) : Int))
    (bg : ∀ c ∈ g, -18 * ((4096 / n.toNat : Nat) : Int) ≤ c.toInt ∧ c.toInt ≤ 19 * ((4096 / n.toNat : Nat) : Int)) :
    ∃ d : Fin 8192 → Draw, ∀ fuel, GenPoly O (source d) (fuel + 1) n 0 = .ok (f, 4096) ∧ GenPoly O (source d) (fuel + 1) n 4096 = .ok (g, 8192) := by
  obtain ⟨D, hD⟩ := genPoly_digits k
  obtain ⟨l, el, hl⟩ := hD n h1 hn f hf bf
  obtain ⟨r, er, hr⟩ := hD n h1 hn g hg bg
  refine ⟨fun i => D ((l ++ r).getD i 0), fun fuel => ⟨?_, ?_⟩⟩
  · refine hl _ fuel 0 fun i z hz => ?_
    have hi : i < l.length := (List.getElem?_eq_some_iff.1 hz).1
    unfold source
    rw [dif_pos (by omega)]
    simp only [Nat.zero_add, List.getD_eq_getElem?_getD, List.getElem?_append_left hi, hz, Option.getD_some]
  · refine hr _ fuel 4096 fun i z hz => ?_
    have hi : i < r.length := (List.getElem?_eq_some_iff.1 hz).1
    unfold source
    rw [dif_pos (by omega)]
    simp only [List.getD_eq_getElem?_getD, List.getElem?_append_right (show l.length ≤ 4096 + i by omega), el, Nat.add_sub_cancel_left, hz, Option.getD_some]

/-- C73: for every two such polynomials there are random bytes for which key generation draws them first. -/
theorem C73_pair {O : FloatOps} (k : KeyArith O) (n : UInt16) (h1 : 1 ≤ n.toNat) (hn : n.toNat ≤ 4096) (f g : List Int16) (hf : f.length = n.toNat)
    (hg : g.length = n.toNat) (bf : ∀ c ∈ f, -18 * ((4096 / n.toNat : Nat) : Int) ≤ c.toInt ∧ c.toInt ≤ 19 * ((4096 / n.toNat : Nat) : Int))
    (bg : ∀ c ∈ g, -18 * ((4096 / n.toNat : Nat) : Int) ≤ c.toInt ∧ c.toInt ≤ 19 * ((4096 / n.toNat : Nat) : Int)) :
    ∃ rand : Rand, ∀ fuel, GenPoly O rand (fuel + 1) n 0 = .ok (f, 4096) ∧ GenPoly O rand (fuel + 1) n 4096 = .ok (g, 8192) := by
  obtain ⟨d, h⟩ := C73_source k n h1 hn f g hf hg bf bg
  exact ⟨source d, h⟩

/-- With 512 coefficients, 152 is drawn in IEEE arithmetic and 153 is not. -/
example : (∃ rand fuel pos', GenPoly ieeeOps rand fuel 512 0 = .ok (List.replicate 511 (-144) ++ [152], pos')) ∧
    ¬ ∃ rand fuel pos', GenPoly ieeeOps rand fuel 512 0 = .ok (List.replicate 511 0 ++ [153], pos') := by
  rw [C73_range key_ieee 512 (by decide) (by decide) 0, C73_range key_ieee 512 (by decide) (by decide) 0]
  decide +kernel

end Falcon
