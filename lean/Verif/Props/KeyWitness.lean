import Verif.Props.GsFloat
/-!
# A generated key that does not satisfy the NTRU equation (C42)

`NtruSolve` accepts `f`, `g` when the gcd of their norms is 1 modulo `2^64`. For `f = (1 + 16x)a` and `g = (1 + 16x)b` of degree 16 the gcd is
`2^64 + 1`.
-/

namespace Falcon
open Spec Polynomial F64

/-! ### Every small pair of polynomials is generated for some random bytes -/

/-- Random bytes for which the sampler returns -1, 0 or 1. -/
def digitBytes (d : Int) : Fin 11 → UInt8 := fun j =>
  if j = 10 then 0 else if j = 9 then (if d = 1 then 1 else 0) else if d = -1 then 128 else 255

/-- The sampler of key generation returns the digit. -/
def Digits (O : FloatOps) : Prop := ∀ (dig : Nat → Int), (∀ i, dig i = -1 ∨ dig i = 0 ∨ dig i = 1) → ∀ fuel pos : Nat,
  Samplerz O (fun i => some (digitBytes (dig i))) (O.ofInt 0) (O.lit 1.43300980528773) (O.sub (O.lit 1.43300980528773) (O.lit 0.001)) (fuel + 1)
    pos = .ok (Int8.ofInt (dig pos), pos + 1)

theorem digits_ieee : Digits ieeeOps := by
  intro dig hdig fuel pos
  rw [Samplerz]
  have h := hdig pos
  simp only
  generalize dig pos = d at h
  rcases h with rfl | rfl | rfl
  · exact bind_of_ok (a := true) (by decide +kernel) (by rw [if_pos rfl]; exact congrArg (fun z : Int8 => Go.ok (z, pos + 1)) (by decide +kernel))
  · exact bind_of_ok (a := true) (by decide +kernel) (by rw [if_pos rfl]; exact congrArg (fun z : Int8 => Go.ok (z, pos + 1)) (by decide +kernel))
  · exact bind_of_ok (a := true) (by decide +kernel) (by rw [if_pos rfl]; exact congrArg (fun z : Int8 => Go.ok (z, pos + 1)) (by decide +kernel))

theorem digit_samples (O : FloatOps) (hO : Digits O) (dig : Nat → Int) (hd : ∀ i, dig i = -1 ∨ dig i = 0 ∨ dig i = 1) (fuel m pos : Nat) :
    genSamples O (fun i => some (digitBytes (dig i))) (fuel + 1) m pos = .ok ((List.range' pos m).map fun i => Int8.ofInt (dig i), pos + m) := by
  induction m generalizing pos with
  | zero => rfl
  | succ m ih =>
    rw [genSamples, hO dig hd, Go.ok_bind]
    simp only [ih, Go.ok_bind, Go.pure_eq, List.range'_succ, List.map_cons]
    rw [show pos + 1 + m = pos + (m + 1) by omega]

/-- Digit `o` of the block with sum `c`. -/
def blockDigit (c : Int) (o : Nat) : Int := if (o : Int) < c then 1 else if (o : Int) < -c then -1 else 0

theorem blockDigit_cases (c : Int) (o : Nat) : blockDigit c o = -1 ∨ blockDigit c o = 0 ∨ blockDigit c o = 1 := by
  unfold blockDigit
  split
  · simp
  · split <;> simp

theorem blockDigit_sum (c : Int) (m : Nat) : ((List.range m).map fun o => blockDigit c o).sum = if (m : Int) < c then (m : Int) else if (m : Int) < -c then -(m : Int) else c := by
  induction m with
  | zero =>
    simp only [List.range_zero, List.map_nil, List.sum_nil]
    push_cast
    split
    · rfl
    · split
      · rfl
      · omega
  | succ m ih =>
    rw [List.range_succ, List.map_append, List.sum_append, ih]
    simp only [List.map_cons, List.map_nil, List.sum_cons, List.sum_nil, blockDigit]
    push_cast
    split_ifs <;> omega

/-- The digits of the run: `k` digits for each coefficient of `f`, from draw 0, and of `g`, from draw 4096. -/
def pairDigit (f g : List Int16) (k i : Nat) : Int :=
  if i < 4096 then blockDigit (f.getD (i / k) 0).toInt (i % k) else blockDigit (g.getD ((i - 4096) / k) 0).toInt ((i - 4096) % k)

/-- Random bytes that produce `f` and `g`. -/
def pairRand (f g : List Int16) : Rand := fun i => some (digitBytes (pairDigit f g (4096 / f.length) i))

theorem digit_poly (O : FloatOps) (hO : Digits O) (dig : Nat → Int) (hd : ∀ i, dig i = -1 ∨ dig i = 0 ∨ dig i = 1) (n : UInt16)
    (hn : n.toNat ≤ 4096) (h : List Int16) (hl : h.length = n.toNat) (hs : ∀ v ∈ h, |v.toInt| ≤ ((4096 / n.toNat : Nat) : Int)) (pos : Nat)
    (hdig : ∀ j o, j < n.toNat → o < 4096 / n.toNat → dig (pos + (j * (4096 / n.toNat) + o)) = blockDigit (h.getD j 0).toInt o) (fuel : Nat) :
    GenPoly O (fun i => some (digitBytes (dig i))) (fuel + 1) n pos = .ok (h, pos + 4096) := by
  unfold GenPoly
  rw [if_neg (by
    intro hc
    have : (4096 : UInt16).toNat < n.toNat := hc
    have e : (4096 : UInt16).toNat = 4096 := rfl
    omega), digit_samples O hO dig hd, Go.ok_bind]
  simp only
  generalize hk : 4096 / n.toNat = k at *
  have hkn : n.toNat * k ≤ 4096 := by rw [← hk]; exact Nat.mul_div_le 4096 n.toNat
  obtain ⟨r, er, lr, hr⟩ := sumBlocks_ok ((List.range' pos 4096).map fun i => Int8.ofInt (dig i)) k n.toNat 0 (by
    rw [List.length_map, List.length_range', Nat.zero_add]
    exact hkn)
  rw [er, Go.ok_bind]
  have e : r = h := by
    apply List.ext_getElem?
    intro j
    by_cases hj : j < n.toNat
    · rw [hr j hj, List.getElem?_eq_getElem (by omega)]
      congr 1
      have hjk : j * k + k ≤ 4096 := by
        have : (j + 1) * k ≤ n.toNat * k := Nat.mul_le_mul_right k hj
        rw [Nat.add_mul, one_mul] at this
        omega
      have e1 : ((((List.range' pos 4096).map fun i => Int8.ofInt (dig i)).drop ((0 + j) * k)).take k).map Int8.toInt =
          (List.range k).map fun o => blockDigit (h.getD j 0).toInt o := by
        rw [← List.map_drop, ← List.map_take, List.map_map, Nat.zero_add]
        have e2 : ((List.range' pos 4096).drop (j * k)).take k = List.range' (pos + j * k) k := by
          apply List.ext_getElem
          · simp only [List.length_take, List.length_drop, List.length_range']
            omega
          · intro i h1 h2
            simp only [List.getElem_take, List.getElem_drop, List.getElem_range']
            omega
        rw [e2, List.range'_eq_map_range, List.map_map]
        apply List.map_congr_left
        intro o ho
        rw [List.mem_range] at ho
        simp only [Function.comp_apply]
        rw [show pos + j * k + o = pos + (j * k + o) by omega, hdig j o hj ho]
        rcases blockDigit_cases (h.getD j 0).toInt o with e | e | e <;> rw [e] <;> rfl
      rw [e1, blockDigit_sum]
      have eg : h.getD j 0 = h[j] := by simp [List.getD_eq_getElem?_getD, hl, hj]
      have hb := hs h[j] (List.getElem_mem _)
      rw [abs_le] at hb
      rw [eg, if_neg (by omega), if_neg (by omega), Int16.ofInt_toInt]
    · rw [List.getElem?_eq_none (by omega), List.getElem?_eq_none (by omega)]
  rw [e]
  rfl

/-- For every two polynomials whose coefficients are at most `4096/n` in absolute value there are random bytes for which key generation starts with
them. -/
theorem pairRand_poly (O : FloatOps) (hO : Digits O) (n : UInt16) (hn : n.toNat ≤ 4096) (h0 : n.toNat ∣ 4096) (f g : List Int16)
    (hf : f.length = n.toNat) (hg : g.length = n.toNat) (bf : ∀ v ∈ f, |v.toInt| ≤ ((4096 / n.toNat : Nat) : Int))
    (bg : ∀ v ∈ g, |v.toInt| ≤ ((4096 / n.toNat : Nat) : Int)) (fuel : Nat) :
    GenPoly O (pairRand f g) (fuel + 1) n 0 = .ok (f, 4096) ∧ GenPoly O (pairRand f g) (fuel + 1) n 4096 = .ok (g, 8192) := by
  obtain ⟨k, hk⟩ := h0
  have np : 0 < n.toNat := by
    rcases Nat.eq_zero_or_pos n.toNat with h | h
    · rw [h, Nat.zero_mul] at hk
      exact absurd hk (by decide)
    · exact h
  have ek : 4096 / n.toNat = k := by rw [hk]; exact Nat.mul_div_cancel_left k np
  have kp : 0 < k := by
    rcases Nat.eq_zero_or_pos k with h | h
    · rw [h, Nat.mul_zero] at hk
      exact absurd hk (by decide)
    · exact h
  have lt : ∀ j o, j < n.toNat → o < k → j * k + o < 4096 := by
    intro j o hj ho
    have : (j + 1) * k ≤ n.toNat * k := Nat.mul_le_mul_right k hj
    rw [Nat.add_mul, one_mul] at this
    omega
  have dm : ∀ j o, o < k → (j * k + o) / k = j ∧ (j * k + o) % k = o := by
    intro j o ho
    constructor
    · rw [Nat.add_comm, Nat.add_mul_div_right _ _ kp, Nat.div_eq_of_lt ho, Nat.zero_add]
    · rw [Nat.add_comm, Nat.add_mul_mod_self_right, Nat.mod_eq_of_lt ho]
  have hd : ∀ i, pairDigit f g k i = -1 ∨ pairDigit f g k i = 0 ∨ pairDigit f g k i = 1 := by
    intro i
    unfold pairDigit
    split <;> exact blockDigit_cases _ _
  have er : pairRand f g = fun i => some (digitBytes (pairDigit f g k i)) := by
    unfold pairRand
    rw [hf, ek]
  rw [er]
  constructor
  · refine digit_poly O hO _ hd n hn f hf bf 0 ?_ fuel
    intro j o hj ho
    rw [ek] at ho ⊢
    rw [Nat.zero_add, pairDigit, if_pos (lt j o hj ho), (dm j o ho).1, (dm j o ho).2]
  · refine digit_poly O hO _ hd n hn g hg bg 4096 ?_ fuel
    intro j o hj ho
    rw [ek] at ho ⊢
    rw [pairDigit, if_neg (by omega), Nat.add_sub_cancel_left, (dm j o ho).1, (dm j o ho).2]

/-! ### Evaluation by the kernel

`FFT` is defined by well-founded recursion, which the kernel does not evaluate well. -/

/-- `FFT`, by structural recursion if the length allows it. -/
def fftD (O : FloatOps) (d : Nat) (f : List O.F) : Go (List O.C) := if f.length ≤ 2 ^ (d + 1) then fftDepth O d f else FFT O f

theorem FFT_eq_fftD (O : FloatOps) (d : Nat) : FFT O = fftD O d := by
  funext f
  unfold fftD
  split
  · exact FFT_eq_depth O d f (by assumption)
  · rfl

/-- `GsNorm` with `fftD`. -/
def GsNormD (O : FloatOps) (d : Nat) (f g : List O.F) (q : O.F) : Go O.F := do
  let sqnormFg := Sqnorm O [f, g]
  let a ← fftD O d f
  let af ← IFFT O (AdjFFT O a)
  let ft ← fftD O d f
  let gt ← fftD O d af
  let p ← MulFFT O ft gt
  let ff ← IFFT O p
  let a ← fftD O d g
  let ag ← IFFT O (AdjFFT O a)
  let ft ← fftD O d g
  let gt ← fftD O d ag
  let p ← MulFFT O ft gt
  let gg ← IFFT O p
  let ffgg ← Add O ff gg
  let ft ← fftD O d af
  let gt ← fftD O d ffgg
  let p ← DivFFT O ft gt
  let Ft ← IFFT O p
  let ft ← fftD O d ag
  let gt ← fftD O d ffgg
  let p ← DivFFT O ft gt
  let Gt ← IFFT O p
  let sqnormFG := O.mul (O.pow2 q) (Sqnorm O [Ft, Gt])
  BiggestFloat64 O [sqnormFg, sqnormFG]

theorem Go.bind_assoc' {α β γ : Type} (x : Go α) (f : α → Go β) (g : β → Go γ) : (x >>= f) >>= g = x >>= fun a => f a >>= g := by
  cases x <;> rfl

theorem GsNorm_eq_D (O : FloatOps) (d : Nat) (f g : List O.F) (q : O.F) : GsNorm O f g q = GsNormD O d f g q := by
  unfold GsNorm GsNormD Adj Mul Div
  simp only [FFT_eq_fftD O d, Go.bind_assoc']

/-- `babai` with `fftD`. -/
def babaiD (O : FloatOps) (d : Nat) (fa ga : List O.C) (FAdj GAdj : List O.F) : Go (List Int) := do
  let Fa ← fftD O d FAdj
  let Ga ← fftD O d GAdj
  let d1 ← MulFFT O fa (AdjFFT O fa)
  let d2 ← MulFFT O ga (AdjFFT O ga)
  let den ← AddFFT O d1 d2
  let n1 ← MulFFT O Fa (AdjFFT O fa)
  let n2 ← MulFFT O Ga (AdjFFT O ga)
  let num ← AddFFT O n1 n2
  let k ← DivFFT O num den
  let r ← IFFT O k
  pure (RoundAll O r)

/-- `reduceLoop` with `fftD`. -/
def reduceLoopD (O : FloatOps) (d : Nat) (f g : List Int) (size : Nat) (fa ga : List O.C) :
    Nat → List Int → List Int → Go (List Int × List Int)
  | 0, _, _ => .diverge
  | fuel + 1, F, G => do
    let SIZE ← sizeOf2 F G
    if SIZE < size then pure (F, G)
    else do
      let k ← babaiD O d fa ga (adjust O SIZE F) (adjust O SIZE G)
      if allZeroes k then pure (F, G)
      else do
        let fk ← karamul f k
        let gk ← karamul g k
        let F ← subShifted fk (SIZE - size) f.length 0 F
        let G ← subShifted gk (SIZE - size) f.length 0 G
        reduceLoopD O d f g size fa ga fuel F G

theorem reduceLoop_eq_D (O : FloatOps) (d : Nat) (f g : List Int) (size : Nat) (fa ga : List O.C) (fuel : Nat) (F G : List Int) :
    reduceLoop O f g size fa ga fuel F G = reduceLoopD O d f g size fa ga fuel F G := by
  induction fuel generalizing F G with
  | zero => rfl
  | succ fuel ih =>
    have hb : babai O fa ga = babaiD O d fa ga := by
      funext a b
      unfold babai babaiD
      rw [FFT_eq_fftD O d]
    simp only [reduceLoop, reduceLoopD, ih, hb]

/-- `reduce` with `fftD`. -/
def reduceD (O : FloatOps) (d fuel : Nat) (f g F G : List Int) : Go (List Int × List Int) := do
  let size ← sizeOf2 f g
  let fa ← fftD O d (adjust O size f)
  let ga ← fftD O d (adjust O size g)
  reduceLoopD O d f g size fa ga fuel F G

theorem reduce_eq_D (O : FloatOps) (d fuel : Nat) (f g F G : List Int) : reduce O fuel f g F G = reduceD O d fuel f g F G := by
  unfold reduce reduceD
  simp only [FFT_eq_fftD O d, reduceLoop_eq_D O d]

theorem solve_step (O : FloatOps) (d fuel : Nat) (f g fp gp Fp Gp F G : List Int) (r : List Int × List Int) (h : f.length ≠ 1) (h1 : fieldNorm f = .ok fp)
    (h2 : fieldNorm g = .ok gp) (h3 : NtruSolve O fuel fp gp = .ok (some (Fp, Gp))) (h4 : karamul (lift Fp) (galoisConjugate g) = .ok F)
    (h5 : karamul (lift Gp) (galoisConjugate f) = .ok G) (h6 : reduceD O d (fuel + 1) f g F G = .ok r) :
    NtruSolve O (fuel + 1) f g = .ok (some r) := by
  rw [NtruSolve, if_neg h, h1, Go.ok_bind, h2, Go.ok_bind, h3, Go.ok_bind]
  simp only [h4, h5, Go.ok_bind]
  rw [reduce_eq_D O d, h6]
  rfl

/-! ### The witness -/

def badF : List Int16 := [-15, 14, -34, -34, -33, -16, -2, -31, 17, 14, -34, -30, 31, -18, -33, -15]

def badG : List Int16 := [17, 16, -1, -15, 17, 18, 34, 33, 15, -15, 14, -33, -15, 15, -15, 15]

/-- The quality check passes. -/
theorem bad_norm : GsNorm ieeeOps (Int16ToFloat64 ieeeOps badF) (Int16ToFloat64 ieeeOps badG) (ieeeOps.ofInt Q) = .ok (.fin 16447) := by
  rw [GsNorm_eq_D ieeeOps 3]
  decide +kernel

theorem bad_lt : ieeeOps.lt (ieeeOps.mul (ieeeOps.pow2 (ieeeOps.lit 1.17)) (ieeeOps.ofInt Q)) (.fin 16447) = false := by decide +kernel

theorem bad_ntt : (do
    let t ← NTT wrap64 badF
    pure (anyZeroes t)) = .ok false := by decide +kernel

theorem bad_solve1 : NtruSolve ieeeOps 16 [5173113206185709984980896772961] [24858651092917211636434114592] =
    .ok (some ([1362355471006585], [6546603170753])) := by
  decide +kernel

theorem bad_solve2 : NtruSolve ieeeOps 17
      [-277076930725169, 2257507825157120]
      [15135464714564, 156938104999364] =
    .ok (some (
      [20619883160113385814789403940, -213805485955289434341864811940],
      [-1813912713227900703021782257, -14779007886173310932413711360])) := by
  refine solve_step ieeeOps 0 16 _ _ _ _ _ _
    [20619883160113385814789403940, -213805485955289434341864811940]
    [-1813912713227900703021782257, -14779007886173310932413711360] _ (by decide)
    (by decide +kernel) (by decide +kernel) bad_solve1 (by decide +kernel) (by decide +kernel) (by decide +kernel)

theorem bad_solve4 : NtruSolve ieeeOps 18
      [-4718312, -18349396, -44825913, -46596168]
      [8257938, -26345956, 31719700, -18087810] =
    .ok (some (
      [-365505954178000, -839560380729568, 1496158122054216, -1264965999457376],
      [-379484691951400, 1433545934271020, 1187887076787785, 319742475083272])) := by
  refine solve_step ieeeOps 1 17 _ _ _ _ _ _
    [6952123589559454683522259656086693720, 4410523541378432001070591549525918040, -1111535939204802356820814965226561720,
      -5259941396714342903361053364839543240]
    [-653923915610142976156449793945881496, 655360931653003285074560860774601708, 151042263730173993138432051831649961,
      -355707249713420090375309499280929736] _ (by decide)
    (by decide +kernel) (by decide +kernel) bad_solve2 (by decide +kernel) (by decide +kernel) (by decide +kernel)

theorem bad_solve8 : NtruSolve ieeeOps 19
      [498, 3578, 1512, 6152, -2050, 510, 515, -766]
      [-2556, -1043, 4853, 2820, -1030, 1533, 771, -778] =
    .ok (some (
      [6956751772941478128, -763916786672965640, 249684188843668824, 961779117020056816, -3231390751708993856, 6592282472420413224,
      10913845649679646520, -2698931758749697280],
      [-1354829948853226754, 210407602448947990, -792098652038822771, -285164562322435126, 6875545758015359514, -13551458513531139050,
      -2070456099808947992, -7914222633253712752])) := by
  refine solve_step ieeeOps 2 18 _ _ _ _ _ _
    [9261457133503953136, -1001638451360737288, -2084336954025956008, -2948138582445316880, -6546806769266192704, 5472517370292641576,
      11077050562422380344, -4535843010318988544]
    [1024458352347679486, 2832578158024567574, 183835250411449485, -3541490366463671350, 3372365460690584090, -13120820091400582122,
      -1178886768915961624, -9473713572759393136] _ (by decide)
    (by decide +kernel) (by decide +kernel) bad_solve4 (by decide +kernel) (by decide +kernel) (by decide +kernel)

theorem bad_solve16 : NtruSolve ieeeOps 20
      [-15, 14, -34, -34, -33, -16, -2, -31, 17, 14, -34, -30, 31, -18, -33, -15]
      [17, 16, -1, -15, 17, 18, 34, 33, 15, -15, 14, -33, -15, 15, -15, 15] =
    .ok (some (
      [-582994341854033331656, 538091771540646521240, -172782527690606326152, 368526842056603792104, -280483963300811816024,
      -569054593430704514296, 494223606111707069560, -401012898064313284568, 197142854635459994440, 181728030230232961432, 478138478048025250424,
      379284701646214484296, -34435682999542739752, -416448517999562022536, -63068719042760146376, 309327163482016602504],
      [-242638979380438164945, 552967693052145637726, 233392520239153241871, -6965709405561911519, -514898429650745575269, 391038224378621568792,
      533923703549643315342, -59797518589626783890, -470854707140935414775, 319479403864286772100, -72329486490637562800, 404123235984010073803,
      175217598747059728977, 36543957610071751580, 649961930463256071250, -172198699565914316450])) := by
  refine solve_step ieeeOps 3 19 _ _ _ _ _ _
    [-266814667055677949384, 352189152744822663576, -380605066311169421704, 454073687270869889768, -75006805944904367192,
      -645037159628682192120, 177747048803468835960, -496725063634132858840, 327104281615507415880, 542851823808029659544, 349299181577917172344,
      161838781898359918920, 4925115615628496088, -215610214742388596360, -129564428470298738120, 124639143381133449608]
    [-439270452529790510545, 857187939512832563550, 224442041544550997775, -237170573496668747999, -614495620475455948645,
      499981876860190172952, 738109532926828730510, 30535375929973827438, -742848821452465632247, 384830207293203102596, 207154947630974504016,
      524293527747414677195, -58304860812415815087, -218866563745023624292, 695871466920719240274, 416423676657738078] _ (by decide)
    (by decide +kernel) (by decide +kernel) bad_solve8 (by decide +kernel) (by decide +kernel) (by decide +kernel)

/-- The generated key. -/
def badKey : PrivateKey := ⟨16, badF, badG,
  [14904, -5736, -12680, -3352, 17320, -25848, -904, 2088, 25416, 4504, 2680, 20808, 3288, -24200, 568, 22920],
  [6703, 6494, 24335, -30943, -18277, -22760, -10098, 26478, 3081, 15236, 3152, 22219, -19887, 31644, 19538, 8542]⟩

/-- A complete run of key generation at degree 16. -/
theorem bad_run : GeneratePrivateKey ieeeOps (pairRand badF badG) 20 16 0 = .ok (.ok (badKey, 8192)) := by
  obtain ⟨hf, hg⟩ := pairRand_poly ieeeOps digits_ieee 16 (by decide) (by decide) badF badG rfl rfl (by decide) (by decide) 19
  unfold GeneratePrivateKey
  rw [if_neg (by decide), NtruGen]
  refine bind_of_ok (a := (⟨badF, badG, badKey.F, badKey.G⟩, 8192)) (bind_of_ok hf (bind_of_ok hg (bind_of_ok bad_norm ?_))) rfl
  rw [bad_lt, if_neg (by decide)]
  obtain ⟨t, ht, hz⟩ := Go.bind_eq_ok.1 bad_ntt
  refine bind_of_ok ht ?_
  have hz' : anyZeroes t = false := Go.ok.inj hz
  rw [hz', if_neg (by decide)]
  refine bind_of_ok bad_solve16 ?_
  decide +kernel

/-- C42 is violated: key generation in IEEE arithmetic returns a key that does not satisfy the NTRU equation. -/
theorem C42_violated : ∃ (rand : Rand) (fuel : Nat) (key : PrivateKey) (pos : Nat),
    GeneratePrivateKey ieeeOps rand fuel 16 0 = .ok (.ok (key, pos)) ∧
    ¬ CongrZ 16 (ntruDet (int16ToBigInt key.f) (int16ToBigInt key.g) (int16ToBigInt key.F) (int16ToBigInt key.G)) (C 12289) := by
  refine ⟨_, _, _, _, bad_run, ?_⟩
  rintro ⟨c, hc⟩
  -- both polynomials vanish at `2^60` modulo `2^64 + 1`, and so does `x^16 + 1`
  have h := congrArg (eval (2 ^ 60 : Int)) hc
  unfold ntruDet at h
  simp only [eval_sub, eval_mul, eval_add, eval_pow, eval_X, eval_one, eval_C] at h
  have ev : ∀ (t : Int) (l : List Int), (polyZ l).eval t = l.foldr (fun a acc => a + t * acc) 0 := by
    intro t l
    induction l with
    | nil => simp [polyZ]
    | cons a l ih =>
      unfold polyZ at ih ⊢
      simp [ih]
  have e1 : (2 ^ 64 + 1 : Int) ∣ (polyZ (int16ToBigInt badKey.f)).eval (2 ^ 60 : Int) := by
    rw [ev]
    decide +kernel
  have e2 : (2 ^ 64 + 1 : Int) ∣ (polyZ (int16ToBigInt badKey.g)).eval (2 ^ 60 : Int) := by
    rw [ev]
    decide +kernel
  have e3 : (2 ^ 64 + 1 : Int) ∣ (2 ^ 60 : Int) ^ 16 + 1 := by decide +kernel
  have e4 : (2 ^ 64 + 1 : Int) ∣ 12289 := by
    have h5 := dvd_sub (dvd_sub (e1.mul_right ((polyZ (int16ToBigInt badKey.G)).eval (2 ^ 60 : Int)))
      (e2.mul_right ((polyZ (int16ToBigInt badKey.F)).eval (2 ^ 60 : Int)))) (e3.mul_right (c.eval (2 ^ 60 : Int)))
    rw [← h, sub_sub_cancel] at h5
    exact h5
  revert e4
  decide +kernel

end Falcon
