import Verif.Model.Util
import Verif.Model.NttConstants
import Mathlib.Data.List.Induction
/-!
# Model of `src/internal/transforms/ntt/ntt.go`

Every 64-bit `int` operation on data goes through a parameter `W`: `wrap64` is Go's wrap-around (the model proper),
`check64` fails on overflow (used to state that no overflow happens). Index and length arithmetic is on `Nat`.
-/

namespace Falcon

/-- Go's 64-bit `int` arithmetic: the result wraps. -/
def wrap64 (x : Int) : Go Int := .ok (i64 x)

/-- Checked arithmetic: fails when the mathematical result does not fit in 64 bits (not Go; for stating absence of overflow). -/
def check64 (x : Int) : Go Int := if -2 ^ 63 ≤ x ∧ x < 2 ^ 63 then .ok x else .panic

/-- ntt.go:19 `i2`. -/
def i2 : Int := 6145

/-- ntt_constants.go:40-52 `roots_dict_Zq`; a missing key gives the nil slice. -/
def roots_dict_Zq (n : Int16) : List Nat :=
  if n = 2 then phi4_roots_Zq
  else if n = 4 then phi8_roots_Zq
  else if n = 8 then phi16_roots_Zq
  else if n = 16 then phi32_roots_Zq
  else if n = 32 then phi64_roots_Zq
  else if n = 64 then phi128_roots_Zq
  else if n = 128 then phi256_roots_Zq
  else if n = 256 then phi512_roots_Zq
  else if n = 512 then phi1024_roots_Zq
  else if n = 1024 then phi2048_roots_Zq
  else []

/-- ntt.go:20 `sqr1 = roots_dict_Zq[2][0]`. -/
def sqr1 : Int := ((roots_dict_Zq 2).headD 0 : Nat)

/-- `int16(util.Pmod(x, int(util.Q)))`, the tail of every butterfly. -/
def reduceQ (x : Int) : Int16 := Int16.ofInt (pmodVal x Q)

/-- ntt.go:44-60, the loop of `SplitNTT`. `w` is the rest of the root table from index `2*i`, the second list the
rest of `fNTT` from the same index: `w[a]` panics when the table is too short; with an odd length the last
element is not read. -/
def splitLoop (W : Int → Go Int) : List Nat → List Int16 → Go (List Int16 × List Int16)
  | w, a :: b :: rest => do
    let f0 ← W (a.toInt + b.toInt)
    let f0 ← W (f0 * i2)
    let f1 ← W (a.toInt - b.toInt)
    let f1 ← W (f1 * i2)
    let wa ← idx w 0
    let inv ← idx inv_mod_q wa
    let f1 ← W (f1 * (inv : Int))
    let r ← splitLoop W (w.drop 2) rest
    pure (reduceQ f0 :: r.1, reduceQ f1 :: r.2)
  | _, _ => .ok ([], [])

/-- ntt.go:36-62 `SplitNTT`. `int(math.Floor(float64(n)/2))` is `n/2` for every possible slice length. -/
def SplitNTT (W : Int → Go Int) (fNTT : List Int16) : Go (List Int16 × List Int16) :=
  splitLoop W (roots_dict_Zq (Int16.ofNat fNTT.length)) fNTT

/-- ntt.go:74-89, the loop of `MergeNTT`; same conventions as `splitLoop`. `f1NTT[i]` panics when `f1NTT` is shorter. -/
def mergeLoop (W : Int → Go Int) : List Nat → List Int16 → List Int16 → Go (List Int16)
  | _, [], _ => .ok []
  | w, x :: f0, f1 => do
    let wa ← idx w 0
    let y ← idx f1 0
    let a ← W ((wa : Int) * y.toInt)
    let a ← W (a + x.toInt)
    let b ← W ((wa : Int) * y.toInt)
    let b ← W (x.toInt - b)
    let r ← mergeLoop W (w.drop 2) f0 (f1.drop 1)
    pure (reduceQ a :: reduceQ b :: r)

/-- ntt.go:67-91 `MergeNTT`. -/
def MergeNTT (W : Int → Go Int) (f0NTT f1NTT : List Int16) : Go (List Int16) :=
  mergeLoop W (roots_dict_Zq (Int16.ofNat (2 * f0NTT.length))) f0NTT f1NTT

/-- Lengths of the halves; needed for the termination of `NTT`. -/
theorem splitPolys_length {α : Type u} (f : List α) :
    (splitPolys f).1.length = f.length / 2 ∧ (splitPolys f).2.length = f.length / 2 := by
  fun_induction splitPolys f with
  | case1 a b rest r ih => simp [r]; omega
  | case2 f h =>
    match f with
    | [] => simp
    | [a] => simp
    | a :: b :: rest => exact absurd rfl (h a b rest)

/-- Lengths of the halves; needed for the termination of `INTT`. -/
theorem splitLoop_length {W : Int → Go Int} {w : List Nat} {f : List Int16} {r : List Int16 × List Int16}
    (h : splitLoop W w f = .ok r) : r.1.length = f.length / 2 ∧ r.2.length = f.length / 2 := by
  induction f using List.twoStepInduction generalizing w r with
  | nil => simp [splitLoop] at h; subst h; simp
  | singleton a => simp [splitLoop] at h; subst h; simp
  | cons_cons a b rest ih _ =>
    simp only [splitLoop, Go.bind_eq_ok, Go.pure_eq, Go.ok.injEq] at h
    obtain ⟨_, _, _, _, _, _, _, _, _, _, _, _, _, _, r', hr', rfl⟩ := h
    have := ih hr'
    simp; omega

/-- ntt.go:96-121 `NTT`. -/
def NTT (W : Int → Go Int) (f : List Int16) : Go (List Int16) :=
  if _h : f.length > 2 then do
    let f0_NTT ← NTT W (splitPolys f).1
    let f1_NTT ← NTT W (splitPolys f).2
    MergeNTT W f0_NTT f1_NTT
  else match f with
    | [f0, f1] => do
      let a ← W (sqr1 * f1.toInt)
      let x ← W (f0.toInt + a)
      let y ← W (f0.toInt - a)
      pure [reduceQ x, reduceQ y]
    | _ => .ok []
termination_by f.length
decreasing_by
  all_goals have := splitPolys_length f; omega

/-- ntt.go:126-153 `INTT`. -/
def INTT (W : Int → Go Int) (fNTT : List Int16) : Go (List Int16) :=
  if _h : fNTT.length > 2 then
    match _hs : SplitNTT W fNTT with
    | .ok s => do
      let f0 ← INTT W s.1
      let f1 ← INTT W s.2
      mergePolys f0 f1
    | .panic => .panic
    | .diverge => .diverge
  else match fNTT with
    | [a, b] => do
      let x ← W (a.toInt + b.toInt)
      let x ← W (x * i2)
      let y ← W (a.toInt - b.toInt)
      let inv ← idx inv_mod_q 1479
      let y ← W (y * (inv : Int))
      let y ← W (y * i2)
      pure [reduceQ x, reduceQ y]
    | _ => .ok []
termination_by fNTT.length
decreasing_by
  all_goals have := splitLoop_length _hs; omega

/-- ntt.go:162-166, the loop of `addZq`: the `int16` addition `f[i] + g[i]` wraps before the conversion to `int`. -/
def addLoop : List Int16 → List Int16 → List Int16
  | x :: f, y :: g => reduceQ (x + y).toInt :: addLoop f g
  | _, _ => []

/-- ntt.go:156-168 `addZq`. -/
def addZq (f g : List Int16) : Go (List Int16) :=
  if f.length ≠ g.length then .panic else .ok (addLoop f g)

/-- ntt.go:171-180 `negZq`: the `int16` negation wraps (for -32768) before the conversion to `int`. -/
def negZq (f : List Int16) : List Int16 := f.map fun x => reduceQ (-x).toInt

/-- ntt.go:183-186 `SubZq`. -/
def SubZq (f g : List Int16) : Go (List Int16) := addZq f (negZq g)

/-- ntt.go:223-227, the loop of `mulNTT` (lengths already compared). -/
def mulLoop (W : Int → Go Int) : List Int16 → List Int16 → Go (List Int16)
  | x :: f, y :: g => do
    let z ← W (x.toInt * y.toInt)
    let r ← mulLoop W f g
    pure (reduceQ z :: r)
  | _, _ => .ok []

/-- ntt.go:217-229 `mulNTT`. -/
def mulNTT (W : Int → Go Int) (f g : List Int16) : Go (List Int16) :=
  if f.length ≠ g.length then .panic else mulLoop W f g

/-- ntt.go:189-193 `MulZq`. -/
def MulZq (W : Int → Go Int) (f g : List Int16) : Go (List Int16) := do
  let ft ← NTT W f
  let gt ← NTT W g
  let p ← mulNTT W ft gt
  INTT W p

/-- ntt.go:29 `ErrDivByZero`. -/
inductive NttErr where
  | divByZero
  deriving Repr, DecidableEq

/-- ntt.go:243-247, the loop of `divNTT`. `inv_mod_q[int(g_NTT[i])]` panics for a negative or too large index. -/
def divLoop (W : Int → Go Int) : List Int16 → List Int16 → Go (List Int16)
  | x :: f, y :: g => do
    let inv ← if y.toInt < 0 then .panic else idx inv_mod_q y.toInt.toNat
    let z ← W (x.toInt * (inv : Int))
    let r ← divLoop W f g
    pure (reduceQ z :: r)
  | _, _ => .ok []

/-- ntt.go:232-249 `divNTT`: the zero test over all of `g_NTT` comes before the loop. -/
def divNTT (W : Int → Go Int) (f g : List Int16) : Go (Except NttErr (List Int16)) :=
  if f.length ≠ g.length then .panic
  else if g.any (· == 0) then .ok (.error .divByZero)
  else do
    let r ← divLoop W f g
    pure (.ok r)

/-- ntt.go:196-204 `DivZq`. -/
def DivZq (W : Int → Go Int) (f g : List Int16) : Go (Except NttErr (List Int16)) := do
  let ft ← NTT W f
  let gt ← NTT W g
  match ← divNTT W ft gt with
  | .error e => pure (.error e)
  | .ok d => do
    let r ← INTT W d
    pure (.ok r)

end Falcon
