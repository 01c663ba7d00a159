import Verif.Spec.Ieee
/-!
# IEEE arithmetic with fused multiply-add

The Go specification lets an implementation combine a multiplication and a following addition into one fused operation that rounds once, also
across statements. The compiler gc does so on arm64, ppc64, s390x and riscv64. In this instance of `FloatOps` a product is therefore kept as
its two factors; every addition or subtraction of a product may round it first or use it unrounded, as a rule decides that can be any
function of the operands. Everything else sees the rounded product. The conversions of numbers out of range and the division of complex
numbers, which also differ between platforms, are parameters. Fusing across a call or a store is allowed here though the compiler does not
do it.
-/

namespace Falcon

namespace F64

/-- `x*y + c` with one rounding. -/
def fma (x y c : F64) : F64 :=
  if x.isNaN || y.isNaN || c.isNaN then .nan
  else if x.isInf || y.isInf then add (mul x y) c
  else if c.isInf then c
  else if x.val * y.val + c.val = 0 then .zero ((x.sign != y.sign) && c.sign)
  else rnd (x.val * y.val + c.val)

end F64

/-- A `float64` in a register: a number, or a product that has not been rounded yet. -/
inductive Reg where
  | num (a : F64)
  | prod (x y : F64)
deriving DecidableEq

/-- The rounded value. -/
def Reg.v : Reg → F64
  | .num a => a
  | .prod x y => F64.mul x y

/-- Which operand of an addition or subtraction is used as an unrounded product. -/
inductive Fuse where
  | none
  | left
  | right
deriving DecidableEq

/-- What may differ between platforms: where products are fused, the conversions of numbers out of range, and complex division. The conversion
to `int` is exact on 32 bits only, so platforms with a 32-bit `int` are included; those with 64 bits satisfy `Platform.Wide`. -/
structure Platform where
  fuseAdd : Reg → Reg → Fuse
  fuseSub : Reg → Reg → Fuse
  toInt : F64 → Int
  toInt_in : ∀ a : F64, a.isFinite = true → -(2 ^ 31) ≤ F64.truncInt a.val → F64.truncInt a.val < 2 ^ 31 → toInt a = F64.truncInt a.val
  toUInt64 : F64 → UInt64
  toUInt64_in : ∀ a : F64, a.isFinite = true → 0 ≤ F64.truncInt a.val → F64.truncInt a.val < 2 ^ 63 → toUInt64 a = UInt64.ofInt (F64.truncInt a.val)
  toInt16 : F64 → Int16
  toInt16_in : ∀ a : F64, a.isFinite = true → -(2 ^ 15) ≤ F64.truncInt a.val → F64.truncInt a.val < 2 ^ 15 → toInt16 a = Int16.ofInt (F64.truncInt a.val)
  cdiv : F64 × F64 → F64 × F64 → F64 × F64

namespace Platform

/-- The type `int` has 64 bits. -/
def Wide (P : Platform) : Prop :=
  ∀ a : F64, a.isFinite = true → -(2 ^ 63) ≤ F64.truncInt a.val → F64.truncInt a.val < 2 ^ 63 → P.toInt a = F64.truncInt a.val

/-- `a + b`. -/
def add (P : Platform) (a b : Reg) : Reg :=
  match P.fuseAdd a b, a, b with
  | .left, .prod x y, b => .num (F64.fma x y b.v)
  | .right, a, .prod x y => .num (F64.fma x y a.v)
  | _, a, b => .num (F64.add a.v b.v)

/-- `a - b`. -/
def sub (P : Platform) (a b : Reg) : Reg :=
  match P.fuseSub a b, a, b with
  | .left, .prod x y, b => .num (F64.fma x y b.v.neg)
  | .right, a, .prod x y => .num (F64.fma x.neg y a.v)
  | _, a, b => .num (F64.sub a.v b.v)

/-- `-a`. -/
def neg : Reg → Reg
  | .num a => .num a.neg
  | .prod x y => .prod x.neg y

/-- `a * b`. -/
def mul (a b : Reg) : Reg := .prod a.v b.v

/-- The arithmetic of a platform. -/
abbrev ops (P : Platform) : FloatOps where
  F := Reg
  C := Reg × Reg
  lit q := .num (F64.ofRat q)
  ofInt k := .num (F64.ofRat k)
  add := P.add
  sub := P.sub
  mul := mul
  div a b := .num (F64.div a.v b.v)
  neg := neg
  pow2 x := .num (F64.mul x.v x.v)
  sqrt a := .num (F64.sqrt a.v)
  floor a := .num (F64.floor a.v)
  round a := .num (F64.round a.v)
  lt a b := F64.lt a.v b.v
  toInt a := P.toInt a.v
  toUInt64 a := P.toUInt64 a.v
  toInt16 a := P.toInt16 a.v
  cplx a b := (a, b)
  re := Prod.fst
  im := Prod.snd
  cadd x y := (P.add x.1 y.1, P.add x.2 y.2)
  csub x y := (P.sub x.1 y.1, P.sub x.2 y.2)
  cmul x y := (P.sub (mul x.1 y.1) (mul x.2 y.2), P.add (mul x.1 y.2) (mul x.2 y.1))
  cdiv x y :=
    let z := P.cdiv (x.1.v, x.2.v) (y.1.v, y.2.v)
    (.num z.1, .num z.2)
  cneg x := (neg x.1, neg x.2)
  conj x := (x.1, neg x.2)
  root n i :=
    let w := fftRoot n i
    (.num (F64.ofRat w.1), .num (F64.ofRat w.2))

/-- `complex128div` of the runtime (runtime/complex.go, see `F64.cdiv`), compiled with fusing. -/
def smith (P : Platform) (n m : F64 × F64) : F64 × F64 :=
  let (a, b) := n
  let (c, d) := m
  let (e, f) :=
    if !F64.lt (F64.abs c) (F64.abs d) && !c.isNaN && !d.isNaN then
      let ratio := F64.div d c
      let denom := (P.add (.num c) (.prod ratio d)).v
      (F64.div (P.add (.num a) (.prod b ratio)).v denom, F64.div (P.sub (.num b) (.prod a ratio)).v denom)
    else
      let ratio := F64.div c d
      let denom := (P.add (.num d) (.prod ratio c)).v
      (F64.div (P.add (.prod a ratio) (.num b)).v denom, F64.div (P.sub (.prod b ratio) (.num a)).v denom)
  if e.isNaN || f.isNaN then
    if c.isZero && d.isZero && (!a.isNaN || !b.isNaN) then (F64.mul (.inf c.sign) a, F64.mul (.inf c.sign) b)
    else if (a.isInf || b.isInf) && c.isFinite && d.isFinite then
      let a := F64.inf2one a
      let b := F64.inf2one b
      (F64.mul (.inf false) (P.add (.prod a c) (.prod b d)).v, F64.mul (.inf false) (P.sub (.prod b c) (.prod a d)).v)
    else if (c.isInf || d.isInf) && a.isFinite && b.isFinite then
      let c := F64.inf2one c
      let d := F64.inf2one d
      (F64.mul (.zero false) (P.add (.prod a c) (.prod b d)).v, F64.mul (.zero false) (P.sub (.prod b c) (.prod a d)).v)
    else (e, f)
  else (e, f)

/-- The platform with the division of the runtime, compiled with the fusing of the platform. -/
def withSmith (P : Platform) : Platform := { P with cdiv := P.smith }

/-- Conversion to `int` on arm64 (FCVTZS): out of range the nearest integer in range, NaN gives zero. -/
def saturate (a : F64) : Int :=
  if a.isNaN then 0 else if a.isInf then (if a.sign then -(2 ^ 63) else 2 ^ 63 - 1) else max (-(2 ^ 63)) (min (2 ^ 63 - 1) (F64.truncInt a.val))

/-- Conversion to `uint64` on arm64 (FCVTZU). -/
def saturateU (a : F64) : UInt64 :=
  if a.isNaN then 0 else if a.isInf then (if a.sign then 0 else 0xffffffffffffffff) else UInt64.ofInt (max 0 (min (2 ^ 64 - 1) (F64.truncInt a.val)))

/-- A platform that fuses whenever it can, converts like arm64 and divides like amd64. -/
def arm64Div : Platform where
  fuseAdd a _ := match a with | .prod _ _ => .left | _ => .right
  fuseSub _ b := match b with | .prod _ _ => .right | _ => .left
  toInt := saturate
  toInt_in a h h1 h2 := by
    have h' : a.isNaN = false ∧ a.isInf = false := by simpa [F64.isFinite] using h
    unfold saturate
    rw [h'.1, h'.2]
    simp only [Bool.false_eq_true, if_false]
    omega
  toUInt64 := saturateU
  toUInt64_in a h h1 h2 := by
    have h' : a.isNaN = false ∧ a.isInf = false := by simpa [F64.isFinite] using h
    unfold saturateU
    rw [h'.1, h'.2]
    simp only [Bool.false_eq_true, if_false]
    congr 1
    omega
  toInt16 a := Int16.ofInt (saturate a)
  toInt16_in a h h1 h2 := by
    have h' : a.isNaN = false ∧ a.isInf = false := by simpa [F64.isFinite] using h
    unfold saturate
    rw [h'.1, h'.2]
    simp only [Bool.false_eq_true, if_false]
    congr 1
    omega
  cdiv := F64.cdiv

/-- A platform that fuses whenever it can, also in the division of the runtime, and converts like arm64. -/
def arm64 : Platform := arm64Div.withSmith

/-- A platform without fusing that converts like amd64. -/
def amd64 : Platform where
  fuseAdd _ _ := .none
  fuseSub _ _ := .none
  toInt := F64.toI64
  toInt_in a h h1 h2 := by
    unfold F64.toI64
    rw [h, decide_eq_true (show -(2 ^ 63) ≤ F64.truncInt a.val by omega), decide_eq_true (show F64.truncInt a.val < 2 ^ 63 by omega)]
    rfl
  toUInt64 := F64.toU64
  toUInt64_in a h h1 h2 := by
    have h' : a.isNaN = false ∧ a.isInf = false := by simpa [F64.isFinite] using h
    have hv : a.val < 2 ^ 63 := by
      by_contra hc
      have hc := not_lt.1 hc
      have : (2 ^ 63 : Int) ≤ F64.truncInt a.val := by
        unfold F64.truncInt
        rw [if_pos (le_trans (by norm_num) hc)]
        exact Rat.le_floor_iff.2 (by exact_mod_cast hc)
      omega
    have hl : F64.lt a (.fin (2 ^ 63)) = true := by
      unfold F64.lt
      rw [h'.1, h'.2]
      simp only [F64.isNaN, F64.isInf, Bool.or_false, Bool.false_eq_true, if_false]
      exact decide_eq_true hv
    unfold F64.toU64
    rw [if_pos hl]
    unfold F64.toI64
    rw [h, decide_eq_true (show -(2 ^ 63) ≤ F64.truncInt a.val by omega), decide_eq_true h2]
    rfl
  toInt16 := F64.toI16
  toInt16_in a h h1 h2 := by
    unfold F64.toI16
    rw [h, decide_eq_true (show -(2 ^ 31) ≤ F64.truncInt a.val by omega), decide_eq_true (show F64.truncInt a.val < 2 ^ 31 by omega)]
    rfl
  cdiv := F64.cdiv

end Platform

end Falcon
