import Verif.Model.Util
/-!
# Model of `src/internal/encoding.go`

The Go code builds strings over the characters '0' and '1'. A string is a `List Bool` here
(`true` is '1'); the Go operations used are length, slicing, concatenation, `strings.Repeat`,
`fmt.Sprintf("%09b")`, `strconv.FormatInt(_, 2)` and `strconv.ParseInt(_, 2, 64)`.
-/

namespace Falcon

/-- encoding.go:17-20, the two error values. -/
inductive EncErr where
  | tooLong   -- ErrEncodingTooLong
  | invalid   -- ErrInvalidEncoding
  deriving Repr, DecidableEq

/-- Binary digits, most significant first, without leading zeros; `0` is "0". This is
`strconv.FormatInt(x, 2)` for `x ≥ 0` and the verb `%b`. -/
def formatBin (x : Nat) : List Bool :=
  if x < 2 then [x == 1] else formatBin (x / 2) ++ [x % 2 == 1]
termination_by x

/-- `fmt.Sprintf("%09b", x)` for `x ≥ 0`: zero-padded on the left to width 9. -/
def sprintf09b (x : Nat) : List Bool :=
  let d := formatBin x
  List.replicate (9 - d.length) false ++ d

/-- `strconv.ParseInt(s, 2, 64)` on a string of binary digits (length below 64, so no range error;
the empty string yields 0 with an error that the callers ignore). -/
def parseBin (s : List Bool) : Nat :=
  s.foldl (fun acc b => 2 * acc + (if b then 1 else 0)) 0

/-- encoding.go:33-41, the string `s` appended for one coefficient. `math.Mod`, `math.Abs` and the
conversions to `float64` are exact on `int16` values; `int(Mod(|coef|, 128))` is `|coef| % 128`,
`int(|coef|)/(1<<7)` is `|coef| / 128`. -/
def encCoef (coef : Int16) : List Bool :=
  -- "Encode the sign" (34-37)
  let s := [decide (¬ coef ≥ 0)]
  -- "Encode the low bits" (39)
  let s := s ++ (sprintf09b (coef.toInt.natAbs % 128)).drop 2
  -- "Encode the high bits" (41)
  s ++ List.replicate (coef.toInt.natAbs / 128) false ++ [true]

/-- encoding.go:50-57: cut `u` in `len(u)/8` groups of 8 characters and parse each. -/
def packBytes : List Bool → List UInt8
  | b0 :: b1 :: b2 :: b3 :: b4 :: b5 :: b6 :: b7 :: rest =>
    UInt8.ofNat (parseBin [b0, b1, b2, b3, b4, b5, b6, b7]) :: packBytes rest
  | _ => []

/-- encoding.go:30-59 `Compress`. `8*slen` is a 64-bit product (it wraps for absurd `slen`).
`strings.Repeat` (48) is called with a non-negative count after the check, so it does not panic. -/
def Compress (v : List Int16) (slen : Int) : Except EncErr (List UInt8) :=
  let u := v.foldl (fun u coef => u ++ encCoef coef) []
  if (u.length : Int) > i64 (8 * slen) then .error .tooLong
  else .ok (packBytes (u ++ List.replicate (i64 (8 * slen) - u.length).toNat false))

/-- encoding.go:70: `strconv.FormatInt(256^int64(elt), 2)[1:]` (`^` is xor). -/
def byteBits (elt : UInt8) : List Bool := (formatBin (256 ^^^ elt.toNat)).drop 1

/-- encoding.go:73-75: `for u[len(u)-1:] == "0" { u = u[:len(u)-1] }`. On the empty string the slice
bound `-1` panics. -/
def stripZeros (u : List Bool) : Go (List Bool) :=
  match h : u.getLast? with
  | none => .panic
  | some true => .ok u
  | some false =>
    have : u.dropLast.length < u.length := by
      cases u <;> simp at h ⊢
    stripZeros u.dropLast
termination_by u.length

/-- encoding.go:85-89: starting at `u[8]`, count '0' characters up to the first '1'; `u[i:i+1]` panics past
the end. Argument: `u[8:]`. Result: the count `high` and `u[i+1:]` (used at line 98). -/
def scanHigh : List Bool → Go (Nat × List Bool)
  | [] => .panic
  | true :: r => .ok (0, r)
  | false :: r => do
    let (high, rest) ← scanHigh r
    pure (high + 1, rest)

theorem scanHigh_length {u : List Bool} {h : Nat} {r : List Bool} (e : scanHigh u = .ok (h, r)) :
    r.length < u.length := by
  induction u generalizing h r with
  | nil => simp [scanHigh] at e
  | cons b u ih =>
    cases b with
    | true => simp [scanHigh] at e; simp [e.2]
    | false =>
      simp only [scanHigh] at e
      rw [Go.bind_eq_ok] at e
      obtain ⟨⟨h', r'⟩, e1, e2⟩ := e
      simp at e2
      have := ih e1
      simp [← e2.2]; omega

/-- encoding.go:76-104, the decoding loop and the final length check. `v` is the accumulated vector.
`u[1:8]` (84) panics when `len(u) < 8`. `high << 7` does not overflow (`high ≤ len(u)`). -/
def decompressLoop (n : Int) (u : List Bool) (v : List Int) : Go (Except EncErr (List Int)) :=
  if u ≠ [] ∧ (v.length : Int) < n then
    -- 78-83
    let sign : Int := if u.take 1 = [true] then -1 else 1
    -- 84
    match slice u 1 8 with
    | .panic => .panic
    | .diverge => .diverge
    | .ok lowStr =>
      let low := parseBin lowStr
      -- 85-89
      match h : scanHigh (u.drop 8) with
      | .panic => .panic
      | .diverge => .diverge
      | .ok (high, rest) =>
        -- 91
        let coef : Int := sign * ((low : Int) + (high : Int) * 128)
        -- 93-95
        if coef = 0 ∧ sign = -1 then .ok (.error .invalid)
        else
          have : rest.length < u.length := by
            have := scanHigh_length h
            simp at this; omega
          -- 97-98
          decompressLoop n rest (v ++ [coef])
  else if (v.length : Int) ≠ n then .ok (.error .invalid)   -- 101-103
  else .ok (.ok v)                                           -- 104
termination_by u.length

/-- encoding.go:64-105 `Decompress`. -/
def Decompress (x : List UInt8) (slen : Int) (n : Int) : Go (Except EncErr (List Int)) :=
  if (x.length : Int) > slen then .ok (.error .invalid)
  else do
    let u := x.foldl (fun u elt => u ++ byteBits elt) []
    let u ← stripZeros u
    decompressLoop n u []

end Falcon
