import Verif.Spec.Shake
import Verif.Spec.Ieee
import Verif.Model.Falcon
import Verif.Model.Ffsampling
/-!
Runs the model on every test vector of the repository. Nothing here is part of a proof, and building the module does not run it:

    cd /verif/lean && lake env lean --run Verif/Validation/RunVectors.lean /repo/src

Each line of output is one vector; the last line counts the disagreements between the model and the expected value in the repository.
-/

namespace Falcon.Validation

/-- The integers in a piece of text, in order. -/
def ints (s : String) : List Int := Id.run do
  let mut out : List Int := []
  let mut cur : Option Nat := none
  let mut neg := false
  for c in s.toList do
    if c.isDigit then
      cur := some (cur.getD 0 * 10 + (c.toNat - 48))
    else
      match cur with
      | some n =>
        out := (if neg then -(n : Int) else n) :: out
        cur := none
        neg := c == '-'
      | none => neg := c == '-'
  match cur with
  | some n => out := (if neg then -(n : Int) else n) :: out
  | none => pure ()
  return out.reverse

/-- The text between the first `a` and the next `b` after it. -/
def between (s a b : String) : String := ((s.splitOn a).getD 1 "" |>.splitOn b).headD ""

/-- The body of a test function. -/
def body (s name : String) : String := ((s.splitOn s!"\nfunc {name}(").getD 1 "" |>.splitOn "\nfunc ").headD ""

/-- The list literals of a test function, each introduced by `ty{` and free of inner braces. -/
def literals (s ty : String) : List (List Int) :=
  ((s.splitOn (ty ++ "{")).drop 1).map fun t =>
    ints ((((t.splitOn "}").headD "").replace "big.NewInt" "").replace "types.NewBigIntFromString" "")

def i16 (l : List Int) : List Int16 := l.map Int16.ofInt
def u8 (l : List Int) : List UInt8 := l.map fun x => UInt8.ofNat x.toNat

def hexVal (c : Char) : Nat := if c.isDigit then c.toNat - 48 else c.toNat - 87

def unhex : List Char → List UInt8
  | a :: b :: r => UInt8.ofNat (16 * hexVal a + hexVal b) :: unhex r
  | _ => []

def isOk {α : Type} (p : α → Bool) : Go α → Bool
  | .ok x => p x
  | _ => false

def isExc {α ε : Type} (p : α → Bool) : Go (Except ε α) → Bool
  | .ok (.ok x) => p x
  | _ => false

/-- An output function given by a table. -/
def table (out : Array UInt8) : Xof := fun _ i => out.getD i 0

/-- `Verify` with the first 14 blocks of SHAKE256, computed once. -/
def verifies (pk : List Int16) (msg sig : List UInt8) : Bool :=
  let out := (Shake.blocks 14 (Shake.state ((sig.drop 1).take 40 ++ msg))).toArray
  isOk id (Verify (table out) 952 pk msg sig)

/-- `float64` constants of the test files. -/
def dec (n : Int) (d : Nat) : F64 := ieeeOps.lit (mkRat n (10 ^ d))

def _root_.main (args : List String) : IO UInt32 := do
  let root := args.headD "/repo/src"
  let bad ← IO.mkRef 0
  let total ← IO.mkRef 0
  let check (name : String) (b : Bool) : IO Unit := do
    total.modify (· + 1)
    unless b do bad.modify (· + 1)
    (← IO.getStdout).flush
    IO.println s!"{if b then "ok  " else "FAIL"} {name}"
  -- internal/ntrugen_test.go
  let t ← IO.FS.readFile s!"{root}/internal/ntrugen_test.go"
  let l := (literals (body t "TestKaratsuba") "[]*big.Int").toArray
  for j in [0:3] do
    check s!"Karatsuba {j}" (isOk (· == l[3*j+2]!) (Karatsuba l[3*j]! l[3*j+1]! l[3*j]!.length))
  let l := (literals (body t "TestKaramul") "[]*big.Int").toArray
  for j in [0:2] do check s!"karamul {j}" (isOk (· == l[3*j+2]!) (karamul l[3*j]! l[3*j+1]!))
  let l := (literals (body t "TestGaloisConjugate") "[]*big.Int").toArray
  for j in [0:2] do check s!"galoisConjugate {j}" (galoisConjugate l[2*j]! == l[2*j+1]!)
  let l := (literals (body t "TestFieldNorm") "[]*big.Int").toArray
  for j in [0:2] do check s!"fieldNorm {j}" (isOk (· == l[2*j+1]!) (fieldNorm l[2*j]!))
  let l := (literals (body t "TestLift") "[]*big.Int").toArray
  check "lift" (lift l[0]! == l[1]!)
  let l := ints (between (body t "TestBitsize") "String(\"" "\"")
  check "bitsize" (bitsize l[0]! == 608)
  let l := (literals (body t "TestReduce") "[]*big.Int").toArray
  check "reduce" (isOk (· == (l[4]!, l[5]!)) (reduce ieeeOps 100 l[0]! l[1]! l[2]! l[3]!))
  let l := (((body t "TestXgcd").splitOn "String(\"").drop 1).map fun s => (ints ((s.splitOn "\"").headD ""))[0]!
  check "xgcd" (xgcd l[0]! l[1]! == (l[2]!, l[3]!, l[4]!))
  let l := (literals (body t "TestNtruSolve") "[]*big.Int").toArray
  check "NtruSolve 0" (isOk (· == some (l[2]!, l[3]!)) (NtruSolve ieeeOps 200 l[0]! l[1]!))
  check "NtruSolve 1 (ErrEquation)" (isOk (· == none) (NtruSolve ieeeOps 200 l[4]! l[5]!))
  let l := (literals (body t "TestGsNorm") "[]float64").toArray
  check "GsNorm" (isOk (fun x => decide (x = dec 20662220733723763 12))
    (GsNorm ieeeOps (l[0]!.map ieeeOps.ofInt) (l[1]!.map ieeeOps.ofInt) (ieeeOps.ofInt 12289)))
  -- internal/transforms/ntt/ntt_test.go
  let t ← IO.FS.readFile s!"{root}/internal/transforms/ntt/ntt_test.go"
  let rows := fun (s : String) => (((s.replace "[][]int16{" "").splitOn "{").drop 1).map fun x => ints ((x.splitOn "}").headD "")
  let l := (rows (body t "TestSplitNTT")).filter (fun x => x.length ≥ 8) |>.toArray
  check "SplitNTT" (isOk (· == (i16 l[1]!, i16 l[2]!)) (SplitNTT wrap64 (i16 l[0]!)))
  let l := (rows (body t "TestMergeNTT")).filter (fun x => x.length ≥ 8) |>.toArray
  check "MergeNTT" (isOk (· == i16 l[2]!) (MergeNTT wrap64 (i16 l[0]!) (i16 l[1]!)))
  let l := (literals (body t "TestNTT") "[]int16").toArray
  check "NTT" (isOk (· == i16 l[1]!) (NTT wrap64 (i16 l[0]!)))
  let l := (literals (body t "TestINTT") "[]int16").toArray
  check "INTT" (isOk (· == i16 l[1]!) (INTT wrap64 (i16 l[0]!)))
  let l := (literals (body t "TestMulZq") "[]int16").toArray
  check "MulZq" (isOk (· == i16 l[2]!) (MulZq wrap64 (i16 l[0]!) (i16 l[1]!)))
  -- internal/encoding_test.go
  let t ← IO.FS.readFile s!"{root}/internal/encoding_test.go"
  let v := (literals (body t "TestCompress") "[]int16").toArray
  let e := (literals (body t "TestCompress") "[]byte").toArray
  check "Compress 0" (match Compress (i16 v[0]!) 81 with | .ok x => x == u8 e[0]! | .error _ => false)
  check "Compress 1 (too long)" (match Compress (i16 v[1]!) 2 with | .error .tooLong => true | _ => false)
  let v := (literals (body t "TestDecompress") "[]byte").toArray
  let e := (literals (body t "TestDecompress") "[]int").toArray
  check "Decompress" (isExc (· == e[0]!) (Decompress (u8 v[0]!) 81 64))
  -- internal/KAT/signKAT.go: 12 keys and signatures of the reference implementation at each degree
  let t ← IO.FS.readFile s!"{root}/internal/KAT/signKAT.go"
  for ks in ((t.splitOn "[]byte(`").drop 1).map fun x => (x.splitOn "`").headD "" do
    for k in (ks.splitOn "{\"read_bytes\"").drop 1 do
      let num := fun key => ints (between k s!"\"{key}\":[" "]")
      let str := fun key => unhex (between k s!"\"{key}\":\"" "\"").toList
      let f := num "f"; let g := num "g"; let F := num "F"; let G := num "G"; let s2 := num "s2"
      let nonce := str "nonce"; let sig := str "sig"
      let n := f.length
      let eq := match karamul f G, karamul g F with
        | .ok a, .ok b => List.zipWith (· - ·) a b == 12289 :: List.replicate (n - 1) 0
        | _, _ => false
      check s!"KAT {n}: NTRU equation by karamul" eq
      let key := GetPrivateKey (UInt16.ofNat n) (i16 f) (i16 g) (i16 F) (i16 G)
      check s!"KAT {n}: GetPrivateKey" (isExc (fun k => k.f == i16 f) key)
      let slen : Int := sig.length - 41
      check s!"KAT {n}: nonce" ((sig.drop 1).take 40 == nonce)
      check s!"KAT {n}: Compress" (match Compress (i16 s2) slen with | .ok b => sig.drop 41 == b | .error _ => false)
      check s!"KAT {n}: Decompress" (isExc (· == s2) (Decompress (sig.drop 41) slen n))
      if n == 512 then
        check s!"KAT {n}: Verify with GetPublicKey" (match key with
          | .ok (.ok k) => isOk (fun p => verifies p.h ("data1".toList.map fun c => UInt8.ofNat c.toNat) sig) (GetPublicKey k)
          | _ => false)
  -- falcon_test.go
  let t ← IO.FS.readFile s!"{root}/falcon_test.go"
  let b := u8 (literals (body t "TestSignVerifyBytes") "[]byte")[0]!
  check "VerifyBytes: the input of the test is too short and panics" (match VerifyBytes (table #[]) 952 b with | .panic => true | _ => false)
  let rec pairs : List UInt8 → List Int16
    | a :: b :: r => Int16.ofNat (256 * a.toNat + b.toNat) :: pairs r
    | _ => []
  check "VerifyBytes: the same bytes passed to Verify" (verifies (pairs (b.take 1024)) ((b.drop 1024).take 32) (b.drop 1056))
  let lines := fun (f : String) => do
    let s ← IO.FS.readFile s!"{root}/{f}"
    return ((s.splitOn "\n").map ints |>.filter (· ≠ [])).toArray
  let m ← lines "messageC.txt"
  let s ← lines "signatureC.txt"
  let p ← lines "pubkeyC.txt"
  for k in [0:10] do
    for i in [0:10] do
      check s!"Verify: key {k}, message {i}" (verifies (i16 p[k]!) (u8 m[i]!) (u8 s[10*k+i]!))
      if k == 0 then
        check s!"Verify rejects: key {k}, message {i} with the signature of another"
          (!verifies (i16 p[k]!) (u8 m[i]!) (u8 s[10*k+(i+1)%10]!))
  IO.println s!"{← total.get} vectors, {← bad.get} disagreements"
  return if (← bad.get) == 0 then 0 else 1

end Falcon.Validation
