import Verif.Model.Verify
/-!
# SHAKE256

The function `golang.org/x/crypto/sha3.NewShake256` computes, after FIPS 202: the permutation Keccak-f[1600] on 25 lanes of 64 bits, the
sponge with a rate of 136 bytes and the padding `1111 10*1`. The theorems hold for every extendable-output function; this instance is
used to run the model on the signatures that come with the repository (`Verif/Check/Vectors.lean`). Lanes are natural numbers below
`2^64`; the lane of column `x` and row `y` is at `x + 5 * y`.
-/

namespace Falcon.Shake

/-- Rotation of a lane to the left. -/
def rotl (x k : Nat) : Nat := ((x <<< k) ||| (x >>> (64 - k))) % 2 ^ 64

/-- The round constants. -/
def roundConst : List Nat :=
  [0x0000000000000001, 0x0000000000008082, 0x800000000000808A, 0x8000000080008000, 0x000000000000808B, 0x0000000080000001,
   0x8000000080008081, 0x8000000000008009, 0x000000000000008A, 0x0000000000000088, 0x0000000080008009, 0x000000008000000A,
   0x000000008000808B, 0x800000000000008B, 0x8000000000008089, 0x8000000000008003, 0x8000000000008002, 0x8000000000000080,
   0x000000000000800A, 0x800000008000000A, 0x8000000080008081, 0x8000000000008080, 0x0000000080000001, 0x8000000080008008]

/-- The rotation of each lane. -/
def offsets : List Nat :=
  [0, 1, 62, 28, 27, 36, 44, 6, 55, 20, 3, 10, 43, 25, 39, 41, 45, 15, 21, 8, 18, 2, 61, 56, 14]

/-- Lane `i`. -/
def lane (a : List Nat) (i : Nat) : Nat := a.getD i 0

/-- The step theta. -/
def theta (a : List Nat) : List Nat :=
  let c := (List.range 5).map fun x =>
    lane a x ^^^ lane a (x + 5) ^^^ lane a (x + 10) ^^^ lane a (x + 15) ^^^ lane a (x + 20)
  let d := (List.range 5).map fun x => lane c ((x + 4) % 5) ^^^ rotl (lane c ((x + 1) % 5)) 1
  (List.range 25).map fun i => lane a i ^^^ lane d (i % 5)

/-- The steps rho and pi: lane `(x, y)` of the result is lane `(x + 3y, x)` rotated. -/
def rhoPi (a : List Nat) : List Nat :=
  (List.range 25).map fun i =>
    let j := (i % 5 + 3 * (i / 5)) % 5 + 5 * (i % 5)
    rotl (lane a j) (lane offsets j)

/-- The step chi. -/
def chi (b : List Nat) : List Nat :=
  (List.range 25).map fun i =>
    lane b i ^^^ ((2 ^ 64 - 1 - lane b ((i % 5 + 1) % 5 + 5 * (i / 5))) &&& lane b ((i % 5 + 2) % 5 + 5 * (i / 5)))

/-- One round; the constant goes into lane 0. -/
def round (a : List Nat) (k : Nat) : List Nat :=
  match chi (rhoPi (theta a)) with
  | x :: r => (x ^^^ k) :: r
  | [] => []

/-- Keccak-f[1600]. -/
def keccakF (a : List Nat) : List Nat := roundConst.foldl round a

/-- Eight bytes to a lane, the least significant byte first. -/
def toLanes : List UInt8 → List Nat
  | a :: b :: c :: d :: e :: f :: g :: h :: r =>
    (a.toNat + 2 ^ 8 * b.toNat + 2 ^ 16 * c.toNat + 2 ^ 24 * d.toNat + 2 ^ 32 * e.toNat + 2 ^ 40 * f.toNat + 2 ^ 48 * g.toNat
      + 2 ^ 56 * h.toNat) :: toLanes r
  | _ => []

/-- The bytes of a lane. -/
def ofLane (x : Nat) : List UInt8 := (List.range 8).map fun i => UInt8.ofNat (x >>> (8 * i))

/-- The padding of SHAKE: the bits `1111`, a one, zeros and a one. -/
def pad (m : List UInt8) : List UInt8 :=
  let r := 136 - m.length % 136
  if r = 1 then m ++ [0x9F] else m ++ 0x1F :: (List.replicate (r - 2) 0 ++ [0x80])

/-- Absorbing blocks of 136 bytes. -/
def absorb : Nat → List Nat → List UInt8 → List Nat
  | 0, a, _ => a
  | k + 1, a, m =>
    absorb k (keccakF (List.zipWith (· ^^^ ·) a (toLanes (m.take 136) ++ List.replicate 8 0))) (m.drop 136)

/-- The state after absorbing `m`. -/
def state (m : List UInt8) : List Nat := absorb ((pad m).length / 136) (List.replicate 25 0) (pad m)

/-- The 136 bytes of output a state holds. -/
def block (a : List Nat) : List UInt8 := (a.take 17).flatMap ofLane

/-- The first `k` blocks of output from a state on. -/
def blocks : Nat → List Nat → List UInt8
  | 0, _ => []
  | k + 1, a => block a ++ blocks k (keccakF a)

/-- SHAKE256 as an infinite stream: byte `i` lies in block `i / 136`. -/
def shake256 : Xof := fun m i => (blocks (i / 136 + 1) (state m)).getD i 0

theorem block_length (a : List Nat) (h : a.length = 25) : (block a).length = 136 := by
  have : ∀ l : List Nat, (l.flatMap ofLane).length = 8 * l.length := by
    intro l
    induction l with
    | nil => rfl
    | cons x r ih => simp [ofLane, ih]; omega
  simp [block, this, h]

theorem round_length (a : List Nat) (k : Nat) : (round a k).length = 25 := by
  have : (chi (rhoPi (theta a))).length = 25 := by simp [chi]
  unfold round
  split
  · rename_i h; rw [h] at this; simpa using this
  · rename_i h; rw [h] at this; simp at this

theorem keccakF_length (a : List Nat) : (keccakF a).length = 25 := by
  simp only [keccakF, roundConst, List.foldl_cons, List.foldl_nil]
  exact round_length _ _

theorem absorb_length (k : Nat) : ∀ (a : List Nat) (m : List UInt8), a.length = 25 → (absorb k a m).length = 25 := by
  induction k with
  | zero => intro a m h; exact h
  | succ k ih => intro a m _; exact ih _ _ (keccakF_length _)

theorem state_length (m : List UInt8) : (state m).length = 25 := absorb_length _ _ _ (by simp)

/-- The blocks that are squeezed first do not depend on how many are squeezed. -/
theorem blocks_prefix (j : Nat) : ∀ (k : Nat) (a : List Nat) (i : Nat), a.length = 25 → j ≤ k → i < 136 * j →
    (blocks k a).getD i 0 = (blocks j a).getD i 0 := by
  induction j with
  | zero => intro k a i _ _ h; omega
  | succ j ih =>
    intro k a i ha hk hi
    obtain ⟨k, rfl⟩ : ∃ k', k = k' + 1 := ⟨k - 1, by omega⟩
    have hb := block_length a ha
    simp only [blocks, List.getD_eq_getElem?_getD]
    by_cases h : i < 136
    · rw [List.getElem?_append_left (by omega), List.getElem?_append_left (by omega)]
    · rw [List.getElem?_append_right (by omega), List.getElem?_append_right (by omega)]
      have := ih k (keccakF a) (i - (block a).length) (keccakF_length a) (by omega) (by omega)
      simpa only [List.getD_eq_getElem?_getD] using this

/-- The stream agrees with any long enough prefix of it. -/
theorem shake256_eq (m : List UInt8) (k i : Nat) (h : i < 136 * k) : shake256 m i = (blocks k (state m)).getD i 0 := by
  refine (blocks_prefix (i / 136 + 1) k _ i (state_length m) ?_ ?_).symm
  · have := Nat.div_lt_of_lt_mul h; omega
  · have := Nat.lt_div_mul_add (a := i) (b := 136) (by omega); omega

/-- SHAKE256 of the empty string, the value in FIPS 202 test data. -/
example : (blocks 1 (state [])).take 16 =
    [0x46, 0xb9, 0xdd, 0x2b, 0x0b, 0xa8, 0x8d, 0x13, 0x23, 0x3b, 0x3f, 0xeb, 0x74, 0x3e, 0xeb, 0x24] := by decide +kernel

end Falcon.Shake
