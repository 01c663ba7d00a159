# Formal model of falconGo: design

Target: `/repo` (Go, package `falcon` and its internal packages). Tool: Lean 4.33.0 and Mathlib, project in `/verif/lean`.

## 1. Layout

| path | content |
|---|---|
| `lean/Verif/Model/*` | executable model, one Lean file per Go file, every definition cites file and lines |
| `lean/Verif/Spec/*` | small independent specifications (bit codes, polynomials mod x^n+1, Falcon acceptance, exact and IEEE arithmetic) |
| `lean/Verif/Lemmas/*` | helper lemmas |
| `lean/Verif/Props/*` | the property theorems `C01_...` and the examples showing their hypotheses are met |
| `properties.jsonl` | the properties, stated before the proofs |
| `MANIFEST.json` | status and theorem names for each property |
| `AXIOMS.md` | the axioms each theorem of the manifest depends on |
| `lean/Verif/Validation/RunVectors.lean` | a program that compares the model with the test vectors of the repository (section 8) |
| `seeded/LOG.jsonl` | seeded faults: edits of the model and the theorems that failed |

## 2. Trusted base

* The Lean kernel. Proofs by computation use `decide +kernel`, which the kernel checks; no compiled code is trusted (`native_decide` and
  `bv_decide` are not used).
* The axioms `propext`, `Classical.choice`, `Quot.sound` of Lean. `AXIOMS.md` lists which of them each theorem uses. There is no other axiom and no
  `sorry`.
* The statements: the definitions of `Verif/Spec` and the theorem statements of `Verif/Props`.
* The model: that the definitions of `Verif/Model` describe what the Go code does. This is a reading of the source, not a proof. Each definition
  cites the lines it models so that it can be compared. The code was not run; section 8 describes the comparison with its test vectors.
* For the IEEE results: that `ieeeOps` (`Spec/Ieee.lean`) is the arithmetic of the compiled program on amd64, see section 4.

## 3. Modelling conventions

* **Go results.** `Go α` is `ok a | panic | diverge`. `panic` is any run-time panic (index, slice, explicit). `diverge` means that the fuel of a loop
  was exhausted. All unbounded loops (rejection loops, Babai reduction, key generation) and the recursion of `NtruSolve` take a fuel argument;
  theorems quantify over every fuel. A run that is `diverge` for every fuel does not terminate. Go `error` values are `Except` or `Option`.
* **Integers.** `int8`, `int16`, `uint8`, ..., `uint64` are Lean's fixed-width types, so wrap-around is the Go one. Go `int` (64 bit) is `Int`, with an
  explicit wrap where the arithmetic is on data (NTT butterflies); C14 shows with a checked variant that these never overflow. Theorems about the ring operations, `Verify` and public keys are for a 64-bit `int` except those of C99, which run them with a 32-bit one (`Model/Int32.lean`); a `Platform` (section 4) may have an `int` of either size (C94, C96, C97, C100), and C101 runs the sampler with a 32-bit one. `big.Int` is `Int`; for
  the solver this is justified by a second model with pointers (`Model/Heap.lean`, C78).
* **Slices** are lists; `cap = len` is assumed (only matters for slice expressions past `len`; each use is discussed at the definition).
  In-place writes become functions returning the list. For the `int16` code (ring operations, hashing, `Verify`, the key API) this is justified by a
  second model in which slices refer to arrays (`Model/Slice.lean`, C79); there code is a sequence of single accesses, which `Model/Concurrent.lean` interleaves (C81).
  For the `float64` and `complex128` code it is justified by a third model (`Model/Storage.lean`, C87, C88), which also shows where it would fail: a
  tree of degree 2 shares a slice with the Gram matrix.
* **Strings of '0'/'1'** in the encoder are `List Bool`.
* **SHAKE256** is an arbitrary function from absorbed bytes to an infinite byte stream.
* **Random bytes** are an arbitrary stream `Rand`, read at an explicit position; a draw may fail.
* **Floating point** is an arbitrary structure of operations `FloatOps` without laws. What is proved for every `FloatOps` holds whatever the
  hardware does. Three instances are used: exact real and complex arithmetic with exact roots of unity (`exactOps`), IEEE binary64 (`ieeeOps`),
  and rational instances for examples.

## 4. IEEE arithmetic

`Spec/Ieee.lean` defines binary64 with round to nearest even, subnormals, signed zeros, infinities and one NaN, correctly rounded `+ - * / sqrt`, `math.Floor`, `math.Round` (halves away from zero), and the conversions to integers as amd64
performs them (out of range gives -2^63). Complex multiplication is the four-product formula; complex division is the algorithm of the Go runtime.
`ieeeOps` does not fuse multiplications and additions, as the Go compiler on amd64 by default. Other platforms are instances too
(`Spec/Fma.lean`): a product is kept as its factors and each addition may round it first or not, by an arbitrary rule on the operands; conversions
out of range and complex division are parameters. For all of them the decisions of the sampler in key generation are the same (C94), so C59, C60,
C74, C75, C92, C93 apply. The error bounds of C66-C68, C70, C95 and C97 are proved for every `Variant` of the arithmetic (`Lemmas/CDiv.lean`: complex products and quotients within the error
bounds of amd64, any conversion of numbers of more than 32 bits that is not zero; `Wide` marks those with a 64-bit `int`); a platform whose complex division is accurate, such as that of the Go runtime compiled with any fusing, is such a variant on numbers in memory, which gives C96 and C97.
The theorems of C61, C85-C87, C90 about `ieeeOps` are for amd64. The operations were compared with the doubles of the machine (Lean's `Float`, in a test
program that is not part of the proofs) on 300000 random cases, and the witnesses of C42, C68, C70 with a port of the code to another language.

## 5. What is modelled

All of the exported API and everything it reaches: `falcon.go` (keys, hashing, signature encoding, verification), `encoding`, `ntt` with its tables,
`fft` with its table, `ntrugen.go`, `samplerz.go`, `ffsampling.go` (tree, LDL, sampling, nearest plane), `util.go`, the parameter table, `printTree`, `NewBigIntFromString` on every text (with the `nat.scan` of `math/big` it calls).

Not modelled:

* `Compress`, `VerifyBytes` and the hashing of private keys with a 32-bit `int` (the ring operations, `Verify`, key generation and the sampler are: C99-C101; the repository has no signing function, only the sampler),
* printing (`fmt.Println`, `log.Println`), except that of the functions that create keys (`Model/Output.lean`, C98; a printed `float64` is modelled by its value, since `%v` prints enough digits to identify it),
* `crypto/rand` and SHAKE256 themselves (arbitrary functions),
* commented-out code (the SHAKE context of `falcon.go`, `Ldl`, `Ffldl`, `Ffnp`, most of `types/`), test files, and the loading of the known-answer
  test files,
* memory use, timing and side channels, apart from the accesses to `[]int16` arrays and tables (C82, C83), the data-dependent conditions of the ring operations (C89) and the number of random draws (C84),
* fused multiply-add beyond section 4, and rules for fusing that depend on the place in the program (any rule that depends on the operands is covered).

## 6. Properties and proofs

| id | what is modelled, how proved |
|---|---|
| C01-C07 | `Compress`, `Decompress` on bit lists. Main lemma: `Decompress` succeeds with v iff `code v` is a prefix of the bits. |
| C08-C15 | `NTT` etc. on `List Int16` with the real tables. Butterfly lemmas and induction on log n; tables checked completely by the kernel. `MulZq` is specified as divisibility by x^n+1 in `(ZMod 12289)[X]`. |
| C16-C18 | rejection loop over an arbitrary stream; counting by explicit bijection. |
| C19-C28 | `Verify`, `VerifyBytes` composed from the above; one refinement theorem, others are corollaries. |
| C29-C33 | key API and tables. Exact decision conditions; finite tables by `decide`. |
| C34-C38 | `Karatsuba`, `karamul`, tower maps, `xgcd`, `bitsize` over `Int`, specified in `ℤ[X]`. |
| C39-C43 | `reduce`, `NtruSolve`, `NtruGen` with arbitrary floating point. Invariant `f G - g F`; the norm is the product over the complex roots. |
| C44-C48 | sampler arithmetic on `UInt64`/`Nat`; counting by interval cardinality. |
| C49-C52, C69 | FFT, LDL, tree, sampling and nearest plane over `FloatOps`; exact instance over ℂ. C69 compares with a specification tree and Parseval's identity. |
| C53-C55, C64, C65 | list functions, extrema, conversions, random helpers. |
| C56-C58 | quality bound, size reduction, lattice basis of a generated key (exact arithmetic). |
| C59 | panics of key generation, for every arithmetic and for IEEE. |
| C60, C62 | law of the samplers: exact counting, and comparison with the real Gaussian by rational enclosures of the exponential. |
| C61, C66 | accuracy of the root table; forward error analysis of the FFT with the standard model of rounding derived from the definition of binary64. |
| C63 | the basis and tree of a private key; the last leaf at every degree by harmonic means along the right children (Props/TreeLast.lean). |
| C67, C68 | Babai reduction and quality check in IEEE arithmetic. |
| C71 | counting hash values: translation by s1*h; the distribution of the squared norm, in bins of 8192, by convolution of numbers packed in one large number (Lemmas/Pack.lean), evaluated by the kernel; an earlier bound by second moments with tilted weights. The number of streams per hash value by recursion on the stream (HashLaw.lean). |
| C72 | fuel monotonicity by a relation on outcomes compatible with `bind`; locality in the random stream by combinators. |
| C73 | the exact range of `GenPoly`, from the law of the sampler (C60). |
| C74 | the law of the pair of polynomials drawn in an iteration of key generation: samples are cut out of the stream of draws (`run`), the count over all streams factors (`sum_run`), blocks are convolved (`expect_blocks`). |
| C75 | exact moments of the candidates; the law of the squared norm, to nine decimals at each degree, by powers of polynomials packed in one number (Lemmas/NormCount.lean), evaluated by the kernel (C68 gives the IEEE part). |
| C76 | `printTree` on an inductive type of `any` values; induction on the tree. |
| C77 | `SetString(s, 0)` as the loop of `math/big` (sign, prefix, separators, rest of the text); the accepted texts are the integer literals of the Go language, given as an inductive predicate. A failed conversion is `none`: the code ignores the failure and the library leaves the value undefined. |
| C78 | the solver with `*big.Int` as addresses in a heap (Model/Heap.lean); a relation between outcomes of the heap model and of the model on numbers, compatible with `bind`, and a frame condition for each function. |
| C79, C80 | `[]int16` as (array, offset, length, capacity) with element-wise stores and `append` (Model/Slice.lean); loops that fill a new array are related to the list functions chunk by chunk. |
| C81 | goroutines as sequences of accesses to arrays, interleaved one by one (Model/Concurrent.lean; the arrays a call makes are private to it, as numbers are all it exchanges). That no call stores into an existing array follows from C79, where such a store is a fault with a selectable outcome. |
| C82 | the accesses of a run as a list (Model/Trace.lean); a relation between two runs with the same accesses, compatible with `bind`. |
| C83 | a condition on the code, for all outcomes of loads, under which a run that returns has a given number of accesses (Lemmas/Cost.lean); recurrences for the transforms and their closed forms. Hashing and decoding are not counted: their loops do not access `[]int16`, how many words hashing needs is treated in Props/HashLaw.lean (C17), and decoding is bounded by the length of the signature. |
| C84 | counting draw sequences as for C60; acceptance counts in IEEE arithmetic by the kernel. |
| C85 | division by the vector of the signature (C12) gives the accepting keys; their number for every vector by evaluation at the 512 roots, where the verification equation is one linear equation per root; two runs of `Verify` on SHAKE256 output by Kronecker certificates. |
| C86 | word sums (Spec/Words.lean); the loops of `VerifyBytes` by induction. |
| C87, C88 | `[]float64` and `[]complex128` as (array, offset, length) with element-wise stores (Model/Storage.lean, Model/StorageNp.lean), related to the list functions as in C79; the outer slices of matrices are only read after they were made and remain lists. |
| C89 | the ring operations with the list of outcomes of their conditions (Model/Branch.lean); induction over the transform, whose innermost level tests the signs of a + 1479 b and a - 1479 b; the exact conditions of NTT, INTT, MulZq and DivZq in terms of values at the roots (Props/Branch2.lean). |
| C90 | on constant polynomials every step of `NtruSolve` in IEEE arithmetic stays constant (the transforms multiply zeros only, so no rounding enters but that of the constant), so the kernel evaluates it on single integers (Lemmas/ConstSolve.lean, ConstRun.lean); the Gram-Schmidt test accepts by the error analysis of Props/GsAccept.lean; each coefficient of a hash is reduced modulo the two-dimensional lattice of the key
| C91 | the coefficients of f g' - f' g are bounded by the mean of the absolute values at the roots, so by the norms (Props/Unique.lean); the rest by the lattice basis of C58. Rotation is multiplication by x. |
| C92 | the most likely sum of 4096/n samples by exact convolution of the 38 sample counts in packed integers (Lemmas/Peak.lean); the product law of C74 and the independence of candidates of C75 (Props/Entropy.lean). A public key and f determine g, whose coefficients are less than q apart. |
| C93 | parity of the values at 1 through the tower of field norms (C70_even); the sign of the sum of independent samples is the product of their signs, whose mean is computed from the 38 sample counts; the geometric bound of C75/C92 for the discarded candidates. |
| C94 | an abstract arithmetic with relative error 10^-6 (`Approx`); error propagation through the exponent of the sampler, whose exact values keep a distance of 1/50 from the multiples of ln 2 that matter (Props/Approx.lean); every platform of `Spec/Fma.lean` is such an arithmetic (Props/Fused.lean) |
| C95 | quotients of two pairs of a class differ by an integer polynomial, so bounds below one half determine the pair; C57 and C67 give the bounds in the two arithmetics (Props/Reduced.lean, ReducedKey.lean); at degree 2 the norms are `N` and `q^2/N` and both arithmetics decide alike (Props/Agree.lean). |
| C96 | Smith's division and the four-product multiplication keep their error bounds under any fusing (Lemmas/FusedDiv.lean); a homomorphism from the variant into the platform through `FFT`, `reduce`, `NtruSolve`, `GsNorm` for all lengths (Lemmas/PlatformHom.lean); C94 for the candidates (Props/Platforms.lean). |
| C97 | `FFT`, `Mul`, `Adj` bounds of C66 through `Gram` (Lemmas/LdlNear.lean, Props/TreeFloat.lean); the determinant 12289 at the roots gives the second pivot of degree 2, the correctly rounded square root the leaf (Lemmas/SqrtNear.lean, Props/TreeKey.lean); a homomorphism into platforms through `basisAndMatrix` and `normalizeTree` (Props/TreePlatform.lean). |
| C98 | `FfldlFFT`, `basisAndMatrix`, `normalizeTree`, `NewKeyPair`, `NewKeyPairFromPrivateKey` with the list of printed lines (Model/Output.lean), equal to the model without it. Along the left children `SplitFFT` averages `|f(w)|^2+|g(w)|^2` over pairs of roots, which keeps the sum of the squares of the coefficients (Props/Output.lean); rounding errors by the bounds of C66 and C97 (Props/OutputKey.lean); platforms and witnesses in Props/OutputLeak.lean. |
| C99 | `wrap32` in place of `wrap64` in the model of ntt.go, and `Verify` and `GetPublicKey` over either (Model/Int32.lean). Polynomials in `x^2` reduce every degree to degree 2 (Lemmas/Int32.lean); for the repository's signature the 32-bit product is certified by the intermediate values of `INTT` (Lemmas/Int32Eval.lean, Props/Int32Vector.lean). |
| C100 | platforms with a 32-bit `int` (`Platform.x86`, `Platform.arm` in Props/Platform32.lean). On constants the arithmetic of `reduce` is that of one number with any conversion to `int` (Lemmas/Int32Reduce.lean), which gives the loop on 386; Lemmas/Int32Loop.lean follows the loop for one candidate of degree 4 with the rounding errors (Props/Platform32Key.lean). At degree 2 the coefficients of `xgcd` are bounded by its arguments (C37_small), so the quotients stay below 10^9 (Props/Degree2.lean). |
| C101 | `Samplerz` and `berexp` with every operation on `int` wrapping at 32 bits, and `FfSamplingFFT` over either sampler (Model/Sampler32.lean). A checked sampler, which fails on a centre out of range, states that all centres fit (Props/Sampler32.lean). `uint64(x)` is the conversion of amd64 in both. |
| C70 | termination: periodic orbits of `reduce` computed by the kernel; in exact arithmetic, the orbit of the quotient modulo integers; in IEEE arithmetic the same with a forward error analysis relative to the quotient. Degree 2: no tie occurs on candidates that pass the quality check, by arithmetic modulo the norm (Props/Degree2.lean); degree 4: a non-unit pair (Props/Degree4.lean). A tie needs f(1) and g(1) both odd: the norm of f f* + g g* is odd otherwise (Lemmas/Parity.lean, Props/Parity.lean). |

A property that the code does not satisfy has status `partial`, a note starting with `VIOLATED`, a witness theorem `Cxx_violated...` (for all inputs of a
family where possible), and theorems that characterise exactly what does hold.

## 7. Faults of the code established by theorems

* Decoding: panics on truncated input (C05), several encodings of one vector (C06); therefore `Verify` panics on crafted signatures (C22) and
  signatures are malleable (C24). The header byte is ignored (C23).
* The squared norm is a `uint32` that wraps: signatures of huge norm are accepted (C20), and one fixed signature body is accepted under every public
  key for one hash value in 1900, so anyone can forge by trying salts (C71). Keys of 513 to 767 coefficients are truncated (C26).
* `SubZq` and length checks: overflow for unreduced input (C13), surplus coefficients ignored (C15).
* `GetPrivateKey` accepts lengths it should reject (C29); `NewKeyPair` never returns a public key (C31); `GenerateRandSalt` always returns nil (C65);
  `RoundFFTtoInt16` truncates instead of rounding (C64).
* `NtruSolve` tests the gcd modulo 2^64 (C40), and a key generated at degree 16 does not satisfy the NTRU equation; at every degree from 16 to 1024
  some random bytes give a candidate for which no correct key exists and which is not rejected (C42).
* `reduce` does not terminate on ties, and key generation hangs for some random bytes at every degree from 4 on, 512 and 1024 included, and at no random bytes at degree 2 (C70).
* `approxexp` and `berexp` compute 0 or 1 instead of a probability (C45, C46), so the key sampler is skewed (C60), and candidate
  keys are too long: at degree 1024 fewer than one in a hundred, at degree 512 one in twenty are within the bound of the norm check (C75).
* The tree construction overwrites its own nodes and sampling never reads the leaves and panics for degrees above 2 (C52, C63).
* The quality check of key generation accepts a basis that is worse than the bound by a factor 10^23 when f and g nearly vanish at a root (C68).
* `GetPrivateKey` keeps the caller's slices, so writing to them later changes the key (C80).
* `GetPublicKey` looks up the NTT of the secret f in a table; the addresses it reads determine f (C82).
* The number of draws of `Samplerz` depends on the centre and the standard deviation (C84).
* A signature does not determine its key: further keys for an honest signature are computed by one ring division. One signature is accepted
  for two messages through the wrap of the norm (C85).
* `VerifyBytes` adds the bytes of each word, so every input has many forms (C86).
* The branches of `Pmod` in `GetPublicKey` determine the signs of the upper halves of f and g (C89).
* The left child of a tree of degree 2 is the caller's `G[0][0]`, which `normalizeTree` overwrites (C88).
* `GenPoly` overflows int16 at degree 2 for extreme samples (C48).
* `printTree` panics on a single leaf and on the trees of this package (C76).
* On platforms with a 32-bit `int` the inverse transform overflows: products, quotients and `Verify` are wrong there, and a signature of the repository is rejected (C99). `reduce` can loop forever there, since the quotients overflow, and on 386 key generation of degree 4 does so for random bytes that give a key on amd64 (C100).
* Creating or importing a key prints the squared norm of the secret `(f, g)` and other nodes of the secret tree on standard error and standard output (C98).
* The input of the repository's own test `TestSignVerifyBytes` (1722 bytes) makes `VerifyBytes` panic, because `VerifyBytes` reads the key in words of
  32 bytes; `Verify` accepts the same signature (found by section 8, exact behaviour in C24-C26).

## 8. Validation of the model

Two checks compare the model with data that were not made by it. They are evidence for the model, not part of any proof, except where stated.

* `Validation/RunVectors.lean` evaluates the model with SHAKE256 (`Spec/Shake.lean`, written from FIPS 202) and `ieeeOps`, and compares it with the
  expected values of the `*_test.go` files, the 120 entries of the known-answer tests of the sampler and the 100 signatures of the C implementation.
  It also checks that altered messages, salts, bodies and keys are rejected. Run from `/verif/lean`:
  `lake env lean --run Verif/Validation/RunVectors.lean /repo/src`. Result: 748 vectors, 0 disagreements (about 2.5 minutes). Lean's interpreter is trusted
  here; no theorem depends on this program.
* `Props/Vectors.lean` proves in the kernel that `Verify` with SHAKE256 accepts the first signature of the C implementation (`honest_accepted`), so
  the hypotheses about the XOF are met by the real one, and that it also accepts a signature that was computed without a private key for the same
  public key (`C71_violated_shake256`). The products of polynomials of degree 512 are checked by a certificate: both sides are evaluated at one large
  integer (`Lemmas/Kronecker.lean`).
