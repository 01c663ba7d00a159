{"id": "C01", "title": "Compress/Decompress round trip", "statement": "Whenever Compress(v, slen) succeeds on a non-empty coefficient vector v, Decompress(result, slen, len(v)) returns exactly v with no error and no panic.", "quantifier": "every non-empty []int16 (every coefficient including -32768, every length) and every slen with |slen| < 2^60 (so that 8*slen does not overflow int)", "why_tests_cant": "2^16 values per coefficient and unbounded vector lengths; the code is variable length, so a fault can depend on the bit alignment left by all earlier coefficients.", "anchors": ["src/internal/encoding.go: Compress, Decompress"]}
{"id": "C02", "title": "Compress succeeds exactly when the code fits, and then returns exactly slen bytes", "statement": "Compress(v, slen) returns a byte string of length exactly slen if sum over v of (9 + floor(|c|/128)) <= 8*slen, and ErrEncodingTooLong otherwise; it never panics.", "quantifier": "every []int16 and every slen with |slen| < 2^60, negative ones included", "why_tests_cant": "The boundary depends on the whole vector; tests only exercise a few vectors far from the boundary.", "anchors": ["src/internal/encoding.go: Compress"]}
{"id": "C03", "title": "Compress is injective", "statement": "Two different coefficient vectors, even of different lengths, never compress to the same byte string for a given slen.", "quantifier": "all pairs of []int16 and every slen for which both compress", "why_tests_cant": "A statement about all pairs of inputs: collisions cannot be excluded by sampling.", "anchors": ["src/internal/encoding.go: Compress"]}
{"id": "C04", "title": "Decompress accepts exactly the strings that start with the canonical code of a vector", "statement": "Decompress(x, slen, n) returns v without error iff len(x) <= slen, x has a non-zero byte, len(v) = n and the bit string of x starts with the canonical code of v (sign bit, 7 low bits, unary high part, no negative zero).", "quantifier": "every byte string x, every slen and every n, every candidate v", "why_tests_cant": "The set of byte strings is unbounded; acceptance of a malformed string is exactly what sampled tests miss.", "anchors": ["src/internal/encoding.go: Decompress"]}
{"id": "C05", "title": "Decompress never panics, whatever the bytes", "statement": "Decompress(x, slen, n) returns a vector or ErrInvalidEncoding for every byte string x. (The code violates this: all-zero or truncated inputs panic. The exact set of panicking inputs is characterised.)", "quantifier": "every byte string x, every slen and n", "why_tests_cant": "The panicking inputs are adversarial strings; tests use honest ones.", "anchors": ["src/internal/encoding.go: Decompress"]}
{"id": "C06", "title": "Encodings are unique (non-malleable decoding)", "statement": "For a fixed n and slen at most one full-length byte string decodes to a given vector. (The code violates this: bits after the n-th coefficient are ignored and trailing zero bytes may be dropped. What does hold: negative zero is rejected and the bits up to the n-th coefficient are determined by v.)", "quantifier": "all pairs of byte strings decoding to the same vector", "why_tests_cant": "A statement over all pairs of byte strings.", "anchors": ["src/internal/encoding.go: Decompress"]}
{"id": "C07", "title": "Decoded vectors have the requested length and bounded coefficients", "statement": "If Decompress(x, slen, n) succeeds the result has exactly n coefficients, and sum of (9 + floor(|c|/128)) <= 8*len(x); so every |c| <= 128*(8*slen - 9n) + 127.", "quantifier": "every byte string, slen and n", "why_tests_cant": "Needs the worst case over all byte strings.", "anchors": ["src/internal/encoding.go: Decompress"]}
{"id": "C08", "title": "INTT inverts NTT and NTT inverts INTT", "statement": "For every supported degree n in {2,4,...,1024}, INTT(NTT(f)) is the reduction of f into [0,q), and NTT(INTT(g)) is the reduction of g into [0,q), coefficient by coefficient.", "quantifier": "every []int16 of every supported length (all 65536^n vectors)", "why_tests_cant": "q^n vectors; a wrong table entry only shows on inputs that touch it.", "anchors": ["src/internal/transforms/ntt/ntt.go: NTT, INTT, SplitNTT, MergeNTT", "src/internal/transforms/ntt/ntt_constants.go: roots_dict_Zq, inv_mod_q"]}
{"id": "C09", "title": "NTT is evaluation at the roots of x^n+1", "statement": "For every supported degree the i-th output of NTT(f) is the value mod q, in [0,q), of the polynomial f at the i-th tabulated root, and the tabulated roots are n distinct roots of x^n+1 mod q.", "quantifier": "every []int16 of every supported length and every output index", "why_tests_cant": "Same input-space argument, and the table relations must hold for all 2046 entries.", "anchors": ["src/internal/transforms/ntt/ntt.go: NTT, MergeNTT", "src/internal/transforms/ntt/ntt_constants.go"]}
{"id": "C10", "title": "MulZq is multiplication in Z_q[x]/(x^n+1)", "statement": "For every supported degree MulZq(f,g) returns the n coefficients in [0,q) of the product of f and g modulo x^n+1 and q.", "quantifier": "every pair of []int16 of the same supported length, unreduced and negative coefficients included", "why_tests_cant": "The product is over (2^16)^(2n) input pairs.", "anchors": ["src/internal/transforms/ntt/ntt.go: MulZq, mulNTT"]}
{"id": "C11", "title": "Z_q[x]/(x^n+1) ring laws for MulZq and SubZq", "statement": "MulZq is commutative, associative, has [1,0,...,0] as unit up to reduction, and distributes over SubZq.", "quantifier": "all triples of []int16 of the same supported length (operands of SubZq with coefficients in [0,q), see C13)", "why_tests_cant": "Algebraic identities over all triples.", "anchors": ["src/internal/transforms/ntt/ntt.go: MulZq, SubZq"]}
{"id": "C12", "title": "DivZq divides exactly or reports division by zero", "statement": "DivZq(f,g) returns h with all coefficients in [0,q) and h*g = f mod (x^n+1,q) when g is invertible there, and ErrDivByZero exactly when g is not invertible; it never panics on equal supported lengths.", "quantifier": "every pair of []int16 of the same supported length", "why_tests_cant": "Depends on the correctness of all 12289 inverse-table entries and on invertibility over all g.", "anchors": ["src/internal/transforms/ntt/ntt.go: DivZq, divNTT", "src/internal/transforms/ntt/ntt_constants.go: inv_mod_q"]}
{"id": "C13", "title": "SubZq is subtraction mod q", "statement": "SubZq(f,g) returns f-g mod q with coefficients in [0,q) for all int16 inputs. (True for the coefficients in [0,q) that Verify passes; violated for unreduced inputs because of int16 overflow.)", "quantifier": "every pair of equal-length []int16", "why_tests_cant": "Overflow appears only at extreme coefficient pairs.", "anchors": ["src/internal/transforms/ntt/ntt.go: SubZq, addZq, negZq"]}
{"id": "C14", "title": "NTT-domain code never overflows and always reduces", "statement": "No 64-bit intermediate product or sum in NTT, INTT, MulZq, DivZq overflows for any int16 inputs, and every output coefficient is in [0,q).", "quantifier": "every []int16 input of every supported length", "why_tests_cant": "Worst-case magnitude over all inputs and recursion levels.", "anchors": ["src/internal/transforms/ntt/ntt.go: NTT, INTT, SplitNTT, MergeNTT, mulNTT, divNTT"]}
{"id": "C15", "title": "Operand lengths are checked", "statement": "MulZq panics rather than return a wrong product when the operands have different lengths, and never silently drops coefficients. (The code violates this: an operand whose length is between n and 3n/2-1 is silently truncated to its first n coefficients, lengths such as 3, 6, 7, 12 give an empty product; the exact behaviour for every length is characterised.)", "quantifier": "all operand lengths", "why_tests_cant": "All lengths, including non powers of two.", "anchors": ["src/internal/transforms/ntt/ntt.go: NTT, MulZq, mulNTT", "src/util/util.go: SplitPolysInt"]}
{"id": "C16", "title": "Hash-to-point output is a reduced vector of n coefficients and depends only on salt||message", "statement": "hashToPoint(message, salt), when it returns, returns n coefficients all in [0,q); two calls whose salt||message byte strings are equal return the same vector; it returns for every XOF stream that contains n accepted samples.", "quantifier": "every message, salt and every extendable-output function", "why_tests_cant": "Rejection loop over an arbitrary infinite stream.", "anchors": ["src/falcon.go: hashToPoint, (*PrivateKey).hashToPoint"]}
{"id": "C17", "title": "Hash-to-point sampling is unbiased", "statement": "Every residue r in [0,q) is produced by exactly five of the 65536 two-byte samples, and a sample is rejected exactly when it is at least 5q; so over uniform streams of any fixed length every vector of [0,q)^n is the hash value with the same probability, and 2048 bytes of stream suffice for n = 512 except with probability below 2^-1000.", "quantifier": "every residue and every two-byte sample, every stream length, every hash value", "why_tests_cant": "A counting statement over the whole sample space.", "anchors": ["src/falcon.go: hashToPoint"]}
{"id": "C18", "title": "Signer-side and verifier-side hashing agree", "statement": "For a degree-512 key the PrivateKey hashToPoint method and the package-level hashToPoint return the same coefficients for the same message and salt.", "quantifier": "every message, salt and XOF", "why_tests_cant": "Two separate implementations compared on all streams.", "anchors": ["src/falcon.go: hashToPoint, (*PrivateKey).hashToPoint"]}
{"id": "C19", "title": "Verify decides exactly the lattice relation it computes", "statement": "For a 512-coefficient public key h and a signature of at least 41 bytes on which it does not panic, Verify returns true iff the bytes after the salt decode to s1 and, with s0 the centred representative of H(salt||m) - s1*h mod (x^512+1, q), the sum of squares of s0 and s1 reduced mod 2^32 is at most 34034726.", "quantifier": "every public key, message, signature and XOF", "why_tests_cant": "Refinement of the whole verification pipeline against a mathematical specification, for all inputs.", "anchors": ["src/falcon.go: Verify"]}
{"id": "C20", "title": "Verify is sound: it accepts only short signatures", "statement": "If Verify returns true then ||s0||^2+||s1||^2 <= 34034726. (The code violates this: the squared norm is accumulated in a wrapping uint32, so vectors of norm near 2^32 are accepted; the property holds whenever the true norm is below 2^32.)", "quantifier": "every public key, message and signature", "why_tests_cant": "Acceptance of a bad signature is a single point in a huge space.", "anchors": ["src/falcon.go: Verify, VerifyBytes", "src/falcon_constants.go: ParamSets"]}
{"id": "C21", "title": "Verify is complete: every correct short signature is accepted", "statement": "If s0 + s1*h = H(salt||m) mod (x^512+1,q), ||s0||^2+||s1||^2 <= 34034726 and Compress(s1, 625) succeeds, then Verify(h, m, header||salt||compressed) returns true for every header byte.", "quantifier": "every key, message, salt and every short solution (s0,s1)", "why_tests_cant": "All valid signatures, not just 1010 samples.", "anchors": ["src/falcon.go: Verify", "src/internal/encoding.go: Compress, Decompress"]}
{"id": "C22", "title": "Verify never panics on attacker-supplied signatures", "statement": "Verify returns true or false for every signature byte string and a valid key. (The code violates this: short, empty-body, all-zero-body and truncated signatures panic. The exact set is characterised.)", "quantifier": "every signature byte string", "why_tests_cant": "Adversarial inputs.", "anchors": ["src/falcon.go: Verify", "src/internal/encoding.go: Decompress"]}
{"id": "C23", "title": "The signature header byte is checked", "statement": "Verify rejects signatures whose header byte does not announce Falcon-512. (The code violates this: the header is never read; Verify's result is the same for every header byte.)", "quantifier": "every signature and header byte", "why_tests_cant": "All inputs.", "anchors": ["src/falcon.go: Verify", "src/falcon_constants.go: HeadLen"]}
{"id": "C24", "title": "Signatures are not malleable", "statement": "From an accepted signature no different byte string accepted for the same key and message can be computed without the key. (The code violates this: header byte, trailing zero bytes and any bits after the last coefficient can be changed freely.)", "quantifier": "every key, message and accepted signature", "why_tests_cant": "All pairs of signatures.", "anchors": ["src/falcon.go: Verify", "src/internal/encoding.go: Decompress"]}
{"id": "C25", "title": "Verify depends on the key only modulo q and on the message only through salt||message", "statement": "Replacing public-key coefficients by others congruent mod q, or replacing (salt, message) by another pair with the same concatenation and the same 40-byte salt length, does not change the result.", "quantifier": "every pair of congruent keys, every message and signature", "why_tests_cant": "All congruent pairs.", "anchors": ["src/falcon.go: Verify", "src/internal/transforms/ntt/ntt.go: MulZq"]}
{"id": "C26", "title": "Verify only works with 512-coefficient keys", "statement": "With a key whose length is not 512 Verify does not return true. (The code violates this: keys of 513 to 767 coefficients are silently truncated; all other lengths panic unless the signature is rejected first.)", "quantifier": "every key length", "why_tests_cant": "All lengths.", "anchors": ["src/falcon.go: Verify", "src/internal/transforms/ntt/ntt.go: NTT, mulNTT"]}
{"id": "C27", "title": "VerifyBytes is Verify on the packed encoding", "statement": "VerifyBytes on the concatenation of 32-byte words carrying the bytes of h (two words per coefficient), a 32-byte message and a 666-byte signature returns what Verify returns on h, message, signature; bytes after word 1722 are ignored; shorter inputs panic.", "quantifier": "every 512-coefficient key, 32-byte message, 666-byte signature and every trailing data", "why_tests_cant": "55104-byte inputs.", "anchors": ["src/falcon.go: VerifyBytes, Verify"]}
{"id": "C28", "title": "Narrowing decoded coefficients to int16 is harmless", "statement": "Whenever Verify accepts and the true squared norm is below 2^32, no decoded coefficient was changed by the int16 conversion.", "quantifier": "every signature", "why_tests_cant": "Worst case over all decodable signatures.", "anchors": ["src/falcon.go: Verify", "src/internal/encoding.go: Decompress"]}
{"id": "C29", "title": "GetPrivateKey accepts exactly well-formed keys", "statement": "GetPrivateKey(n,f,g,F,G) succeeds iff n is a supported degree and the four polynomials all have length n, and then stores its arguments unchanged. (The code violates the 'only if': it tests only that the sum of lengths is divisible by 4n. The exact acceptance condition is characterised, including the uint16 truncation of the sum.)", "quantifier": "every n and every four slices", "why_tests_cant": "All combinations of lengths, including sums over 65535.", "anchors": ["src/falcon.go: GetPrivateKey, isValidPolysLength"]}
{"id": "C30", "title": "GetPublicKey returns h with h*f = g", "statement": "GetPublicKey on a private key with equal supported polynomial lengths returns the same n and the h in [0,q)^n with h*f = g mod (x^n+1,q) whenever f is invertible. When f is not invertible it returns a key with empty h and no error.", "quantifier": "every private key", "why_tests_cant": "All keys, and the non-invertible ones are a thin set.", "anchors": ["src/falcon.go: (*PrivateKey).GetPublicKey", "src/internal/transforms/ntt/ntt.go: DivZq"]}
{"id": "C31", "title": "NewKeyPair returns a usable key pair", "statement": "On success NewKeyPair(n) and NewKeyPairFromPrivateKey(n, polys) return non-nil keys. (The code violates this: NewKeyPair always returns a nil public key, NewKeyPairFromPrivateKey always returns nil keys, both with a nil error.)", "quantifier": "every n, every random source and every polynomial quadruple", "why_tests_cant": "All executions; the shipped test loop runs zero iterations.", "anchors": ["src/falcon.go: NewKeyPair, NewKeyPairFromPrivateKey"]}
{"id": "C32", "title": "Unsupported degrees are rejected everywhere", "statement": "For n not in {2,4,...,1024}, GeneratePrivateKey, GetPrivateKey, NewKeyPair and NewKeyPairFromPrivateKey return ErrInvalidDegree and no key without running key generation, and GetParamSet returns the zero parameters.", "quantifier": "all 65536 values of n", "why_tests_cant": "All n, all random sources.", "anchors": ["src/falcon.go: isValidDegree, GetParamSet, GeneratePrivateKey, GetPrivateKey, NewKeyPair, NewKeyPairFromPrivateKey"]}
{"id": "C33", "title": "Parameter tables are consistent", "statement": "For every supported degree: LOGN is the binary logarithm, the entry's n is its key, the minimal encoding of n coefficients fits in sigbytelen-41 bytes, sigbound and sigbytelen strictly increase with n, and 1 < sigmin < 1.8205 < sigma.", "quantifier": "every entry of the tables", "why_tests_cant": "Relational property across the table.", "anchors": ["src/falcon_constants.go: ParamSets, LOGN"]}
{"id": "C34", "title": "Karatsuba is polynomial multiplication over Z", "statement": "Karatsuba(a,b,n) for n a power of two and len(a)=len(b)=n returns 2n integers, the coefficients of a*b (top one zero), with no panic.", "quantifier": "every power of two n and all integer coefficients of any size", "why_tests_cant": "Unbounded integers and sizes.", "anchors": ["src/internal/ntrugen.go: Karatsuba"]}
{"id": "C35", "title": "karamul is multiplication in Z[x]/(x^n+1)", "statement": "karamul(a,b) for equal power-of-two lengths returns the n coefficients of a*b mod x^n+1.", "quantifier": "every power of two n and all integer coefficients", "why_tests_cant": "Unbounded integers and sizes.", "anchors": ["src/internal/ntrugen.go: karamul"]}
{"id": "C36", "title": "Tower maps satisfy the field-norm identities", "statement": "galoisConjugate(a) is a(-x) (and applying it twice is the identity), lift(a) is a(x^2), and lift(fieldNorm(a)) = a * galoisConjugate(a) mod x^n+1.", "quantifier": "every power of two n >= 2 and all integer coefficients", "why_tests_cant": "Algebraic identities on unbounded data.", "anchors": ["src/internal/ntrugen.go: galoisConjugate, fieldNorm, lift"]}
{"id": "C37", "title": "xgcd terminates with a Bezout identity", "statement": "xgcd(b,n) terminates for all integers and returns (d,u,v) with d = u*b + v*n and |d| = gcd(b,n); d >= 0 when both inputs are non-negative. For b > 0 and n >= 0 the coefficients are small: |u| <= max(n,1) and |v| <= b.", "quantifier": "all pairs of integers, negative and zero included", "why_tests_cant": "Unbounded integers.", "anchors": ["src/internal/ntrugen.go: xgcd"]}
{"id": "C38", "title": "bitsize is the bit length rounded up to a multiple of 8", "statement": "bitsize(a) is the least multiple of 8 with |a| < 2^bitsize(a).", "quantifier": "all integers", "why_tests_cant": "Unbounded integers.", "anchors": ["src/internal/ntrugen.go: bitsize"]}
{"id": "C39", "title": "Babai reduction preserves the NTRU determinant", "statement": "Whatever floating-point rounding does, when reduce(f,g,F,G) returns (F',G') then f*G'-g*F' = f*G-g*F mod x^n+1, lengths are preserved and nothing panics.", "quantifier": "all power-of-two lengths, all integer polynomials, every floating-point behaviour and every number of iterations", "why_tests_cant": "Quantifies over arbitrary floating-point results and iteration counts.", "anchors": ["src/internal/ntrugen.go: reduce"]}
{"id": "C40", "title": "NtruSolve solves the NTRU equation", "statement": "If NtruSolve(f,g) returns F,G without error then f*G - g*F = 12289 mod x^n+1. (Violated when the gcd of the resultants is different from 1 but its low 64 bits read as 1; the general identity f*G-g*F = 12289*d with d that gcd is proved.)", "quantifier": "every power of two n, all integer f and g, every floating-point behaviour", "why_tests_cant": "Unbounded integers, recursion depth and floating-point behaviour.", "anchors": ["src/internal/ntrugen.go: NtruSolve"]}
{"id": "C41", "title": "NtruSolve reports no solution only when the resultants are not coprime", "statement": "For power-of-two n >= 2 NtruSolve returns ErrEquation iff the low 64 bits of gcd(N(f),N(g)) are not 1, N being the iterated field norm down to Z; in particular it succeeds for coprime norms. For n = 1 the code also rejects coprime inputs such as (3,-1).", "quantifier": "every power of two n and all integer f,g", "why_tests_cant": "Unbounded integers.", "anchors": ["src/internal/ntrugen.go: NtruSolve, xgcd"]}
{"id": "C42", "title": "Generated private keys satisfy the NTRU equation", "statement": "GeneratePrivateKey(n), when it returns, returns f,g,F,G of length n with f*G-g*F = q mod x^n+1. (Guaranteed only modulo 2^16 because F and G are truncated to int16 without a check, and up to the gcd caveat; exact when the solver's output fits int16.) In exact arithmetic this holds at degrees 2, 4 and 8, in IEEE arithmetic at degree 2; from degree 16 on it fails for some random bytes.", "quantifier": "every supported n, every random source and floating-point behaviour", "why_tests_cant": "All random sources and float behaviours.", "anchors": ["src/falcon.go: GeneratePrivateKey", "src/internal/ntrugen.go: NtruGen, NtruSolve", "src/util/util.go: BigIntToInt16"]}
{"id": "C43", "title": "Generated private keys always have a public key", "statement": "For every key returned by GeneratePrivateKey, f is invertible mod (x^n+1,q) and GetPublicKey returns h with h*f = g.", "quantifier": "every supported n and every random source", "why_tests_cant": "All random sources.", "anchors": ["src/internal/ntrugen.go: NtruGen", "src/falcon.go: GetPublicKey"]}
{"id": "C44", "title": "BaseSampler follows its table exactly", "statement": "BaseSampler maps 9 bytes to a value in {0..18}, is non-increasing in the big-endian integer u, and for every k the number of inputs giving at least k+1 is exactly RCDT[k].", "quantifier": "all 2^72 byte strings", "why_tests_cant": "2^72 inputs.", "anchors": ["src/internal/samplerz.go: BaseSampler, RCDT"]}
{"id": "C45", "title": "approxexp approximates 2^63*ccs*exp(-x)", "statement": "approxexp(x,ccs) is within a small relative error of 2^63*ccs*exp(-x). (The code violates this: the 64-bit products wrap, so the result is always 0 or 1.)", "quantifier": "all x, ccs", "why_tests_cant": "All inputs.", "anchors": ["src/internal/samplerz.go: approxexp"]}
{"id": "C46", "title": "berexp accepts with probability ccs*exp(-x)", "statement": "berexp's acceptance probability over a uniform random byte is ccs*exp(-x) up to the sampler's precision. (Violated: for ccs in (1/2,1) the number of accepting bytes is 255, 2^(8-s) or 1 depending only on s = floor(x/ln2); it is never below 1/256.)", "quantifier": "all x, ccs and all random bytes", "why_tests_cant": "Distribution over all bytes for all parameters.", "anchors": ["src/internal/samplerz.go: berexp"]}
{"id": "C47", "title": "Samplerz output stays in the support", "statement": "Samplerz(mu,...) returns floor(mu)+z with z in [-18,19], truncated to int8; for mu = 0 (as used in key generation) the result is in [-18,19].", "quantifier": "every centre, deviation, random source and floating-point behaviour", "why_tests_cant": "All random sources.", "anchors": ["src/internal/samplerz.go: Samplerz"]}
{"id": "C48", "title": "GenPoly sums do not overflow", "statement": "For 4 <= n <= 4096 every coefficient of GenPoly(n) is the exact sum of floor(4096/n) samples, of absolute value at most 19*4096/n, with no int16 overflow; GenPoly panics exactly for n > 4096.", "quantifier": "every n and random source", "why_tests_cant": "All random sources.", "anchors": ["src/internal/samplerz.go: Samplerz", "src/internal/ntrugen.go: GenPoly"]}
{"id": "C49", "title": "FFT and IFFT are inverse (exact arithmetic)", "statement": "With exact complex arithmetic and exact roots, IFFT(FFT(f)) = f for every supported degree and FFT(f) is evaluation of f at the roots of x^n+1.", "quantifier": "every real vector of every supported length", "why_tests_cant": "Uncountable inputs; tests use random small integers.", "anchors": ["src/internal/transforms/fft/fft.go: FFT, IFFT, SplitFFT, MergeFFT"]}
{"id": "C50", "title": "FFT-domain products, quotients and adjoints are ring operations (exact arithmetic)", "statement": "With exact arithmetic, Mul is multiplication in R[x]/(x^n+1), Div inverts it when the divisor has no root in common with x^n+1, and Adj(f) is f(1/x).", "quantifier": "all real vectors of every supported length", "why_tests_cant": "Algebraic identities.", "anchors": ["src/internal/transforms/fft/fft.go: Mul, Div, Adj, Add, Sub, Neg"]}
{"id": "C51", "title": "LdlFFT factors the Gram matrix (exact arithmetic)", "statement": "With exact arithmetic, for a 2x2 Hermitian G with non-zero G00, LdlFFT(G) = (L,D) satisfies L*D*L^* = G slot by slot, with unit lower triangular L and diagonal D; on other dimensions it panics. Gram of an r x c matrix B of polynomials is the r x r matrix B*B^* at every root of x^n+1, for all r, c >= 1.", "quantifier": "all matrices", "why_tests_cant": "Algebraic identity.", "anchors": ["src/internal/ffsampling.go: LdlFFT, Gram"]}
{"id": "C52", "title": "FfldlFFT builds a Falcon tree that FfSamplingFFT can use", "statement": "FfSamplingFFT on a tree built by FfldlFFT for degree n returns two vectors of length n. (Violated: the tree keeps only the last degree-2 node, so for n > 2 sampling panics.)", "quantifier": "every degree, every Gram matrix, every floating-point behaviour", "why_tests_cant": "All inputs and degrees.", "anchors": ["src/internal/ffsampling.go: FfldlFFT, FfSamplingFFT"]}
{"id": "C53", "title": "Polynomial split and merge are inverse", "statement": "MergePolys(SplitPolys(f)) = f for even length, SplitPolys(MergePolys(f0,f1)) = (f0,f1) for equal lengths, and for odd length the last coefficient is dropped.", "quantifier": "all vectors of all lengths", "why_tests_cant": "All lengths.", "anchors": ["src/util/util.go: SplitPolysInt, MergePolysInt"]}
{"id": "C54", "title": "Pmod is the non-negative residue", "statement": "Pmod(x,b) is congruent to x mod b and lies in [0,|b|) for every b != 0, and panics for b = 0.", "quantifier": "all pairs of integers", "why_tests_cant": "All pairs including negative moduli.", "anchors": ["src/util/util.go: Pmod"]}
{"id": "C55", "title": "Extremum and comparison helpers are correct", "statement": "Max, MaxFromBigInt and MinFromBigInt return an element of the list that bounds all others; AllZeroes, AnyZeroes, BigIntSliceEqual and CmpBigInt decide what their names say. SmallestFloat64 and BiggestFloat64 (IEEE) return an element that bounds all others unless the first is NaN, and NaN if it is.", "quantifier": "all lists", "why_tests_cant": "All lists.", "anchors": ["src/util/util.go: Max, MaxFromBigInt, MinFromBigInt, AllZeroes, AnyZeroes, BigIntSliceEqual"]}
{"id": "C56", "title": "Generated keys satisfy the Gram-Schmidt quality bound (exact arithmetic)", "statement": "With exact arithmetic, GsNorm(f,g,q) is the larger of the squared norms of (f,g) and of q(f*,g*)/(ff*+gg*) in R[x]/(x^n+1), and every key returned by GeneratePrivateKey has both at most 1.17^2*q.", "quantifier": "all randomness, all degrees, all f,g not vanishing together at a root of x^n+1", "why_tests_cant": "The bound concerns every generated key and the second norm is never computed elsewhere.", "anchors": ["src/internal/ntrugen.go: GsNorm, NtruGen"]}
{"id": "C57", "title": "Generated F and G are size-reduced, so narrowing them to int16 loses nothing (exact arithmetic)", "statement": "With exact arithmetic, reduce returns a pair whose quotient (F f*+G g*)/(f f*+g g*) has all coefficients below 1/2; for every key returned by GeneratePrivateKey whose norms have a gcd of at most 2^64, f*G - g*F = q over the integers for the returned int16 values, with |F_i| <= |f|_1/2 + 130 and |G_i| <= |g|_1/2 + 130 (at most 8541).", "quantifier": "all randomness, all degrees, all iterations of the reduction", "why_tests_cant": "The bound is on every key; an overflow would silently produce a key that does not sign correctly.", "anchors": ["src/internal/ntrugen.go: reduce, NtruSolve, NtruGen"]}
{"id": "C58", "title": "A private key is a basis of the lattice of its public key, and signing with it verifies", "statement": "For every key that solves the NTRU equation and whose f is invertible mod q, with h the key returned by GetPublicKey: (u,v) satisfies u + v*h = 0 mod (q, x^n+1) exactly when it is an integer combination of (g,-f) and (G,-F), and the two rows are independent. Hence, for degree 512, any pair (H(salt||m),0) - z0(g,-f) - z1(G,-F) within the bound whose second half fits 625 bytes is accepted by Verify, and any two solutions for one hash differ by such a combination. Keys generated in exact arithmetic (norm gcd at most 2^64) qualify.", "quantifier": "all keys, all lattice vectors, all coefficient choices z0 and z1, all messages and salts", "why_tests_cant": "The lattice is infinite and the claim is about every vector in it; it links key generation with verification.", "anchors": ["src/falcon.go: GetPublicKey, GeneratePrivateKey", "src/falcon.go: Verify", "src/internal/ntrugen.go: NtruGen"]}
{"id": "C59", "title": "Key generation does not panic", "statement": "For every floating-point behaviour, GeneratePrivateKey and NewKeyPair panic only if one of their sampler calls panics; in IEEE 754 binary64 arithmetic the sampler of key generation panics only if the random source fails, so key generation with a working random source never panics, for any degree. In exact arithmetic the sampler panics only if the random source fails, for every centre and every deviation up to 1.8205.", "quantifier": "all randomness, all degrees, all floating-point behaviours for the first part", "why_tests_cant": "Panics depend on rare intermediate values (division by zero, index errors, negative shifts) over all random seeds.", "anchors": ["src/falcon.go: GeneratePrivateKey, NewKeyPair", "src/internal/ntrugen.go: NtruGen, NtruSolve, reduce, GsNorm, GenPoly", "src/internal/samplerz.go: Samplerz, berexp"]}
{"id": "C60", "title": "The key-generation sampler follows the discrete Gaussian", "statement": "Samplerz called with centre 0 and deviation 1.43300980528773 returns z with probability proportional to exp(-z^2/(2 sigma^2)) up to a small error. (Violated: the law is not symmetric and is at statistical distance at least 3/100 from every symmetric law.)", "quantifier": "all 2^88 draws per iteration, any number of iterations", "why_tests_cant": "A distribution over 2^88 inputs per iteration cannot be enumerated; statistical tests only sample it.", "anchors": ["src/internal/samplerz.go: Samplerz, BaseSampler, berexp, approxexp", "src/internal/ntrugen.go: GenPoly"]}
{"id": "C61", "title": "The FFT root table is accurate", "statement": "roots_dict has exactly the keys 2,4,...,1024, the table of key n has n entries, and entry i is the root of x^n+1 of that index (entries 2i and 2i+1 are the principal square root of entry i of the previous table and its negation) up to 2*10^-15.", "quantifier": "all 2046 entries", "why_tests_cant": "The tests compare FFT results with other results of the same table; a wrong entry gives keys that are silently bad.", "anchors": ["src/internal/transforms/fft/fft_constants.go: roots_dict, phi4_roots ... phi2048_roots"]}
{"id": "C62", "title": "The base sampler follows the half-Gaussian distribution", "statement": "Over the 2^72 values of its 9 random bytes, BaseSampler returns each z in 1..18 on exactly floor(2^72 D(z)) of them, where D is the half-Gaussian distribution on the natural numbers with parameter 1.8205, and its statistical distance to D is at most 9/2^72.", "quantifier": "all 2^72 inputs; all natural numbers z", "why_tests_cant": "The table has 18 constants of 72 bits; a wrong low-order digit in one of them is invisible to any statistical test, and the exact distribution ranges over 2^72 inputs.", "anchors": ["src/internal/samplerz.go: BaseSampler, RCDT"]}
{"id": "C63", "title": "The basis and the tree computed from a private key", "statement": "From f, g, F, G the key functions compute the transform of the basis [[g,-f],[G,-F]] and the LDL tree of its Gram matrix, and normalising the tree turns every leaf ||b_i||^2 into sigma/||b_i||. (Violated for every degree above 2: the tree is overwritten by that of the last diagonal entry, and the right leaf is never normalised.)", "quantifier": "all keys, all degrees", "why_tests_cant": "The tree is dropped by the callers, so no test observes it; the claim is about all keys.", "anchors": ["src/falcon.go: basisAndMatrix, normalizeTree", "src/internal/ffsampling.go: FfldlFFT"]}
{"id": "C64", "title": "Number conversions are lossless", "statement": "int16 vectors converted to float64 or complex128 and back, or to big.Int and back, are unchanged (IEEE arithmetic); narrowing conversions and the int16 helpers are exact exactly on the int16 range; RoundFFTtoInt16 rounds to the nearest integer (violated: it truncates); UintFromBytes is the little-endian value.", "quantifier": "all vectors, all int16 values, all finite floats in range, all byte strings", "why_tests_cant": "An off-by-one at a range boundary or for negative fractions only shows on specific values.", "anchors": ["src/util/util.go: Int16ToFloat64, Float64ToInt16, Int16ToBigInt, BigIntToInt16, IntToInt16, SubInt16, NegInt16, SquareInt16, UintFromBytes", "src/internal/transforms/fft/fft.go: RoundFFTtoInt16"]}
{"id": "C65", "title": "The random helpers are uniform and complete", "statement": "GenerateRandSalt returns a salt of SaltLen bytes (violated: always nil). RandElement chooses each position for exactly one value of the uniform draw and panics only on an empty list or a failing source; RandomFft gives each integer of -3..4 once; RandomHexString gives two characters per byte, injectively.", "quantifier": "all draws of the random source, all lists and lengths", "why_tests_cant": "Statements about every value of a random draw.", "anchors": ["src/util/util.go: GenerateRandSalt, RandElement, RandomFft, RandomHexString"]}
{"id": "C66", "title": "Error bounds of the FFT in IEEE arithmetic", "statement": "In IEEE double precision with the table of the source, for every degree 2..1024 and every vector of finite floats of moderate size, no operation overflows or gives NaN, FFT is within 3*10^-14 ||f||_1 of the values of f at the roots of unity, IFFT(FFT f) is within 7*10^-14 ||f||_1 of f, and Mul is within 10^-13 ||f||_1 ||g||_1 of the product of R[x]/(x^n+1); for integer vectors with ||f||_1 ||g||_1 <= 10^12 rounding the result of Mul gives the exact product.", "quantifier": "all vectors of finite floats with ||f||_1 <= 10^90 (FFT) or 10^40 (Mul), all degrees 2..1024", "why_tests_cant": "Rounding errors depend on every operand; a test measures the error of a few vectors, and the worst case is not among random ones.", "anchors": ["src/internal/transforms/fft/fft.go: FFT, IFFT, Mul, SplitFFT, MergeFFT", "src/internal/transforms/fft/fft_constants.go: roots_dict"]}
{"id": "C67", "title": "Babai reduction in IEEE arithmetic leaves a short F, G", "statement": "In IEEE double precision: if Reduce returns (F', G') for f, g that pass the quality bounds (squared norm <= 1.17^2 q, |f(w)|^2 + |g(w)|^2 >= 7.84 at every root w of x^n+1), then the exact quotient of the result has coefficients at most 1/2 + 57*10^-9 (||F'||_1 + ||G'||_1 + 2), and if (F', G') solves the NTRU equation then every coefficient is at most 11000 in absolute value. So a key generated with IEEE arithmetic whose f, g have |f(w)|^2 + |g(w)|^2 >= 1/10 at every w and whose norms have a gcd of at most 2^64 satisfies f G - g F = q exactly, without int16 overflow.", "quantifier": "all inputs of Reduce, all degrees 2..1024, all random bytes", "why_tests_cant": "The accumulated rounding error of the FFT-based reduction over all integer inputs; tests see a few keys.", "anchors": ["src/internal/ntrugen.go: Reduce, NtruSolve, NtruGen", "src/falcon.go: GeneratePrivateKey"]}
{"id": "C68", "title": "The quality check of key generation is sound in IEEE arithmetic", "statement": "If the floating-point value of GsNorm is not above 1.17^2 q then the exact squared norms of both Gram-Schmidt vectors are at most 1.17^2 q up to 0.4 percent. (Violated: for some f, g of degree 32 whose values at one root of unity are smaller than the rounding errors the check passes although the exact norm exceeds 10^27. It holds for the first norm always, and for the second if |f(w)|^2 + |g(w)|^2 >= 1/10 at every root. Conversely a pair whose exact norms are below the bound by 0.4 percent is accepted.)", "quantifier": "all int16 vectors f, g of degree 2..1024", "why_tests_cant": "The failing keys are found only by lattice reduction; random keys never hit them.", "anchors": ["src/internal/ntrugen.go: GsNorm, Sqnorm, NtruGen", "src/util/util.go: BiggestFloat64"]}
{"id": "C69", "title": "FfnpFFT is the nearest-plane algorithm", "statement": "For vectors of length 2^k, FfnpFFT panics exactly when the tree has fewer than k levels of nodes or a node shorter than its vectors. In exact arithmetic every result is the FFT of two integer polynomials. With the tree of the specification for a real basis B that is non-singular at every root of x^n+1, and real polynomials t = (t0, t1), the result z satisfies ||(t - z) B||^2 <= (sum of the leaves)/2 <= n/4 times the squared norm of B, and the leaves are positive with product equal to the determinant of the lattice.", "quantifier": "all trees, all vectors, all bases, all degrees 2..1024", "why_tests_cant": "A statement about all real targets and bases, relating the result to a lattice distance the code never computes.", "anchors": ["src/internal/ffsampling.go: FfnpFFT, LdlFFT", "src/internal/transforms/fft/fft.go: SplitFFT, MergeFFT"]}
{"id": "C70", "title": "Lattice reduction and key generation terminate", "statement": "Reduce returns for every solution of the NTRU equation, and key generation returns unless the random source keeps producing rejected candidates. (Violated: math.Round rounds halves away from zero, so a Babai coefficient of exactly one half alternates between 1/2 and -1/2 forever. NtruSolve never returns when f and g are units of Z[x]/(x^n+1), in any degree, and for every degree from 4 on there is a finite source of random bytes for which GeneratePrivateKey never returns. At degree 2 it returns, with a key or an error, on every finite source. In exact arithmetic, for short f, g, Reduce returns exactly when no coefficient of (F f* + G g*)/(f f* + g g*) is halfway between two integers. It can be halfway only if the coefficients of f and those of g both add up to an odd number.)", "quantifier": "all solutions F, G, all short f, g, all degrees 2..1024, all random bytes", "why_tests_cant": "An infinite loop is not distinguishable from a slow run by testing, and the candidates that trigger it are found only through the unit group.", "anchors": ["src/internal/ntrugen.go: Reduce, NtruSolve, NtruGen", "src/util/util.go: RoundAll"]}
{"id": "C71", "title": "A signature cannot be made without the private key by guessing", "statement": "For every public key and every signature body, the fraction of hash values (vectors in [0,q)^512) for which Verify accepts is negligible, so trying salts does not forge. (Violated: the squared norm is a uint32. There is one fixed body that Verify accepts under every public key for at least one hash value in 1900; over uniform XOF streams, trying 2^17 salts forges a signature of any message except with probability below 2^-90. The exact count for every body, independent of the key, is proved, and that without the wrap-around the fraction is at most 2^-550 for every key and body.)", "quantifier": "all public keys of 512 coefficients, all signature bodies, all hash values", "why_tests_cant": "A count over q^512 hash values for every key; a test tries a few random signatures, all of which are rejected.", "anchors": ["src/falcon.go: Verify", "src/falcon.go: GetParamSet"]}
{"id": "C72", "title": "Outcomes are well defined and random bytes are used once", "statement": "The result of each function that loops (key generation, lattice reduction, sampling, hashing, verification) is a function of its inputs: runs that are followed for longer do not change an outcome. A generated key depends only on the random draws between the first one and the last one read; f and g come from disjoint blocks of at least 4096 draws, read in order and never reread.", "quantifier": "all inputs, all random streams, all floating-point behaviours", "why_tests_cant": "Reuse or look-ahead of random bytes does not change the appearance of single keys.", "anchors": ["src/internal/ntrugen.go: NtruGen, GenPoly, NtruSolve, Reduce", "src/internal/samplerz.go: Samplerz", "src/falcon.go: GeneratePrivateKey, Verify"]}
{"id": "C73", "title": "GenPoly draws exactly the polynomials in its range", "statement": "For 3 <= n <= 4096 the polynomials that GenPoly(n) can return, over all random bytes, are exactly those with n coefficients between -18k and 19k, k = floor(4096/n). Every pair of such polynomials is the first candidate of key generation for some random bytes.", "quantifier": "all degrees 3..4096, all polynomials, all random bytes", "why_tests_cant": "Most of the range has negligible probability, so no test sees it, and a table or sign error there only removes values.", "anchors": ["src/internal/ntrugen.go: GenPoly, NtruGen", "src/internal/samplerz.go: Samplerz, BaseSampler, berexp"]}
{"id": "C74", "title": "The coefficients of f and g are independent sums of samples", "statement": "In an iteration of key generation at a degree n >= 4 that divides 4096, the 2n coefficients of f and g are independent, each distributed as the sum of 4096/n independent samples of the sampler: the probability of a pair (f, g), given uniform random bytes, is the product of the probabilities of its coefficients. 16384 + t draws of 11 bytes suffice for both polynomials except with probability 2^-t, at every degree.", "quantifier": "all degrees 4..4096 dividing 4096, all pairs, all numbers of random draws", "why_tests_cant": "A joint law over 2n coefficients; correlations or reuse of draws do not show in single keys.", "anchors": ["src/internal/ntrugen.go: GenPoly, NtruGen", "src/internal/samplerz.go: Samplerz"]}
{"id": "C75", "title": "Candidates of key generation have the intended size", "statement": "The deviation 1.43300980528773 = 1.17 sqrt(q/8192) of the samples is such that the expected squared norm of a candidate (f, g) is 1.17^2 q, the bound of the quality check. (Violated: the expected squared norm is exactly 8192 (m2 + (4096/n - 1) m1^2) for the moments m1, m2 of the sampler, more than 18106 at every degree, where 16822.4 is intended. As a consequence a candidate has squared norm within the bound with probability 0.493641414 at degree 4, decreasing to 0.050269385 at degree 512 and 0.009546614 at degree 1024, and passes the check in IEEE arithmetic with at most this probability; each rejected pair is discarded.)", "quantifier": "all degrees 4..1024, all numbers of random draws", "why_tests_cant": "An exact expectation over 2^88 draws per sample; rejected candidates are invisible to tests.", "anchors": ["src/internal/ntrugen.go: NtruGen, GenPoly, GsNorm", "src/internal/samplerz.go: Samplerz, berexp, approxexp"]}
{"id": "C76", "title": "printTree prints one line per node", "statement": "printTree(tree, \"\") returns one line per node of the tree in pre-order, each starting with the columns of its ancestors, for every tree; it always terminates. (Violated: a tree that is a single leaf panics, and so does every tree with an inner node whose child is not a []any, such as the LDL trees of this package. On all other trees it holds.)", "quantifier": "all trees, all texts, all prefixes for termination and for the second panic", "why_tests_cant": "Recursive layout over arbitrary trees; the panic needs a tree shape no test prints.", "anchors": ["src/falcon.go: printTree"]}
{"id": "C77", "title": "Numbers are read from texts exactly by the grammar of Go literals, and so is the sampler's table", "statement": "NewBigIntFromString reads a text exactly when it is an integer literal of the Go language, possibly after a sign (decimal, or with a prefix 0b, 0o, 0 or 0x, with single underscores between digits or after a prefix), and then returns its value; every other text is a failed conversion. In particular the decimal text of every number n gives n, with either sign, and the 18 texts in samplerz.go give the intended table. A decimal text of 8 or more with a zero in front is read as a smaller number or not at all.", "quantifier": "all texts; all natural numbers", "why_tests_cant": "Base 0 of SetString switches bases on some texts only.", "anchors": ["src/types/bignum.go: NewBigIntFromString", "src/internal/samplerz.go: RCDT"]}
{"id": "C78", "title": "The NTRU solver does not modify its caller's numbers", "statement": "NtruSolve(f, g) overwrites no big.Int that existed before the call, even if f and g share numbers, and F and G consist of new numbers, all different; so do karamul, fieldNorm and galoisConjugate. reduce(f, g, F, G) overwrites exactly the numbers of F and G and returns these slices, if they are all different and not in f or g. The values returned are those of the arithmetic on integers, so treating *big.Int as a value is justified.", "quantifier": "all slices, all heaps, all ways of sharing, all floating-point behaviours", "why_tests_cant": "Aliasing of pointers depends on the call history; tests compare values of freshly made slices.", "anchors": ["src/internal/ntrugen.go: NtruSolve, reduce, Karatsuba, karamul, fieldNorm, galoisConjugate, lift, xgcd", "src/util/util.go: FillBigIntSlice, MinFromBigInt, MaxFromBigInt"]}
{"id": "C79", "title": "Ring operations and verification do not modify their arguments", "statement": "MulZq, SubZq, DivZq, Verify and VerifyBytes change no array that existed before the call, and their result is a new array, whatever storage their arguments share (the same slice twice, overlapping slices, a key that is part of a larger array). Their results are those of the same operations on the numbers in the slices, for every growth policy of append; so a sequence of verifications with one key gives the results for the key as it was at the start.", "quantifier": "all slices, all memory contents, all ways of sharing, all messages and signatures", "why_tests_cant": "Sharing of storage depends on how the caller made the slices; tests use separate slices.", "anchors": ["src/internal/transforms/ntt/ntt.go: NTT, INTT, SplitNTT, MergeNTT, MulZq, SubZq, DivZq", "src/falcon.go: Verify, VerifyBytes, hashToPoint", "src/util/util.go: SplitPolysInt, MergePolysInt, IntToInt16"]}
{"id": "C80", "title": "A private key does not change after it was made", "statement": "A private key returned by GetPrivateKey(n, f, g, F, G) keeps its value, and so its public key, whatever the caller does with the slices f, g, F, G afterwards.", "quantifier": "all slices, all later writes by the caller", "why_tests_cant": "Tests do not write to the slices after making the key.", "anchors": ["src/falcon.go: GetPrivateKey, GetPublicKey"]}
{"id": "C81", "title": "Concurrent calls do not interfere", "statement": "Any number of goroutines may call MulZq, SubZq, DivZq, GetPublicKey, Verify and VerifyBytes at the same time on slices that are the same or overlap. No goroutine ever stores into an array that existed before, so there is no data race; these arrays stay unchanged at every moment; every call that returns has the outcome it has alone on the initial elements; and each call finishes after a number of its own memory accesses that does not depend on the other calls or on the order.", "quantifier": "all lists of calls, all ways of sharing, all memory contents, all interleavings of memory accesses", "why_tests_cant": "The number of interleavings is exponential and a race shows only in a few of them.", "anchors": ["src/internal/transforms/ntt/ntt.go: MulZq, SubZq, DivZq, NTT, INTT", "src/falcon.go: Verify, VerifyBytes, hashToPoint, GetPublicKey"]}
{"id": "C82", "title": "Memory accesses do not depend on secret values", "statement": "The sequence of memory accesses (array elements and entries of the table inv_mod_q) of MulZq, SubZq and GetPublicKey depends only on the slices, not on the numbers in them. (Violated by GetPublicKey: it looks up inv_mod_q at the NTT of f, element by element, so the accesses determine f modulo q, and for keys with coefficients between -6144 and 6144 they are the same exactly if f is the same. They do not depend on g. MulZq and SubZq satisfy it.)", "quantifier": "all slices and memory contents; for GetPublicKey all degrees 2..1024", "why_tests_cant": "Access patterns are not visible in results.", "anchors": ["src/internal/transforms/ntt/ntt.go: MulZq, SubZq, DivZq, divNTT", "src/internal/transforms/ntt/ntt_constants.go: inv_mod_q", "src/falcon.go: GetPublicKey"]}
{"id": "C83", "title": "The work of ring operations and verification is fixed", "statement": "At degree n = 2^k a call of MulZq makes exactly (31k+4)n/2 - 8 accesses to array elements (loads, stores, table lookups, arrays made) and allocates (6k-2)n elements, a successful DivZq (31k+8)n/2 - 8 and as many elements, a failing one at most that, SubZq 5n+2 and 2n. A call of Verify with a key of 512 coefficients that returns has made at most 208891 accesses, for every message and signature and every growth policy of append, and a call of VerifyBytes at most 340219 for every input: no input makes verification expensive.", "quantifier": "all coefficient values; degrees 2..1024 (SubZq: all lengths); all messages, signatures and XOFs", "why_tests_cant": "Tests measure time on a few inputs; a worst case over all signatures cannot be sampled.", "anchors": ["src/internal/transforms/ntt/ntt.go: MulZq, SubZq, DivZq, NTT, INTT", "src/falcon.go: Verify, VerifyBytes"]}
{"id": "C84", "title": "The running time of the sampler does not depend on secrets", "statement": "The number of draws Samplerz makes is independent of the value it returns, of the centre mu and of the standard deviation (isochrony, as required of Falcon's sampler). (Independence of the returned value holds, for all parameters and every floating-point behaviour: the number of draw sequences that give v after exactly j draws is a product of a factor of v and a factor of j. Dependence on centre and standard deviation: violated. In IEEE arithmetic, at standard deviation 1.278, the first draw is accepted with probability at most 0.68 for centre 1/4 and at least 0.77 for centre 1/2; for standard deviation 1.82 with probability at least 0.99.)", "quantifier": "all centres, standard deviations, returned values, numbers of draws", "why_tests_cant": "A dependence of a probability on a parameter is not visible in single runs, and there are 2^88 draws.", "anchors": ["src/internal/samplerz.go: Samplerz, berexp, approxexp, BaseSampler"]}
{"id": "C85", "title": "A signature is bound to its key and its message", "statement": "An accepted signature determines the public key and the message it was made for: it is not accepted under another key for the same message (exclusive ownership) nor for another message under the same key (message binding). (FALSE: the public key is not hashed and Verify checks one linear equation in it, so for every signature whose vector s1 is invertible the accepting keys are exactly the quotients (c - t)/s1 over all vectors t within the bound; anyone can compute a second key for an honest signature. One signature is accepted for two messages under a key of the repository with SHAKE256, through the 32-bit wrap of the norm. For every vector s1 the number of accepting keys is q^z times the number of vectors within the bound that agree with the hash point wherever s1 vanishes, z being the number of roots of x^512+1 at which s1 vanishes; the first signature of the repository is accepted under at least 3^512 keys. Without the wrap the hash points of two such messages differ by a vector of squared norm at most 4*bound - 4*|s1|^2.)", "quantifier": "all messages, salts, headers, bodies, XOFs, residuals t; all keys (exact list for an invertible vector, exact number for every vector)", "why_tests_cant": "Tests verify signatures under the keys that made them and do not search for other keys or messages.", "anchors": ["src/falcon.go: Verify, hashToPoint", "src/internal/transforms/ntt/ntt.go: DivZq"]}
{"id": "C86", "title": "Each input of VerifyBytes has one byte string", "statement": "VerifyBytes reads a key, a message and a signature from its argument, and different arguments (up to trailing bytes) denote different inputs; malformed words are rejected. (FALSE: a word denotes the sum of its 32 bytes, modulo 2^8 in message and signature and modulo 2^16 in the key, and no word is rejected. Exactly: on every argument of at least 55104 bytes VerifyBytes is Verify on the key, message and signature denoted by the word sums; every byte of message and signature has exactly 2^248 forms, so every argument has others of the same length with the same outcome for every XOF.)", "quantifier": "every byte string of any length, every XOF", "why_tests_cant": "Tests pack their inputs in the intended form; they do not try other bytes in the padding.", "anchors": ["src/falcon.go: VerifyBytes"]}
{"id": "C87", "title": "FFT code does not modify its arguments", "statement": "Every function of the fft package (Add, Sub, Mul, Div, Neg, Adj and their FFT variants, FFT, IFFT, SplitFFT, MergeFFT), SplitPolysFloat64, MergePolysfloat64, Gram, FfSamplingFFT, FfnpFFT and basisAndMatrix leave every array that existed before the call unchanged, also when their arguments overlap; the slices they return are new arrays; their results are those of the same code on immutable sequences. The slices of the tree and of the matrix made by basisAndMatrix share no array.", "quantifier": "for all arithmetics, all memories, all slices of existing arrays (overlapping or not), all random streams", "why_tests_cant": "Aliasing effects depend on which slices a caller passes; tests pass freshly made, disjoint slices.", "anchors": ["src/internal/transforms/fft/fft.go: Add, AddFFT, Sub, SubFFT, Mul, MulFFT, Div, DivFFT, Neg, NegFFT, Adj, AdjFFT, FFT, IFFT, SplitFFT, MergeFFT", "src/internal/ffsampling.go: Gram, FfSamplingFFT, FfnpFFT", "src/falcon.go: basisAndMatrix", "src/util/util.go: SplitPolysFloat64, MergePolysfloat64"]}
{"id": "C88", "title": "LDL tree is independent of the Gram matrix", "statement": "The slices of a tree made by FfldlFFT do not share storage with the Gram matrix, so that normalizeTree of the tree does not modify the matrix; normalizeTree modifies only the first two elements of each leaf it normalises, once.", "quantifier": "for all arithmetics, all memories, all Gram matrices of slices", "why_tests_cant": "The overwritten matrix is only visible to a caller that keeps it; no test does, and the sharing occurs for degree 2 only.", "anchors": ["src/internal/ffsampling.go: FfldlFFT, LdlFFT, AllChild", "src/falcon.go: normalizeTree"]}
{"id": "C89", "title": "The branches of ring operations do not depend on coefficients", "statement": "Which way the data-dependent conditions in SubZq, MulZq, DivZq and GetPublicKey go (util.Pmod tests the sign of x mod b, divNTT tests for zero) is the same for all operands of the same length. (FALSE: the conditions of NTT on a polynomial with coefficients between -78 and 78 determine the signs of the upper half of its coefficients, so those of GetPublicKey determine the signs of the upper halves of the secret f and g; those of SubZq show which coefficients of the second operand are zero. Holds for the pointwise product; the number of conditions of NTT is fixed. Exactly: the conditions of a product or quotient are those of the two forward transforms followed by conditions determined by the result, so private keys with the same public key differ only in the conditions of the forward transforms.)", "quantifier": "all operands; degrees 2..1024 for NTT and GetPublicKey, all lengths for SubZq and mulNTT", "why_tests_cant": "Which branch was taken is not part of any result that a test compares.", "anchors": ["src/internal/transforms/ntt/ntt.go: NTT, INTT, SubZq, MulZq, DivZq, mulNTT, divNTT", "src/util/util.go: Pmod", "src/falcon.go: GetPublicKey"]}
{"id": "C90", "title": "Key generation can succeed and its key can sign every message", "statement": "For every supported degree 2..1024 some random bytes make GeneratePrivateKey, in IEEE arithmetic, return a key that satisfies the NTRU equation, with NewKeyPair returning the same private key; and at degree 512 some returned key is such that Verify accepts, for every message and every 40-byte salt, a signature with that salt under the public key of GetPublicKey.", "quantifier": "all degrees 2^1..2^10; all messages, salts, headers, XOFs", "why_tests_cant": "A test can exhibit one generated key, but not that every one of infinitely many messages has an accepted signature under it.", "anchors": ["src/internal/ntrugen.go: NtruGen, NtruSolve, reduce, GsNorm, GenPoly", "src/falcon.go: GeneratePrivateKey, NewKeyPair, GetPublicKey, Verify", "src/internal/transforms/fft/fft.go: FFT, IFFT"]}
{"id": "C91", "title": "Private keys with the same public key", "statement": "Two private keys with invertible f have the same public key exactly when f g' - f' g = 0 modulo q and x^n+1. If the first components of both pass the norm test of key generation (as for all generated keys), then f g' - f' g = q e over the integers with coefficients of e in {-1,0,1}, and (f', g') = z (f, g) + e (F, G) if the first key solves the NTRU equation. The 2n rotations of a key are different and have its public key; two generated keys with the same f and g are equal; two solutions (F, G) for the same f, g differ by a multiple of (f, g).", "quantifier": "all private keys, degrees 2..1024; IEEE arithmetic for generated keys", "why_tests_cant": "The set of private keys of a public key cannot be enumerated by a test.", "anchors": ["src/falcon.go: GetPublicKey, GeneratePrivateKey", "src/internal/ntrugen.go: NtruGen, NtruSolve, GsNorm", "src/internal/transforms/ntt/ntt.go: DivZq"]}
{"id": "C92", "title": "Generated keys cannot be guessed", "statement": "Over uniform random bytes, no value of a coefficient of a candidate f or g is more likely than v(n) (an explicit table, exact to 10^-9), and GeneratePrivateKey with at most t candidates returns a private key with given f and g with probability at most t v(n)^(2n), a key with a given public key with probability at most t v(n)^n (degrees 16..1024), and two independent runs return keys with the same public key with probability at most t v(n)^n. At degree 512 these are t/2^3484 and t/2^1742, at degree 1024 t/2^5955 and t/2^2977.", "quantifier": "all private and public keys; degrees 4..1024; any number of candidates t and of random draws; IEEE and exact arithmetic", "why_tests_cant": "Probabilities of this size cannot be observed by running the code.", "anchors": ["src/falcon.go: GeneratePrivateKey, GetPublicKey", "src/internal/ntrugen.go: NtruGen, GenPoly", "src/internal/samplerz.go: Samplerz, BaseSampler, berexp"]}
{"id": "C93", "title": "A generated key has an odd sum of coefficients", "statement": "Every private key returned by GeneratePrivateKey has an odd sum of the coefficients of f or of g, whatever the floating-point arithmetic does. A candidate with two even sums, which is discarded only after the norm test, the NTT and the tower of field norms, has probability exactly ((1+b^4096)/2)^2 with b = -0.0236 (an exact fraction), which is 1/4 up to 10^-6000 and not less, at every degree. So GeneratePrivateKey returns with at most t candidates with probability at most 1 - 4^-t.", "quantifier": "all degrees 2..1024, all random sources, every floating-point behaviour; for the probabilities uniform bytes, IEEE and exact arithmetic", "why_tests_cant": "A test sees some generated keys; that no key has two even sums and how often a candidate does is a statement on all sources.", "anchors": ["src/falcon.go: GeneratePrivateKey", "src/internal/ntrugen.go: NtruGen, NtruSolve, GenPoly", "src/internal/samplerz.go: Samplerz"]}
{"id": "C94", "title": "The candidates of key generation do not depend on the platform", "statement": "For every source of random bytes GenPoly returns the same polynomial and consumes the same bytes on every platform, wherever the compiler fuses multiplications and additions and however conversions of numbers out of range and complex division behave; and so in every arithmetic with relative errors up to 10^-6. GeneratePrivateKey panics on every such platform only if the random source fails.", "quantifier": "all random sources, all degrees, all rules for fusing, all conversions out of range", "why_tests_cant": "A test runs on one platform; that no rounding difference ever changes a decision of the sampler is a statement on all of them.", "anchors": ["src/internal/ntrugen.go: GenPoly, NtruGen", "src/internal/samplerz.go: Samplerz, berexp, approxexp", "src/falcon.go: GeneratePrivateKey"]}
{"id": "C95", "title": "The second half of a key does not depend on the rounding errors", "statement": "For f, g short enough for the norm test, the pair (F, G) that reduce returns in exact arithmetic is the same for all solutions of the NTRU equation in a class modulo (f, g). If |f|^2+|g|^2 is at least 7.84 at the roots of x^n+1, reduce in IEEE arithmetic returns this same pair unless a coefficient of (F f* + G g*)/(f f* + g g*) is within 10^-6 of a half-integer, and a pair that differs from it by a (f, g) with coefficients of a in {-1,0,1} in any case; so a key generated in IEEE arithmetic is the key generated in exact arithmetic from the same f, g if no such near-tie occurs, |f|^2+|g|^2 is at least 1/10 at the roots of x^n+1 and the norms of f and g have a gcd of at most 2^64. At degree 2 GeneratePrivateKey has on every random source exactly the same outcomes in both arithmetics, and the norm test accepts exactly the pairs of squared norm between 8978 and 16822.", "quantifier": "all degrees 2..1024, all solutions F, G of any size; for degree 2 all random sources", "why_tests_cant": "Whether rounding errors ever change a key cannot be found by running the code, since exact arithmetic is not available to it.", "anchors": ["src/internal/ntrugen.go: reduce, NtruSolve, NtruGen, GsNorm", "src/falcon.go: GeneratePrivateKey"]}
{"id": "C96", "title": "Keys are correct and the same on platforms with fused multiply-add", "statement": "On every platform whose complex division is as accurate as that of amd64 and whose conversion of numbers out of range to int is not zero (amd64, arm64 and every platform that compiles the division of the Go runtime, with any fusing; int may have 32 bits), the error bounds of FFT hold, and with a 64-bit int small products are exact and reduce ends away from ties; the result of reduce has quotients of at most 1/2+7/10^7; a generated key satisfies the NTRU equation, the norm test up to the rounding errors and the size bound 65 sqrt(n)+130 under the hypotheses of C67 and C68. Keys with the same f and g generated on two such platforms differ at most by a (f, g) with coefficients of a in {-1,0,1}, and are equal if no coefficient of the quotient is within 10^-6 of a tie. At degree 2 key generation has the outcomes of exact arithmetic on every such platform and ends.", "quantifier": "all platforms with accurate division, all rules for fusing on operands, all random sources, degrees 2..1024", "why_tests_cant": "A test runs on one platform and one compiler; the statement is on every way to fuse products.", "anchors": ["src/internal/ntrugen.go: NtruGen, NtruSolve, reduce, GsNorm", "src/internal/transforms/fft/fft.go: FFT, IFFT, Mul, Div", "src/falcon.go: GeneratePrivateKey"]}
{"id": "C97", "title": "The tree of a key is accurate in floating point", "statement": "For the private keys of degrees 2..1024, basisAndMatrix computes in IEEE arithmetic a basis whose slots are within 3 10^-14 S_i of the rows of [[g,-f],[G,-F]] at the roots of x^n+1 and a Gram matrix within 405 10^-15 n S_i S_j of their Hermitian product (S_i-1 the largest sum of absolute values of a polynomial of row i); LdlFFT gives the quotient and the second pivot with relative errors of 32 10^-15 and 8 10^-14. For every key that GeneratePrivateKey returns at degree 2 the tree is finite, its children are positive and within 3 10^-8 of d = |f|^2+|g|^2 and within 2 10^-2 of 12289^2/d, and the leaf that normalizeTree writes is within 5 10^-7 of sigma/sqrt(d); at every degree the divisors at the top of the tree are within 72 10^-4 of |f|^2+|g|^2 at the roots and above 8.6 if the exact values are at least 1/10. The same holds on every platform with accurate complex division, however products are fused.", "quantifier": "all 16-bit keys and all basis sizes up to 10^10; all random sources for generated keys; all accurate platforms", "why_tests_cant": "A test compares the tree of some keys with a reference; that no key makes a rounding error larger, a pivot negative or an entry infinite is a statement on all of them.", "anchors": ["src/falcon.go: basisAndMatrix, normalizeTree, fft3D", "src/internal/ffsampling.go: Gram, LdlFFT, FfldlFFT", "src/internal/transforms/fft/fft.go: FFT, DivFFT, MulFFT, SubFFT, AdjFFT"]}
{"id": "C98", "title": "Creating a key prints nothing that depends on the private key", "statement": "The lines that NewKeyPair and NewKeyPairFromPrivateKey write to standard output and standard error are the same for all private keys of the same degree. (Violated: FfldlFFT logs n-1 tree nodes and normalizeTree prints the children of the last one. The left child of the first node is within 1/50 of |f|^2+|g|^2, so rounding it gives the squared norm of (f, g) exactly, for every generated key and every imported key of squared norm up to 16822; keys with different norms print different lines. At every degree two private keys of the same degree satisfy the NTRU equation and print different lines.)", "quantifier": "all private keys, all degrees 2..1024, all random sources, all platforms with accurate division, all rules for fusing", "why_tests_cant": "A test looks at the returned values; that the printed digits determine a secret quantity for every key is a statement on all keys and roundings.", "anchors": ["src/internal/ffsampling.go: FfldlFFT", "src/falcon.go: NewKeyPair, NewKeyPairFromPrivateKey, basisAndMatrix, normalizeTree"]}
{"id": "C99", "title": "The results do not depend on the size of int", "statement": "Go's int has 32 bits on some platforms and 64 on others. MulZq, DivZq, GetPublicKey and Verify return the same on both. (Violated: NTT and the products and quotients of transforms are the same for all inputs, but INTT and SplitNTT multiply a difference by two constants before reducing, which overflows 32 bits. At degree 2 INTT is right exactly when the two values differ by at most 32; at every degree 2..1024 multiplying or dividing x^(n/2) by 1 gives 4097 x^(n/2) with a 32-bit int; at every degree there is a private key satisfying the NTRU equation, at degree 2 a generated one, that gets another public key; Verify with a 32-bit int rejects signatures that it accepts with a 64-bit one, among them a signature shipped with the repository under its public key, and accepts signatures that it rejects with a 64-bit one. The results agree whenever no operation of the inverse transform overflows 32 bits.)", "quantifier": "all inputs of the transforms, all degrees 2..1024, all messages, salts and header bytes for the witnesses of Verify", "why_tests_cant": "Tests run on 64-bit machines; the statement compares two platforms on all inputs.", "anchors": ["src/internal/transforms/ntt/ntt.go: INTT, SplitNTT, NTT, MulZq, DivZq", "src/falcon.go: Verify, GetPublicKey"]}
{"id": "C100", "title": "Key generation does not depend on the size of int", "statement": "With a 32-bit int, key generation draws the same candidates, reduce returns whenever it does with a 64-bit int, and the keys are the same. (Violated: at every degree 2..1024 there is a solution (F, G) of the NTRU equation on which reduce returns at once on amd64 and never returns on 386, since a quotient of 2^31 or more is converted to -2^31 and F grows in every iteration; there are finite random bytes for which GeneratePrivateKey of degree 4 returns a key on amd64 and never returns on 386. What holds: candidates and the zero test are the same; at degree 2 GeneratePrivateKey has the same outcomes on 386, on 32-bit arm and on amd64 for every random source; at every degree reduce ends, away from ties, if the coefficients of the quotient are at most 10^9 and those of F and G add up to at most 2^44; the bounds of C96 and C97 on keys hold.)", "quantifier": "all random sources, all rules for fusing, all degrees 2..1024, all F from 2^31 on for the witness", "why_tests_cant": "Tests run on 64-bit machines; that no quotient overflows, or that a loop never ends, is a statement on all inputs and executions.", "anchors": ["src/internal/ntrugen.go: reduce, NtruSolve, NtruGen, GenPoly, xgcd", "src/util/util.go: RoundAll", "src/falcon.go: GeneratePrivateKey"]}
{"id": "C101", "title": "The sampler does not depend on the size of int", "statement": "With a 32-bit int, berexp returns the same as with a 64-bit int for all arguments (also infinities and NaN) and every random byte; Samplerz returns the same sample after the same number of draws for every centre whose floor is between -2^31 and 2^31 - 1, all sigma and sigmin and every random source; FfSamplingFFT returns the same, or fails to return on both, if all centres that it passes to Samplerz are in this range. The range is needed: for the centre 2^31 + 200 the same draw gives -55 on amd64 and 1 on 386.", "quantifier": "all centres in range, all other arguments, all random sources, trees and targets of every length", "why_tests_cant": "Tests run on 64-bit machines; the statement compares two platforms on all inputs and all random bytes.", "anchors": ["src/internal/samplerz.go: Samplerz, berexp, BaseSampler", "src/internal/ffsampling.go: FfSamplingFFT"]}
