# ETHFALCON in Lean 4 — design

## Method

* Every modelled function is a small total computable Lean definition whose comment cites file and lines in `/repo`.  Python exceptions and Solidity reverts are values (`Except Err`).
  Python integers are `Int`/`Nat`; EVM words are `Nat`, reduced modulo 2^256 exactly where the code can wrap.
* Loops without an a-priori bound (rejection sampling, retries) take fuel; running out is a separate result (`none`), and the theorems quantify existentially over the fuel ("the call returns") or are
  for every fuel.  Loops that do terminate are shown to need no more than the fuel they are given.
* Every theorem about code using a hash is for *every* function `H` with digests of the right length (the collision resistance of Keccak plays no role); where the code computes Keccak or BLAKE2s itself,
  that code is modelled and compared with the standard.
* Specifications are separate small files (`Spec.lean`): negacyclic products as explicit coefficient sums, polynomials over `ZMod 12289` evaluated at roots of `x^n = -1`, the Golomb-Rice code of a list of
  integers, the FIPS 202 step mappings, RFC 7539, RFC 7693, squared norms.  A person who knows the English property reads the theorem and the specification only.
* Properties that are false of the code are stated as theorems too: the negation with a witness (or for every input, when the failure is universal; suffix `_false`), the exact set where the claim holds, and
  the largest true part (suffix `_partial`).
* `example`s beside the theorems instantiate the hypotheses with concrete data.

## Trusted base

* The kernel of Lean 4.33.0.  No compiled evaluation is used (no `native_decide`, no `bv_decide`); `decide +kernel` appears only for finite tables and numeric constants, evaluated by the kernel.
* Axioms: `propext`, `Classical.choice`, `Quot.sound` only; `AXIOMS.md` (made by `tools/axioms.py` with `#print axioms`) lists them for each theorem of the manifest.  No axiom is added.
* The faithfulness of the transcription from Python/Solidity/C to Lean, which is by reading; each definition cites its lines, each simplification is noted there and below.
* Tables (twiddle factors, FFT roots, inverse table, probability tables, round constants) were copied by script from the sources.

## What is modelled

| Directory | Code |
|---|---|
| `Encoding` | pythonref/encoding.py |
| `Codec`, `SolSig`, `Packing` | falcon_codec.py, the byte decoders of falcon.py, scripts/generate_kat_rsp.py, ZKNOX_falcon_encodings.sol, the packing and unpacking of ZKNOX_falcon_utils.sol, common.py |
| `Ring` | ntrugen.py (karatsuba, field norm, lift, xgcd, reduce, ntru_solve) |
| `Keccak`, `Hash` | keccak.py, shake.py, keccak_prng.py, blake2s_prng.py, keccaxof.py, hash_to_point of falcon.py, ZKNOX_HashToPoint.sol, ZKNOX_shake.sol |
| `NTT` | ZKNOX_NTT_falcon.sol, ZKNOX_NTT.sol, ZKNOX_falcon_deploy.sol and their tables |
| `Falcon` | falcon.py: key generation, signing, verification, parameters; scripts/parameters.py |
| `Contract` | ZKNOX_falcon.sol, ZKNOX_ethfalcon.sol, ZKNOX_falcon_core.sol, ZKNOX_common.sol, the ABI decoding they rely on |
| `Epervier` | falcon_epervier.py, falcon_recovery.py, ZKNOX_epervier.sol, ZKNOX_ethepervier.sol |
| `Sampler` | samplerz.py, mkgauss.py |
| `Rng` | rng.py (ChaCha20), drbg/aes256_ctr_drbg.py |
| `Blake` | blake2s/blake2s.py |
| `FFT` | fft.py, fft_constants.py, ffsampling.py, gs_norm of ntrugen.py, sqnorm of common.py |
| `Cli` | sign_cli.py, the key and signature files, transaction hashing |
| `Storage` | lib/sstore2 (SSTORE2.sol, Bytecode.sol), the storage of ZKNOX_NTT.sol, ZKNOX_falcon.sol, ZKNOX_ethfalcon.sol |
| `Tetration` | external/NTT_Recursive.sol, external/ETHFalcon_Recursive.sol |
| `CRef` | falcon/nistfalcon/src: vrfy.c, codec.c, keccak256.c, keccak_prng.c, shake.c, common.c, nist.c, nist16.c, epervier16.c, rng.c, fpr.h and fpr.c, fft.c (not poly_add_muladj_fft, poly_div_autoadj_fft, poly_div_fft), sign.c (all of it; the `logn = 0` cases of the recursions that are not reached from `logn >= 1` are left out), keygen.c (prime table, arithmetic, NTT, Gaussian source, final check, main loop, big integers, `make_fg` and `solve_NTRU_deepest` 2394-2396, 2515-2761, `solve_NTRU_intermediate` 2768-3314 with the multipliers of its reduction as a parameter; the floating-point test of the orthogonalized norm, 4217-4243; not the other levels of the NTRU solver, the solver is a parameter of the main loop) |
| `Float` | pythonref/fft.py 14-142 (split_fft, merge_fft, fft, ifft, add, sub, mul_fft) and fft_constants.py, ffsampling.py 195-219 and falcon.py 357-363, 390-440 in floating point: floats are reals, each operation rounded by a parameter (no infinities, NaNs or signed zeros) |

## Properties

Status: *proved*; *partial* — the claim as stated is false of the code or only partly proved, the manifest says which.

| Id | Property | Directory | How | Status |
|---|---|---|---|---|
| C01 | compress/decompress round trip | `Encoding` | bit-list model of `compress`/`decompress`; induction over the coefficients | proved |
| C02 | compress fails exactly when the encoding does not fit | `Encoding` | length of the code as a sum; `compress` returns `False` iff it exceeds the space | proved |
| C03 | decompress output is well formed | `Encoding` | parser soundness: acceptance iff the code of the result is a prefix of the bits; induction over the bit string | proved |
| C04 | signature encoding is not malleable | `Encoding` | false: trailing bits ignored; witness, and uniqueness for zero tails | partial |
| C05 | decompress never raises | `Encoding` | false: exact set of raising inputs | partial |
| C06 | modq_encode/modq_decode round trip | `Codec` | accumulator loop refined to a bit list; induction | proved |
| C07 | modq_decode is canonical | `Codec` | same, converse direction | proved |
| C08 | modq_encode rejects bad coefficients | `Codec` | case analysis of the guard | proved |
| C09 | trim_i8 round trip | `Codec` | accumulator loop refined to a bit list | proved |
| C10 | trim_i8_decode is canonical and rejects the forbidden value | `Codec` | same, converse direction | proved |
| C11 | public key parsing | `Codec` | length and header checks; the n=1024 check is off by one | partial |
| C12 | secret key parsing | `Codec` | offset arithmetic over the three packed fields | partial |
| C13 | compact word packing round trip | `Packing` | digits in base 2^16; induction over words | proved |
| C14 | split and merge are inverse | `Packing` | index arithmetic | proved |
| C15 | NTRU equation solved | `Ring` | induction on k (n = 2^k) in Z[x]/(x^n+1) through evaluation at the adjoined root | proved |
| C16 | ntru_solve fails exactly on non-coprime norms | `Ring` | resultant as iterated field norm; gcd of the two decides | proved |
| C17 | Karatsuba negacyclic product | `Ring` | Karatsuba refined to polynomial product; induction on k | proved |
| C18 | field norm and lift | `Ring` | N(f) = f·f* in the quotient ring; lift is x ↦ x^2 | proved |
| C19 | extended gcd | `Ring` | loop invariant and fuel bound | proved |
| C20 | bitsize bounds | `Ring` | arithmetic on bit lengths | proved |
| C21 | Babai reduction preserves the lattice | `Ring` | invariant of the reduction loop for every oracle choosing the multipliers | proved |
| C22 | hash_to_point range and shape | `Hash` | stream refinement: the output is the first n accepted 16-bit words | proved |
| C23 | hash_to_point binds salt and message | `Hash` | the absorbed string is salt‖message; injectivity for fixed salt length | proved |
| C24 | off-chain and on-chain hash agree | `Hash` | both sides refined to the same stream | proved |
| C25 | verify accepts exactly short preimages | `Falcon` | decision logic; centred representative is the shortest | proved |
| C26 | verify ignores no signature bytes | `Falcon` | false: header byte and trailing bits ignored | partial |
| C27 | signing yields verifying signatures | `Falcon` | lattice identity s0 + s1·h = c | proved |
| C28 | signature format | `Falcon` | shape of the produced bytes | proved |
| C29 | sign retries until short | `Falcon` | induction over attempts | proved |
| C30 | contract verification is unforgeable-by-norm | `Contract` | exact accepted set (coefficient 511 and the norm of s1 not counted); a forgery for every invertible key | partial |
| C31 | honest signatures pass on chain | `Contract` | Python acceptance implies the contract's | proved |
| C32 | on-chain NTT is a ring isomorphism | `NTT` | butterfly induction over levels; tables satisfy the tree law (`decide +kernel` on 512 entries) | proved |
| C33 | on-chain multiplication is negacyclic | `NTT` | evaluation homomorphism | proved |
| C34 | twiddle tables agree | `NTT` | `decide +kernel` on the tables | proved |
| C35 | contract signature parsing | `SolSig` | bit-level parser; false half by witness | partial |
| C36 | contract public key unpacking | `Codec` | bit-list refinement | proved |
| C37 | contract accepts one encoding per signature | `Contract` | false: 16-bit fields not reduced | partial |
| C38 | contract input shape checks | `Contract` | case analysis over calldata shapes, ABI decoder | proved |
| C39 | Epervier recovery is consistent | `Epervier` | division in the NTT domain, coordinate-wise in ZMod q; wrap-around when a field exceeds q | partial |
| C40 | Epervier sign/recover completeness | `Epervier` | lattice identity and hint inversion | proved |
| C41 | key recovery verify rejects invalid signatures | `Epervier` | false for pk = 0 | partial |
| C42 | Keccak-f[1600] equivalence | `Keccak` | lane-wise comparison of the two round functions with the FIPS 202 formulas | proved |
| C43 | sponge absorb and squeeze compose | `Keccak` | sponge as absorb of a byte string / squeeze of a stream; state-machine invariant | proved |
| C44 | Keccak PRNG stream | `Hash` | stream invariant over any sequence of extracts | proved |
| C45 | KeccaXOF stream and domain separation | `Hash` | stream invariant; separation false | partial |
| C46 | integer Gaussian sampler range | `Sampler` | table monotonicity, support of the sampler | proved |
| C47 | key generation Gaussian range and parity | `Sampler` | parity and range by induction on the draws | proved |
| C48 | ChaCha20 byte stream | `Rng` | RFC 7539 block function; buffer invariant over calls | proved |
| C49 | AES-CTR-DRBG contract | `Rng` | invariant over histories, any block cipher | proved |
| C50 | CLI signing randomness | `Cli` | stream of the unflipped sponge; false parts by witnesses | partial |
| C51 | CLI key files round trip | `Cli` | text level round trip, character lists | proved |
| C52 | transaction hash encoding is injective | `Cli` | RLP-like encoding: parsing from the left | proved |
| C53 | CLI sign then verify agree on the XOF | `Cli` | composition of signing and verifying through the files | partial |
| C54 | immutability switch | `Storage` | state machine over histories | partial |
| C55 | SSTORE2 round trip | `Storage` | running the emitted creation code in a small EVM | proved |
| C56 | FFT inverse and homomorphism | `FFT` | exact arithmetic over a field with conjugation; induction over levels; table error bounds by rational arithmetic | proved |
| C57 | LDL decomposition | `FFT` | exact arithmetic | proved |
| C58 | fast Fourier sampling returns integers | `FFT` | exact arithmetic, any leaf sampler | proved |
| C59 | public key from secret key | `Falcon` | division in the quotient ring | proved |
| C60 | KAT signed-message format | `SolSig` | offset arithmetic | partial |
| C61 | BLAKE2s of field elements | `Blake` | compression function against RFC 7693; buffer invariant | proved |
| C62 | stateful NTT with deployed tables | `NTT` | false with the deployment script's layout; true otherwise | partial |
| C63 | polynomial range check | `Contract` | false: the comparison is on words, not fields | partial |
| C64 | recovery signatures have one on-chain form | `Epervier` | explicit malleations for every accepted call | partial |
| C65 | Python recovery and on-chain recovery agree | `Epervier` | both refined to the same specification | proved |
| C66 | vector operations and half product of the general NTT contract | `NTT` | evaluation homomorphism | proved |
| C67 | parameter table consistent with the parameter script | `Falcon` | rational arithmetic on the parameters | proved |
| C68 | probability tables of the samplers | `Sampler` | rational arithmetic on the tables | proved |
| C69 | acceptance probability and law of the integer sampler | `Sampler` | counting measure on the random bytes | proved |
| C70 | signature norm is the sampler's normalised error | `FFT` | Parseval in exact arithmetic | proved |
| C71 | key set-up never fails | `FFT` | positivity of the Gram leaves | proved |
| C72 | coefficient and FFT versions agree | `FFT` | exact arithmetic | proved |
| C73 | The recursive on-chain transforms multiply polynomials | `Tetration` | recursion induction over levels; Lagrange uniqueness; tables by `decide +kernel` | proved |
| C74 | Exact accepted set of the external verifier | `Tetration` | decision logic over C73 | proved |
| C75 | The external verifier binds message and salt | `Tetration` | false: only the concatenation is hashed | partial |
| C76 | C field arithmetic, tables and transforms | `CRef` | Montgomery arithmetic with 32-bit wraps; loop invariants for the iterative transforms; tables by `decide +kernel` | proved |
| C77 | C `verify_raw` decides the Falcon equation and bound | `CRef` | refinement to `Accepts`; saturation of the 32-bit norm | proved |
| C78 | C 16-bit codec | `CRef` | exact accepted set; false round trip at 2047 and malleability shown with witnesses | proved |
| C79 | C bit-packed codecs | `CRef` | accumulator invariants modulo 2^32; agreement with Python | proved |
| C80 | C Keccak, PRNG, hash to point | `CRef` | sponge invariant over all cuttings | proved |
| C81 | C `sign_open` accepted set | `CRef` | composition of C77–C80, C86 | proved |
| C82 | signer and verifier hash alike | `CRef` | false above 4096 bytes in the Keccak variant | partial |
| C83 | C signed messages not malleable | `CRef` | NIST format proved, 16-bit format false | partial |
| C84 | C Epervier open and sign | `CRef` | accepted set; three negations | partial |
| C85 | C invertibility, public key, private key completion, recovery, hint | `CRef` | transforms as evaluation | proved |
| C86 | C SHAKE256 | `CRef` | statement-by-statement equality with FIPS 202 rounds; sponge invariant | proved |
| C87 | C key pairs and sign-then-open | `CRef` | composition; lattice signer as parameter | proved |
| C89 | constant-time hash to point | `CRef` | placement invariant of the squeezing passes | proved |
| C88 | contract against C code | `CRef`, `Contract` | C81 with C31; converse false | partial |
| C90 | C key generation returns Falcon keys | `CRef` | NTT modulo one prime as evaluation; size bound of f*G-g*F-q below the prime; induction over the attempts; bignum solver, floating-point test and random source as arbitrary parameters | proved |
| C91 | table of small primes, arithmetic and transforms modulo them | `CRef` | Lucas certificates with `decide +kernel` over the 521 entries; Montgomery arithmetic and transforms for an arbitrary 31-bit modulus | proved |
| C92 | C key pairs from a seed | `CRef` | C90 with C79, C85, C86; reduction modulo q of the NTRU equation | proved |
| C93 | law of the C key generation Gaussian, equality with Python | `CRef`, `Sampler` | counting of the 2^128 word pairs; table against the Gaussian by interval bounds | proved |
| C94 | geth precompile and Go wrapper | `Geth` | C81, C87, C92 behind the wrapper's buffers, empty-slice panics and reads behind short keys; ABI decoding and memory behind the key are parameters | proved on the safe domain, false outside, negations proved |
| C95 | generator of the C signer (rng.c) | `CRef/Prng*` | the statement-by-statement macro against RFC 7539 on 16-word states, loop invariants for the interleaved stores, induction on histories; comparison with Python by a relation between the two read positions | proved; C = Python false at one position, negation proved |
| C96 | katrng.c: AES-256, CTR_DRBG, seed expander | `CRef/Aes*`, `CRef/KatRng*` | T-tables against FIPS 197 field arithmetic; simulation between C, Python and SP 800-90A states | proved |
| C97 | keys of the Go and JavaScript bindings | `CRef/Process*` | induction on the sequence of calls of a process whose generator is never seeded | false of the code, negation proved |
| C99 | soft floating point is correctly rounded | `CRef/Fpr*` | words as `BitVec 64`, values in `ℝ`; a mantissa with a sticky low bit stands for a real number, every operation keeps that relation, one lemma on the packing function gives round-to-nearest-even; loop invariants for division and square root | proved (with the exceptions named in the statement) |
| C100 | floating-point constants of the C signer | `CRef/FprConst` | rational bounds; seventy-two terms of the series of log 2 | proved |
| C98 | Gaussian sampler of the C signer | `CRef/SignSampler*`, `FprFl` | limbs of the base table; Horner evaluation with integer error bounds against Mathlib's `Real.exp`; rounding errors through C99; lazy byte comparison over the C95 stream; the unbounded loop has fuel | proved |
| C101 | big integers of the C key generation | `CRef/Zint*` | word lists; `big`/`sbig` read them as numbers; induction over the words with carries, modular congruences, uniqueness of the representative | proved |
| C102 | extended GCD of the C key generation | `CRef/ZintBez`, `ZintRed`, `ZintBezout` | signed 64-bit words as `BitVec 64`; invariant `x·u − y·v ≡ a (mod xy)` through every round; divisibility by 2^31 from the low words; the approximations of the top words affect only progress, not the invariant | proved (soundness of success) |
| C103 | accuracy of the C FFT | `CRef/Fft*` | the in-place loops are shown equal to a recursive transform on complex slots; every rounding bounded by 2^-53 relative (C99); every entry of the table within 4·2^-53 of the exact root (kernel-computed halving relations) | proved |
| C104 | accuracy of the C inverse FFT, round trip | `CRef/FftInv`, `FftProps`, `FftInt` | same recursion backwards | proved |
| C105 | exact products through the C FFT | `CRef/FftInt` | evaluation is multiplicative at roots of X^n+1; total error below 1/2 | proved |
| C106 | signatures of the C signer are valid | `CRef/SignDyn*` | the sampler is a parameter and every drawn integer is recorded; induction over the sampling tree: the result is the transform of the recorded integers whatever the targets and the Gram matrix hold; products, inverse transform and rounding exact by C103–C105; 32-bit norm by C77; validity by evaluation at the roots modulo q | proved |
| C107 | the test of the orthogonalized norm | `CRef/Orth*` | Parseval and interpolation at the roots by induction on the degree; relative error of each slot of `q f*/(ff*+gg*)`, of the inverse transform and of the sum of squares; the NTRU equation bounds `ff*+gg*` from below at every root, so that every returned key is covered |
| C108 | deviations passed to the sampler | `CRef/Tree*`, `FprAddX` | each node carries bounds for its real parts, imaginary parts, mean and mean inverse; split and LDL give arithmetic and harmonic means of pairs of slots, which lie between the harmonic and the arithmetic mean, so both bounds pass down to the leaves (induction on the level, with a factor `1 + 2ρ` per level for rounding); the root from Parseval (C107), the NTRU equation (determinant `q^2`) and the accuracy of the FFT (C103); subnormal words, which `fpr_half` can produce, are covered by `FprAddX` |
| C109 | centres passed to the sampler; draws are rejection sampling | `CRef/Centre*` | invariant of the tree (induction on the level): the centre vector of a node is bounded per slot, and the energy `g00·‖t - z‖²` of what a subtree returns is at most `5^level · 800 · (norm)`, because a leaf answers within 20 of its centre and the split preserves the energy; the multiplier satisfies `|l10|² g00 ≤ g11`, so the feedback `l10·(t1 - z1)` is bounded by the energy; the root from the accuracy of the FFT (C103) and the key's bounds; then C98 at every draw |
| C110 | the Python signer's floating-point preimages are exact | `Float` | rounding is a parameter `fl` with a relative error bound; error bounds per slot by induction over the levels of `fft`, `ffsampling_fft`, `ifft`; total error below 1/2 before `round` | proved |
| C111 | what `gs_norm` measures | `FFT` (GsNorm, GsProps) | evaluation of each step at the roots of `x^n+1` (C56), Parseval (C107), Cauchy-Schwarz at each root against `f G - g F = q`; interpolation for attainment | proved (exact arithmetic) |
| C112 | every deviation given to samplerz is in the range its documentation demands | `FFT` (Leaves, LeafProps) | induction over the tree: arithmetic mean and mean of inverses of each diagonal entry never grow under split; at the root they are the two norms of C111 (Parseval) | proved (exact arithmetic) |
| C113 | signing with an expanded key is `sign_dyn` up to two constants, with the same deviations and the same exactness | `CRef` (SignTree*) | the stored tree is shown equal to a list built by the recursion of `sign_dyn`; offsets by list lemmas; the unrolled cases by commutativity of the bit-level operations; the float error of the unrolled merge bounded separately | proved |
| C114 | `make_fg` computes the residues (or transforms) of the iterated field norms | `CRef` (Deepest*) | per prime: neighbours of the transform are the values at r and -r, their product is the norm at r^2; tables of all sizes agree; CRT uniqueness for the further primes; induction over the depth | proved |
| C115 | `solve_NTRU_deepest` solves Res(f) G - Res(g) F = 12289 | `CRef` (DeepestProps) | C114 at full depth, resultant of a norm, C101 (CRT, mul_small), C102 (Bezout) | proved |
| C116 | every draw of `sign_tree` is rejection sampling with an in-range centre and deviation | `CRef` (SignTreeSlot, SignTreeStep, SignTreeRun, SignTreeCentre) | the induction of C109 over the sampling tree redone for any split and merge that are accurate slot by slot; the unrolled routines shown accurate by float error bounds (`split4_close`, `merge4_close`); C113_refine | proved |
| C117 | the reduction in `solve_NTRU_intermediate` keeps `f G - g F` | `CRef` (Reduce, ReduceNtt, ReduceProps) | multipliers are a parameter; each subtraction evaluated at the root of `x^n+1` modulo `2^(31 m)`, where the change cancels; induction over the rounds with decreasing word length; final lengths of all depths computed; transforms and CRT for the low depths (C91, C101) | proved; the bound on multipliers is shown to be needed |
| C118 | `solve_NTRU_intermediate` turns a solution for the norms into a solution | `CRef` (Lift, LiftProps) | per prime: the values of `F'(x^2) g(-x)` at `r` and `-r` are crossed products; inverse transform, CRT uniqueness (C101, C114); `N(f)(x^2) = f(x) f(-x)`; then C117 | proved |
| C119 | deepest level and intermediate levels in sequence solve the NTRU equation | `CRef` (Levels, LevelsProps) | induction over the levels from C115 by C118 | proved |

## Simplifications, area by area

* **Hashes.**  `H` (Keccak-256 where the contracts use the opcode) is any function returning 32 bytes.  Python `bytes` are lists of naturals; where a function needs entries below 256 the hypothesis `IsBytes` says so.
* **polyntt.**  The Python package `polyntt` is not in the repository.  It is a parameter `P : PolyLib` with the laws `Arith`, `InvLaw`, `NttLaw` (products, differences, quotients in `Z_q[x]/(x^n+1)`, transforms
  as evaluation at roots); `Falcon.lib` is an instance, so the laws are satisfiable.
* **Floating point.**  Signing (`sample_preimage`), the samplers and the FFT use floats.  `Float` (C110) models `sample_preimage` with rounded operations; elsewhere the Python code is modelled in exact arithmetic (the construction of the tree, ffldl_fft and normalize_tree, only so): rationals in `Sampler`, any field with conjugation (instantiated at `ℂ`) in `FFT`, an
  arbitrary oracle for the rounding in `Ring` (`reduce`) and an exact rounding in `Falcon.sign`.  The tables are shown to be within 5e-15 of the exact roots.  Rounding errors of the Python code are modelled in `Float` only.
* **EVM memory.**  Arrays are lists and functions return new lists.  Where code reads memory at computed addresses (`ZKNOX_falcon_core`, signature parsing past the end) addresses are modelled by allocation order from
  a free-memory pointer `fmp`, a parameter.  Aliasing between arguments is not modelled.  Gas is not modelled.
* **EVM in `Storage`.**  The creation code runs in an EVM with the six opcodes it uses; addresses of created contracts are a parameter with the freshness law of the chain.
* **Text.**  Files of the command line are character lists; `ast.literal_eval` is modelled for integers and flat lists of integers only.
* **DRBG.**  AES is any function from 16 to 16 bytes; reseeding is absent in the code too.
* **C code.**  `uint16_t`, `uint32_t`, `uint64_t` values are naturals with explicit wraps where the C type wraps; `int8_t`/`int16_t` vectors are integer lists with range hypotheses.  Buffers are lists; where the
  code reads behind its input (Epervier) the memory behind is a parameter.  Pointer aliasing of inputs and outputs (in-place transforms) is modelled by the order of reads and writes of the loops.  `sign_dyn`
  (floating point) and `keygen` are parameters with their contracts as hypotheses.  Loops without bound (rejection sampling, Epervier's signing loop) take fuel; theorems quantify it existentially.
* **Negative lengths** (`extract(-1)`, negative slices) are not modelled.
* **Checked overflow** in Solidity is modelled where it can happen (subtractions, bounds); additions and products that provably stay below 2^256 are noted in the comments.

## Findings (proved)

1. **Forgery on the reference contracts** (`C30`): the norm check leaves out coefficient 511 and the norm of `s1`; for every invertible key, message and salt a signature is accepted although it is long.
2. **Malleability** on chain (`C37`, `C64`, `C74`): packed 16-bit fields are not checked to be reduced, trailing calldata is ignored, Epervier's hint and fields have several accepted forms, the external verifier accepts
   coefficients in `[-q, q]`.
3. **Python malleability** (`C04`, `C26`): header byte and trailing bits of the signature are ignored.
4. **`decompress` raises** on some inputs instead of returning `False` (`C05`).
5. **Public key of degree 1024** rejected by its own parser; `encode_secret_key`'s output is rejected by `decode_secret_key` (`C11`, `C12`).
6. **Contract parser reads past the end** of the signature, accepts negative zero (`C35`).
7. **Range check** `checkPolynomialRange` compares words with `q`, not fields (`C63`).
8. **`make_immutable` has no effect**: the guard is inverted (`C54`).  The deployment script's table layout breaks the stateful transform for every input (`C62`).
9. **Epervier**: fields of `s1` above 12289 wrap modulo 2^256 in the norm (`C39`); `pk = 0` accepts invalid signatures (`C41`).
10. **KeccaXOF** streams of `m` and `H(m)` are shifted copies (`C45`); the boundary between message and salt is not bound in the Tetration hash (`C75`).
11. **Command line**: salts and seeds come from an unflipped sponge; for `n = 512` the last byte of 32-byte data has no influence, short data leave the first salt bytes constant, everything is computable from public
    data and the public key (`C50`); `verify` in mode `falconrec` always raises, `sign_tx` and `recoveronchainsend` always raise (`C53`).
12. **ChaCha20**: past 2^64 blocks the high counter word is not masked (`C48_wrap_false`); requests above 512 bytes return 512.
13. **BLAKE2s**: the encode flag is not hashed, so modes collide (`C61_modes_false`); the counter's high word is never set.
14. **Samplers**: `LN2·ILN2 > 1` makes the reduced exponent negative for some inputs; `approxexp`'s documentation is off by a factor 2 (`C46`, `C69`).
15. **FFT and recursive NTT**: lengths in `[2^k, 1.5·2^k)` are accepted and silently truncated (`C56`, `C73`).
16. **KAT parser** accepts disagreeing lengths (`C60`).
17. **C Keccak**: the size parameter of `keccak_update` is 16 bits, so one call on 65536 bytes hashes nothing (`C80`).  The PRNG buffer holds 4096 bytes and the return code of `inject` is ignored: a signed message of
    more than 4096 bytes (with nonce) is accepted for every other long message (`C82`).
18. **C 16-bit format**: two accepted words for every negative coefficient (`C83`); coefficients above 2046 are signed but do not open (`C78`, `C87`).
19. **C Epervier**: hint and trailing bytes are ignored, short announced lengths make the function read beyond its input, and the KAT program transforms an already transformed key (`C84`).
20. **C against contract**: the contract accepts words that the C code refuses, for every invertible key (`C88`).
21. **Go and JavaScript bindings**: the generator of `katrng.c` is never seeded, so every process draws the same keys and nonces (`C97`).  The seed expander never delivers the last byte of its allowance (`C96`).
22. **geth precompile** (`C94`): input with an empty signature or key panics the node; a valid signature on more than 1024 bytes overruns a 1024-byte buffer; for a short public key the answer depends on the memory behind
    it (nodes can disagree); `SignMessage` overruns its buffer for every message of 712 bytes or more.
23. **C and Python draw different numbers** (`C95`): `prng_get_u64` refills when at most nine bytes are left, although the nine bytes suffice for the 72-bit draw; Python's `randombytes(9)` uses them. From the same seed the two signers diverge after the first such event (needs eight comparison bytes beyond the usual 11-byte iterations within one chunk, which is why the test vectors agree). `prng_get_bytes` ignores the read position and repeats bytes; the signer does not call it.
24. **C soft floating point** (`C99`): `fpr_floor(-0)` is -1, `fpr_lt(-0,+0)` holds, and `fpr_half` of the smallest normal is a word outside the format. The C constants for 1/sigma are one to three ulps away from the Python signer's (`C100`).
25. **C sampler with scaling factor 1** (`C98`): `fpr_expm_p63` truncates `ccs * 2^63`; for `ccs = 1.0` this is `2^63`, the shift by one drops it, and BerExp accepts with probability close to `2^-s` instead of `exp(-x)`. Not reached while every leaf of the tree has sigma > sigma_min, which `C108` proves for keys of norm at most 16818.
26. **Extended GCD with y = 1** (`C102`): `zint_bezout` reports success for `y = 1` with a wrong pair (x = 7: u = 0, v = 6, 7·0 − 1·6 = −6), because the second factor is only reduced to `[0, x)`. A resultant of 1 for g does not occur in practice, but the function's comment promises a solution for all odd coprime inputs.
27. **Order of the FFT slots** (`C103_order_false`): the comment of fft.c 145-168 says that slot rev(j)/2 holds the value at w_j = exp(iπ(2j+1)/n); in fact slot u holds the value at exp(iπ(4·rev(u)+1)/n), rev over log n − 1 bits. No function relies on the comment.

## Not modelled

hash/poseidon2 (a ctypes wrapper around a Rust library) and the Rust code itself; ZKNOX_PythonSigner.sol and ZKNOX_display.sol (test helpers calling Python / printing); the floating-point parts of the C code
(the intermediate and last levels of the NTRU solver of keygen.c (its big integers, descent, deepest level and the integer part of the reduction are modelled, C101, C102, C114, C115, C117-C119); the operations of fpr.c and the sampler of sign.c are modelled, C98, C99: parameters of the models of C82, C87, C90, C92); the generated falcon.js apart from the calls it makes; SSTORE2Map's `benchAccess` and gas
benchmarks; deploy scripts other than the table layout; scripts/saga.py (statistical tests of the sampler); test vectors.

## Mutation testing

`tools/seed.py` copies the project to a scratch directory, applies one edit of a definition at a time, rebuilds the property module and records in `seeded/LOG.jsonl` which theorems fail.  Survivors were used to tighten
theorems; the log names the tightened ones.
