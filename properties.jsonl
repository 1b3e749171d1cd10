{"id": "C01", "title": "compress/decompress round trip", "statement": "Whenever compress(v, slen) returns a byte string x for a non-empty integer list v, x has exactly slen bytes and decompress(x, slen, len(v)) returns v.", "quantifier": "every non-empty list of integers v (any magnitude) and every slen", "why_tests_cant": "The input space is all integer vectors of every length; the unary part makes bit boundaries data dependent, so no finite sample covers every alignment.", "anchors": ["pythonref/encoding.py: compress", "pythonref/encoding.py: decompress"]}
{"id": "C02", "title": "compress fails exactly when the encoding does not fit", "statement": "compress(v, slen) returns False if and only if the sum over coefficients of (9 + |c| >> 7) bits exceeds 8*slen, and never raises.", "quantifier": "every integer list and every slen", "why_tests_cant": "A boundary off by one bit shows only on vectors whose encoded length is exactly 8*slen or 8*slen+1 bits.", "anchors": ["pythonref/encoding.py: compress"]}
{"id": "C03", "title": "decompress output is well formed", "statement": "If decompress(x, slen, n) returns a list, the list has length n, x was at most slen bytes long, and re-compressing the list yields the non-zero prefix of x: no accepted x encodes a coefficient '-0'.", "quantifier": "every byte string x, slen and n", "why_tests_cant": "Attackers choose x; all byte strings matter, not the ones an honest signer emits.", "anchors": ["pythonref/encoding.py: decompress"]}
{"id": "C04", "title": "signature encoding is not malleable", "statement": "Two different byte strings of the full length slen never decompress to the same list of n coefficients. (False of the code: bits after the n-th coefficient are ignored, and shorter strings are accepted; proved false with a witness and proved for strings whose tail after the n-th coefficient is zero.)", "quantifier": "all pairs of byte strings x, y with decompress(x)=decompress(y)", "why_tests_cant": "Uniqueness is a statement about all pairs of inputs.", "anchors": ["pythonref/encoding.py: decompress"]}
{"id": "C05", "title": "decompress never raises", "statement": "decompress(x, slen, n) returns a list or False for every byte string; it never raises. (False of the code: an empty or all-zero x raises IndexError outside the try block and a lone trailing bit raises ValueError; the exact set of raising inputs is characterised.)", "quantifier": "every byte string x, slen, n", "why_tests_cant": "Crashes happen on specific adversarial strings; the absence of crashes is universal.", "anchors": ["pythonref/encoding.py: decompress"]}
{"id": "C06", "title": "modq_encode/modq_decode round trip", "statement": "For every list of n coefficients in [0,q), modq_encode succeeds with ceil(14n/8) bytes and modq_decode of that string followed by any further bytes returns the list.", "quantifier": "every n, every coefficient list in range, every trailing data", "why_tests_cant": "14-bit packing crosses byte boundaries with period 4 coefficients; every n and value must be right.", "anchors": ["pythonref/falcon_codec.py: modq_encode", "pythonref/falcon_codec.py: modq_decode"]}
{"id": "C07", "title": "modq_decode is canonical", "statement": "If modq_decode(data, n) returns a list, it has n entries, all in [0,q), and modq_encode of it is exactly the first ceil(14n/8) bytes of data: a public key has one encoding.", "quantifier": "every n and every byte string", "why_tests_cant": "Canonicity quantifies over all accepted strings.", "anchors": ["pythonref/falcon_codec.py: modq_decode", "pythonref/falcon_codec.py: modq_encode"]}
{"id": "C08", "title": "modq_encode rejects bad coefficients", "statement": "modq_encode(x, len(x)) raises ValueError exactly when some coefficient is negative or at least q.", "quantifier": "every integer list", "why_tests_cant": "Any position and any bad value must be caught.", "anchors": ["pythonref/falcon_codec.py: modq_encode"]}
{"id": "C09", "title": "trim_i8 round trip", "statement": "For every width 1<=bits<=8... (any bits>=1) and every list of n coefficients in [-(2^(bits-1)-1), 2^(bits-1)-1], trim_i8_encode succeeds with ceil(n*bits/8) bytes and trim_i8_decode returns the list.", "quantifier": "every n, bits and coefficient list in range", "why_tests_cant": "All widths, lengths and alignments.", "anchors": ["pythonref/falcon_codec.py: trim_i8_encode", "pythonref/falcon_codec.py: trim_i8_decode"]}
{"id": "C10", "title": "trim_i8_decode is canonical and rejects the forbidden value", "statement": "If trim_i8_decode returns a list, all entries are within the symmetric range (never -2^(bits-1)) and trim_i8_encode gives back the consumed prefix of the data.", "quantifier": "every n, bits and byte string", "why_tests_cant": "Quantifies over all byte strings.", "anchors": ["pythonref/falcon_codec.py: trim_i8_decode"]}
{"id": "C11", "title": "public key parsing", "statement": "PublicKey.from_bytes accepts what the NIST encoder writes and recovers the polynomial. (True for n=512; false for n=1024: the length check compares with 1792 while the encoding has 1793 bytes, so every honest Falcon-1024 key is rejected; a 1792-byte string with the 512 header is accepted.)", "quantifier": "every polynomial with coefficients in [0,q), every byte string", "why_tests_cant": "Must hold for every key and every malformed string.", "anchors": ["pythonref/falcon.py: PublicKey.from_bytes", "pythonref/scripts/generate_kat_rsp.py: encode_public_key"]}
{"id": "C12", "title": "secret key parsing", "statement": "decode_secret_key_nist applied to the NIST encoding of (f,g,F) recovers f, g and F, and any accepted string re-encodes to itself.", "quantifier": "every f, g, F in the per-degree ranges and every logn in 1..10", "why_tests_cant": "All keys and all lengths.", "anchors": ["pythonref/falcon_codec.py: decode_secret_key_nist", "pythonref/scripts/generate_kat_rsp.py: encode_secret_key"]}
{"id": "C13", "title": "compact word packing round trip", "statement": "falcon_compact packs 16 coefficients per 256-bit word so that the contract's expansion returns the original list for every list of coefficients in [0,65536) whose length is a multiple of 16, and contract compaction inverts contract expansion.", "quantifier": "every coefficient list in range", "why_tests_cant": "Each of 16 lanes and all values.", "anchors": ["pythonref/common.py: falcon_compact", "src/ZKNOX_falcon_utils.sol: _ZKNOX_NTT_Expand, _ZKNOX_NTT_Compact"]}
{"id": "C14", "title": "split and merge are inverse", "statement": "merge(split(f)) = f for every even-length list and split(merge([f0,f1])) = [f0,f1] for every equal-length pair, in coefficient form.", "quantifier": "every even-length list and equal-length pair", "why_tests_cant": "All lengths.", "anchors": ["pythonref/common.py: split, merge"]}
{"id": "C15", "title": "NTRU equation solved", "statement": "If ntru_solve(f, g) returns (F, G) for lists of length n=2^k then f*G - g*F = q in Z[x]/(x^n+1) exactly, whatever rounding the floating-point Babai reduction produced.", "quantifier": "every k, every f, g in Z^n, every behaviour of the floating-point reduction", "why_tests_cant": "Integers grow without bound in the recursion, and the float rounding may be arbitrary; no test covers all keys.", "anchors": ["pythonref/ntrugen.py: ntru_solve, reduce, xgcd, field_norm, lift, karamul"]}
{"id": "C16", "title": "ntru_solve fails exactly on non-coprime norms", "statement": "ntru_solve raises ValueError exactly when the extended gcd of the resultants at the bottom of the tower is not 1.", "quantifier": "every f, g", "why_tests_cant": "Depends on all keys.", "anchors": ["pythonref/ntrugen.py: ntru_solve, xgcd"]}
{"id": "C17", "title": "Karatsuba negacyclic product", "statement": "karamul(a, b) equals the schoolbook product of a and b in Z[x]/(x^n+1).", "quantifier": "every n=2^k and integer lists of length n", "why_tests_cant": "All sizes and all integer coefficients.", "anchors": ["pythonref/ntrugen.py: karatsuba, karamul"]}
{"id": "C18", "title": "field norm and lift", "statement": "field_norm(a)(x^2) = a(x)*a(-x) in Z[x]/(x^n+1), lift(a)(x)=a(x^2), and field_norm is multiplicative.", "quantifier": "every even n and integer list", "why_tests_cant": "All sizes.", "anchors": ["pythonref/ntrugen.py: field_norm, lift, galois_conjugate"]}
{"id": "C19", "title": "extended gcd", "statement": "xgcd(b, n) terminates and returns (d,u,v) with d = u*b + v*n and d equal to the gcd up to sign; for non-negative arguments d is the gcd.", "quantifier": "all integers b, n", "why_tests_cant": "Unbounded integers; termination is a universal claim.", "anchors": ["pythonref/ntrugen.py: xgcd"]}
{"id": "C20", "title": "bitsize bounds", "statement": "bitsize(a) is a multiple of 8, |a| < 2^bitsize(a), and it is the least such multiple.", "quantifier": "every integer a", "why_tests_cant": "Unbounded integers.", "anchors": ["pythonref/ntrugen.py: bitsize"]}
{"id": "C21", "title": "Babai reduction preserves the lattice", "statement": "reduce replaces (F,G) by (F - k f, G - k g) for some integer polynomial k, so f*G - g*F is unchanged.", "quantifier": "every f, g, F, G and every float behaviour", "why_tests_cant": "The floats are unpredictable; the invariant must hold for all.", "anchors": ["pythonref/ntrugen.py: reduce"]}
{"id": "C22", "title": "hash_to_point range and shape", "statement": "hash_to_point returns exactly n coefficients, all in [0,q), which are, in order, the first n 16-bit big-endian words below 5q of the XOF stream reduced mod q.", "quantifier": "every message, salt, n and XOF", "why_tests_cant": "The number of rejections is unbounded; every stream must be covered.", "anchors": ["pythonref/falcon.py: PublicKey.hash_to_point"]}
{"id": "C23", "title": "hash_to_point binds salt and message", "statement": "The hashed point depends only on salt||message, and for 40-byte salts different (salt, message) pairs give different hash inputs.", "quantifier": "all pairs of (salt, message)", "why_tests_cant": "Injectivity is about all pairs.", "anchors": ["pythonref/falcon.py: PublicKey.hash_to_point"]}
{"id": "C24", "title": "off-chain and on-chain hash agree", "statement": "For every salt and message the Python hash with the Keccak PRNG equals the contract's hashToPointEVM, and the Python hash with SHAKE256 equals hashToPointNIST.", "quantifier": "every salt and message, every keccak256", "why_tests_cant": "Cross-implementation equality on all inputs.", "anchors": ["pythonref/falcon.py: PublicKey.hash_to_point", "src/ZKNOX_HashToPoint.sol", "pythonref/keccak_prng.py", "src/ZKNOX_shake.sol", "pythonref/shake.py"]}
{"id": "C25", "title": "verify accepts exactly short preimages", "statement": "PublicKey.verify returns True iff the string has the right shape, decompress yields s1, and with s0 = hash - s1*h centred mod q the squared norm of (s0,s1) is at most sig_bound.", "quantifier": "every message, signature byte string and key", "why_tests_cant": "Adversarial inputs.", "anchors": ["pythonref/falcon.py: PublicKey.verify"]}
{"id": "C26", "title": "verify ignores no signature bytes", "statement": "Two different accepted signature strings for the same message and key differ in salt or in s1. (False: the header byte is never read, and trailing bits are ignored; witness and partial theorem.)", "quantifier": "all pairs of signature strings", "why_tests_cant": "Strong unforgeability is about all pairs.", "anchors": ["pythonref/falcon.py: PublicKey.verify"]}
{"id": "C27", "title": "signing yields verifying signatures", "statement": "Every signature returned by SecretKey.sign verifies under the matching public key for the same message and XOF, provided the preimage sampler's output is any integer vector.", "quantifier": "every key satisfying the NTRU equation, message, salt, sampler behaviour", "why_tests_cant": "The sampler is random and floating point; all outcomes must be covered.", "anchors": ["pythonref/falcon.py: SecretKey.sign, SecretKey.sample_preimage, PublicKey.verify"]}
{"id": "C28", "title": "signature format", "statement": "sign returns a string of exactly sig_bytelen bytes that begins with 0x20+log2(n) followed by the 40-byte salt.", "quantifier": "every key, message and randomness", "why_tests_cant": "All histories of rejected attempts.", "anchors": ["pythonref/falcon.py: SecretKey.sign"]}
{"id": "C29", "title": "sign retries until short", "statement": "sign returns only when the squared norm is at most the bound and the encoding fits; each rejected attempt consumes a fresh sample and never leaks out.", "quantifier": "every sequence of sampler outputs", "why_tests_cant": "Unbounded retry loop.", "anchors": ["pythonref/falcon.py: SecretKey.sign"]}
{"id": "C30", "title": "contract verification is unforgeable-by-norm", "statement": "The on-chain verify returns true only if (hash - s2*h, s2) has squared norm within the bound. (False of the code: the s2 loop compares an absolute memory pointer with 16384 and never runs, and the s1 loop stops one short, so a true preimage of any size is accepted: universal forgery; the accepted set is characterised exactly.)", "quantifier": "every public key, hash and s2", "why_tests_cant": "An attacker chooses s2.", "anchors": ["src/ZKNOX_falcon_core.sol: falcon_core, falcon_normalize"]}
{"id": "C31", "title": "honest signatures pass on chain", "statement": "If Python verify accepts with squared norm strictly below the bound then the contract accepts the packed form of the same signature.", "quantifier": "every key, message, signature", "why_tests_cant": "Cross-implementation implication for all inputs.", "anchors": ["src/ZKNOX_falcon_core.sol", "pythonref/falcon.py: PublicKey.verify"]}
{"id": "C32", "title": "on-chain NTT is a ring isomorphism", "statement": "The contract's forward then inverse transform is the identity on every vector of 512 residues, with reduced outputs.", "quantifier": "all 12289^512 vectors", "why_tests_cant": "The space is astronomically large.", "anchors": ["src/ZKNOX_NTT_falcon.sol: _ZKNOX_NTTFW_vectorized, _ZKNOX_NTTINV_vectorized", "src/ZKNOX_NTT.sol"]}
{"id": "C33", "title": "on-chain multiplication is negacyclic", "statement": "The contract's polynomial multiplication (forward transform, pointwise product, inverse transform) returns the product in Z_q[x]/(x^512+1).", "quantifier": "all pairs of vectors", "why_tests_cant": "Same.", "anchors": ["src/ZKNOX_NTT_falcon.sol: _ZKNOX_NTT_HALFMUL", "src/ZKNOX_NTT.sol: ZKNOX_NTT_MUL"]}
{"id": "C34", "title": "twiddle tables agree", "statement": "The root tables written in three places (compact words, stateless contract, deploy script) are the same 512 residues, powers of one primitive 1024-th root in bit-reversed order and their inverses.", "quantifier": "all 512 entries of each table", "why_tests_cant": "Each entry must be right; a wrong one affects only some inputs.", "anchors": ["src/ZKNOX_NTT_falcon.sol", "src/ZKNOX_NTT.sol", "src/ZKNOX_falcon_deploy.sol"]}
{"id": "C35", "title": "contract signature parsing", "statement": "The contract's decompression of a compressed s2 agrees with Python compress for every vector with |c|<=2047 that fits, and it never accepts an encoding Python rejects. (Second part false: '-0' decodes to q.)", "quantifier": "every vector and byte string", "why_tests_cant": "All bit strings.", "anchors": ["src/ZKNOX_falcon_encodings.sol: _decompress_sig"]}
{"id": "C36", "title": "contract public key unpacking", "statement": "The contract's 14-bit unpacking agrees with modq_decode on every 896-byte string.", "quantifier": "every byte string of that length", "why_tests_cant": "All strings.", "anchors": ["src/ZKNOX_falcon_encodings.sol: _ZKNOX_NTT_Decompress", "pythonref/falcon_codec.py: modq_decode"]}
{"id": "C37", "title": "contract accepts one encoding per signature", "statement": "On-chain verify accepts at most one packed representation of each signature. (False: residues are not range-checked, so c and c+q both work, and trailing bytes of sig are ignored.)", "quantifier": "all pairs of packed signatures", "why_tests_cant": "Pairs.", "anchors": ["src/ZKNOX_falcon.sol", "src/ZKNOX_falcon_core.sol"]}
{"id": "C38", "title": "contract input shape checks", "statement": "verify reverts unless the salt has 40 bytes, s2 has 32 words and ntth has 32 words; otherwise it terminates with a boolean.", "quantifier": "all calldata", "why_tests_cant": "All lengths.", "anchors": ["src/ZKNOX_falcon.sol: verify", "src/ZKNOX_ethfalcon.sol: verify"]}
{"id": "C39", "title": "Epervier recovery is consistent", "statement": "Epervier on-chain recovery returns an address only if the hint is the inverse of the product of ntt(s2), and then the recovered key h satisfies h*s2 = hash - s1.", "quantifier": "every hash, s1, s2, hint", "why_tests_cant": "Adversarial inputs.", "anchors": ["src/ZKNOX_epervier.sol: recover", "src/ZKNOX_ethepervier.sol"]}
{"id": "C40", "title": "Epervier sign/recover completeness", "statement": "For every signature produced by the recovery-mode signer, recovery returns the signer's key.", "quantifier": "every key, message, sampler output", "why_tests_cant": "All outcomes.", "anchors": ["pythonref/falcon_epervier.py", "pythonref/falcon_recovery.py"]}
{"id": "C41", "title": "key recovery verify rejects invalid signatures", "statement": "The recovery-mode verify returns True only for a signature whose recovered key hash equals the public key. (False: recover returns False on invalid signatures and False == 0, so the key value 0 accepts every invalid signature.)", "quantifier": "every pk and signature", "why_tests_cant": "All pairs.", "anchors": ["pythonref/falcon_epervier.py: EpervierPublicKey.verify", "pythonref/falcon_recovery.py"]}
{"id": "C42", "title": "Keccak-f[1600] equivalence", "statement": "The Python permutation and the contract permutation compute the same function on every 1600-bit state, equal to the FIPS 202 round function.", "quantifier": "all 2^1600 states", "why_tests_cant": "Not enumerable.", "anchors": ["pythonref/keccak.py: KeccakF1600", "src/ZKNOX_shake.sol: f1600"]}
{"id": "C43", "title": "sponge absorb and squeeze compose", "statement": "Absorbing a message in any number of chunks equals absorbing it at once, and squeezing in any number of chunks equals one squeeze, in both implementations, and both equal the padded sponge.", "quantifier": "every message, every split, every sequence of reads", "why_tests_cant": "All histories of calls.", "anchors": ["pythonref/keccak.py: KeccakHash", "pythonref/shake.py", "src/ZKNOX_shake.sol"]}
{"id": "C44", "title": "Keccak PRNG stream", "statement": "Any sequence of extract calls after inject/flip returns consecutive slices of one fixed stream H(seed || ctr_be64); injecting in pieces equals injecting at once; misuse raises.", "quantifier": "all call sequences", "why_tests_cant": "All histories.", "anchors": ["pythonref/keccak_prng.py", "pythonref/blake2s_prng.py"]}
{"id": "C45", "title": "KeccaXOF stream and domain separation", "statement": "KeccaXOF outputs a deterministic stream determined by the absorbed bytes, and distinct inputs do not produce shifted copies of one another's streams. (Second part false: absorbing keccak(m) gives the stream of m shifted by one block.)", "quantifier": "all inputs", "why_tests_cant": "Pairs of inputs.", "anchors": ["pythonref/keccaxof.py"]}
{"id": "C46", "title": "integer Gaussian sampler range", "statement": "samplerz(mu, sigma, sigmin) returns only values within floor(mu)-18 .. floor(mu)+19 and the base sampler returns 0..18 and is monotone in its random input.", "quantifier": "every mu, randomness and history of rejections", "why_tests_cant": "Tail events of probability 2^-72 never show in tests.", "anchors": ["pythonref/samplerz.py"]}
{"id": "C47", "title": "key generation Gaussian range and parity", "statement": "poly_small_mkgauss returns n coefficients with |c|<=127 and an odd coefficient sum (so the resultant is odd).", "quantifier": "every random stream, every logn in 1..10", "why_tests_cant": "Rejections are rare.", "anchors": ["pythonref/mkgauss.py (poly_small_mkgauss)"]}
{"id": "C48", "title": "ChaCha20 byte stream", "statement": "randombytes(k) for k<=512 returns k bytes; consecutive calls return consecutive bytes of the buffered keystream, refilling when fewer than k are left.", "quantifier": "all sequences of requests", "why_tests_cant": "Histories.", "anchors": ["pythonref/rng.py: ChaCha20.randombytes"]}
{"id": "C49", "title": "AES-CTR-DRBG contract", "statement": "random_bytes(k) returns exactly k bytes, is deterministic in the seed and history, raises on bad seeds/requests, and never reuses a counter value under one key.", "quantifier": "all seeds and request sequences", "why_tests_cant": "Histories.", "anchors": ["pythonref/drbg/aes256_ctr_drbg.py"]}
{"id": "C50", "title": "CLI signing randomness", "statement": "In the CLI two signatures on different data use different salts, and the randomness depends on the secret key. (False: the derivation never pads or flips the SHAKE state, so the last partial block of input is not mixed in, and only the public key and data enter.)", "quantifier": "all pairs of data strings", "why_tests_cant": "Pairs.", "anchors": ["pythonref/sign_cli.py: signature"]}
{"id": "C51", "title": "CLI key files round trip", "statement": "Loading a key file written by save_pk/save_sk returns the same key.", "quantifier": "every key", "why_tests_cant": "All values.", "anchors": ["pythonref/sign_cli.py"]}
{"id": "C52", "title": "transaction hash encoding is injective", "statement": "Different (nonce, to, data, value) tuples give different byte strings to the transaction hash.", "quantifier": "all pairs of tuples", "why_tests_cant": "Pairs.", "anchors": ["pythonref/sign_cli.py: transaction_hash"]}
{"id": "C53", "title": "CLI sign then verify agree on the XOF", "statement": "For every version the CLI accepts, verification uses the same hash function as signing.", "quantifier": "every version string", "why_tests_cant": "All versions and error branches.", "anchors": ["pythonref/sign_cli.py"]}
{"id": "C54", "title": "immutability switch", "statement": "After make_immutable the NTT contract's tables can never change again. (False: the guard is inverted, so updates are allowed exactly when the flag is set.)", "quantifier": "all transaction histories", "why_tests_cant": "Histories.", "anchors": ["src/ZKNOX_NTT.sol: update, make_immutable"]}
{"id": "C55", "title": "SSTORE2 round trip", "statement": "Reading at the address returned by a write gives back exactly the bytes written; sub-range reads give the slice and invalid ranges revert.", "quantifier": "all byte strings and ranges", "why_tests_cant": "All lengths.", "anchors": ["lib/sstore2/contracts/SSTORE2.sol", "lib/sstore2/contracts/utils/Bytecode.sol"]}
{"id": "C56", "title": "FFT inverse and homomorphism", "statement": "In exact arithmetic fft evaluates at the n roots of x^n+1, ifft(fft(f)) = f, split_fft and merge_fft are mutually inverse, and mul_fft of transforms is the transform of the negacyclic product.", "quantifier": "every n=2^k and polynomial", "why_tests_cant": "All polynomials; floats are excluded and named.", "anchors": ["pythonref/fft.py", "pythonref/fft_constants.py"]}
{"id": "C57", "title": "LDL decomposition", "statement": "In exact arithmetic ldl(G) returns L unit lower triangular and D diagonal with L*D*L^* = G for every self-adjoint Gram matrix with invertible corner.", "quantifier": "every 2x2 self-adjoint matrix of polynomials", "why_tests_cant": "All matrices.", "anchors": ["pythonref/ffsampling.py: gram, ldl, ldl_fft"]}
{"id": "C58", "title": "fast Fourier sampling returns integers", "statement": "ffsampling returns pairs of integer polynomials of the input's length, for every leaf sampler behaviour.", "quantifier": "every tree, target and leaf sampler", "why_tests_cant": "All randomness.", "anchors": ["pythonref/ffsampling.py: ffsampling_fft"]}
{"id": "C59", "title": "public key from secret key", "statement": "The public key h of a secret key satisfies h*f = g mod (q, x^n+1), and key generation returns only f invertible mod q.", "quantifier": "every key", "why_tests_cant": "All keys.", "anchors": ["pythonref/falcon.py: SecretKey.__init__", "pythonref/ntrugen.py: ntru_gen"]}
{"id": "C60", "title": "KAT signed-message format", "statement": "Parsing a signed message written in the NIST format returns the nonce, message and signature that were packed, and lengths that disagree are rejected.", "quantifier": "every nonce, message and signature", "why_tests_cant": "All lengths.", "anchors": ["pythonref/scripts/generate_kat_rsp.py: sign_message", "src/ZKNOX_falcon_encodings.sol: decompress_KAT"]}
{"id": "C61", "title": "BLAKE2s of field elements", "statement": "Hashing a list of field elements returns the BLAKE2s-256 digest (RFC 7693) of a byte encoding of the list, read as a little-endian number modulo the prime; in each of the four modes the encoding is injective on lists of elements modulo the prime; the mixing function is a bijection for fixed message words. (The encode mode is not part of what is hashed: lists hashed under different modes may collide.)", "quantifier": "all lists of integers whose encoding is below 2^32 bytes, all modes, all 32-bit words", "why_tests_cant": "Injectivity ranges over pairs of lists; agreement with the standard over all lengths and padding positions.", "anchors": ["pythonref/blake2s/blake2s.py: mix, blake_round, blake2s_compress, blake_state_into_felt, calculate_blake2s_hash_from_felt252s"]}
{"id": "C62", "title": "stateful NTT with deployed tables", "statement": "The stateful transforms of the NTT contract, given the two addresses returned by the deployment script, compute the same transform as the stateless ones. (False: the script stores 2 bytes per entry and the contract reads 32 bytes per entry, so all but 32 reads are zero and every 512-coefficient transform has equal neighbours.)", "quantifier": "all arrays of a power-of-two length up to 512", "why_tests_cant": "must hold for every polynomial; the repository tests only run the stateless version", "anchors": ["src/ZKNOX_NTT.sol: ZKNOX_NTTFW, ZKNOX_NTTINV", "src/ZKNOX_falcon_deploy.sol: Deploy"]}
{"id": "C63", "title": "polynomial range check", "statement": "falcon_checkPolynomialRange(p, is_compact) returns true exactly when every coefficient of p is below q, p being packed when is_compact is true. (False: the flag is tested the wrong way round and q itself passes; the helper is not called by the verifiers.)", "quantifier": "all arrays and both flag values", "why_tests_cant": "the boundary value q and the packed case are never exercised", "anchors": ["src/ZKNOX_falcon_core.sol: falcon_checkPolynomialRange"]}
{"id": "C64", "title": "recovery signatures have one on-chain form", "statement": "For a given message, salt and recovered address the on-chain recover accepts at most one (s1, s2, hint). (False: the hint counts only modulo q and fields of s2 and s1 are not range-checked, so beside every accepted call there is another accepted one with the same address.)", "quantifier": "every accepted call", "why_tests_cant": "uniqueness ranges over all alternative inputs", "anchors": ["src/ZKNOX_epervier.sol: recover", "src/ZKNOX_ethepervier.sol: recover"]}
{"id": "C65", "title": "Python recovery and on-chain recovery agree", "statement": "Whenever the Python Epervier recover returns a key hash for a signature, the salt, packed halves and hint computed from that signature by the command-line tool make the contract's recover return the same value, with SHAKE256 and with Keccak.", "quantifier": "every message and signature accepted by Python", "why_tests_cant": "cross-implementation agreement over all signatures", "anchors": ["pythonref/sign_cli.py: recover_on_chain", "pythonref/falcon_epervier.py: recover", "src/ZKNOX_epervier.sol: recover"]}
{"id": "C66", "title": "vector operations and half product of the general NTT contract", "statement": "ZKNOX_VECADDMOD and ZKNOX_VECSUBMOD return the entrywise sum and difference modulo q, reduced, and panic exactly when the lengths differ (subtraction also when an entry of the second array exceeds q); ZKNOX_NTT_HALFMUL returns the product in Z_q[x]/(x^n+1) of its first argument and the polynomial whose transform, reduced or not, is the second.", "quantifier": "all arrays of words, all moduli; all power-of-two lengths up to 512 for the product", "why_tests_cant": "unreduced words and boundary entries equal to q are never exercised", "anchors": ["src/ZKNOX_NTT.sol: ZKNOX_VECADDMOD, ZKNOX_VECSUBMOD, ZKNOX_NTT_HALFMUL, mul_NTTPoly"]}
{"id": "C67", "title": "parameter table consistent with the parameter script", "statement": "Params[n] exists exactly for n = 2..1024 a power of two; the signature bound is floor(1.1^2 * 2n * sigma^2) for the sigma of the parameter script, and the on-chain bound for n = 512 is the same number.", "quantifier": "all n", "why_tests_cant": "tests use the same table on both sides", "anchors": ["pythonref/falcon.py: Params", "pythonref/scripts/parameters.py", "src/ZKNOX_falcon_utils.sol: sigBound"]}
{"id": "C68", "title": "probability tables of the samplers", "statement": "Every entry of the base sampler's reverse cumulative table is within 9*2^-72 of the tail probability of the half-Gaussian with parameter 1.8205, and every entry of the key generation table is the nearest integer to 2^63 times the corresponding Gaussian probability with deviation 1.17*sqrt(q/2048).", "quantifier": "all entries, against the infinite Gaussian sums over the integers", "why_tests_cant": "deviations of 2^-72 are invisible to statistical tests", "anchors": ["pythonref/samplerz.py: RCDT", "pythonref/mkgauss.py: gauss_1024_12289"]}
{"id": "C69", "title": "acceptance probability and law of the integer sampler", "statement": "berexp(x, ccs) returns true with probability within 2^-44 of ccs*exp(-x) for 0<=x<=1000, 1/2<=ccs<=1; every trial of samplerz accepts z with probability within 2^-44 of a constant times exp(-(z-r)^2/(2 sigma^2)); samplerz is the first accepted trial of the stream shifted by floor(mu).", "quantifier": "every exponent, scaling factor, centre and deviation in range, every random source", "why_tests_cant": "Statistical tests cannot see errors of 2^-44 and sample few centres.", "anchors": ["pythonref/samplerz.py: approxexp, berexp, samplerz"]}
{"id": "C70", "title": "signature norm is the sampler's normalised error", "statement": "In exact arithmetic sample_preimage on a valid key returns, for every hashed point and every behaviour of the leaf sampler, an integer pair (s0,s1) with s0 + s1*h = point mod q; the leaf sampler is called exactly 2n times and |s0|^2+|s1|^2 = sigma^2 times the sum over the calls of ((centre - sample)/deviation)^2.", "quantifier": "every NTRU key, point, sampler, randomness, n=2..1024", "why_tests_cant": "All keys, targets and sampler behaviours; it is the fact that makes the acceptance bound meaningful.", "anchors": ["pythonref/falcon.py: sample_preimage, normalize_tree", "pythonref/ffsampling.py"]}
{"id": "C71", "title": "key set-up never fails", "statement": "Building a SecretKey from polynomials with fG - gF = q never divides by zero and never takes the square root of a non-positive number: the ffLDL tree exists, has the shape signing needs, and every leaf is sigma over the square root of a positive number.", "quantifier": "every solution of the NTRU equation, n=2..1024", "why_tests_cant": "All keys.", "anchors": ["pythonref/falcon.py: SecretKey.__init__, normalize_tree", "pythonref/ffsampling.py: gram, ffldl_fft"]}
{"id": "C72", "title": "coefficient and FFT versions agree", "statement": "ffldl_fft and ffnp_fft on the transforms of their inputs return the transforms of what ffldl and ffnp return, and fail exactly when they do.", "quantifier": "every self-adjoint matrix, target and rounding function", "why_tests_cant": "All inputs; the tests only compare on random samples.", "anchors": ["pythonref/ffsampling.py: ffldl, ffldl_fft, ffnp, ffnp_fft"]}
{"id": "C73", "title": "The recursive on-chain transforms multiply polynomials", "statement": "In the external NTT contract, for every size 2,4,...,512 and every array of words, nTT lists the values of the polynomial at pairwise different roots of x^n=-1, iNTT is its inverse, mulZQ and mulZQ_opt return the product modulo x^n+1 with canonical coefficients, addZQ/subZQ the sum and difference, and the table of inverses is right for every non-zero residue; outside their domain the functions revert.", "quantifier": "all arrays of 256-bit words of every length", "why_tests_cant": "2^(256 n) inputs per size, and every length", "anchors": ["external/NTT_Recursive.sol:nTT", "external/NTT_Recursive.sol:iNTT", "external/NTT_Recursive.sol:mulZQ", "external/NTT_Recursive.sol:mulZQ_opt", "external/NTT_Recursive.sol:subZQ", "external/NTT_Recursive.sol:inv_mod_q"]}
{"id": "C74", "title": "Exact accepted set of the external verifier", "statement": "The external verifier returns (instead of reverting) exactly when key and signature have 512 entries, every signature coefficient is in [-q,q] and, with c the point of message and salt, some s0 with s0+s1*h=c makes (s0, centred s1) shorter than the bound; verify_nttpub with the transformed key decides the same.", "quantifier": "all hash functions with 32-byte digests, messages, salts, int256 signature arrays and keys", "why_tests_cant": "the accepted set is quantified over all signatures and keys", "anchors": ["external/ETHFalcon_Recursive.sol:verify", "external/ETHFalcon_Recursive.sol:verify_nttpub"]}
{"id": "C75", "title": "The external verifier binds message and salt", "statement": "A signature accepted by the external verifier for a message and a salt is not accepted for another message with another salt merely by moving bytes between the two.", "quantifier": "all messages, salts and signatures", "why_tests_cant": "it quantifies over all pairs of messages", "anchors": ["external/ETHFalcon_Recursive.sol:verify", "src/ZKNOX_HashToPoint.sol:hashToPointTETRATION"]}
{"id": "C76", "title": "Field and ring arithmetic of the C reference code", "statement": "On canonical residues the C primitives add, subtract, halve, multiply (Montgomery) and divide modulo q with canonical results; in every size from 1 to 1024 the transforms are mutually inverse and transform-multiply-transform back is the product in Z_q[x]/(x^n+1); the 512-point transform is the contract's, so keys in NTT form are interchangeable.", "quantifier": "all canonical residues and vectors of every size 2^0..2^10", "why_tests_cant": "the domain is all pairs of vectors; table or wraparound errors can hit single inputs", "anchors": ["falcon/nistfalcon/src/vrfy.c:mq_montymul", "falcon/nistfalcon/src/vrfy.c:mq_div_12289", "falcon/nistfalcon/src/vrfy.c:mq_NTT", "falcon/nistfalcon/src/vrfy.c:mq_iNTT", "falcon/nistfalcon/src/vrfy.c:to_ntt_monty"]}
{"id": "C77", "title": "Exact accepted set of the C verifier core", "statement": "verify_raw accepts exactly the 16-bit vectors s2 for which the centred s1 with s1+s2*h=c makes the norm of (s1,s2) at most the bound of the dimension (the same bounds as Python); the 32-bit saturating accumulator never wraps a long vector into an accepted one.", "quantifier": "all dimensions 2^0..2^10, canonical hashes and keys, and all int16 vectors (also outside [-q,q])", "why_tests_cant": "it is an equivalence over all vectors, including overflow cases", "anchors": ["falcon/nistfalcon/src/vrfy.c:verify_raw", "falcon/nistfalcon/src/common.c:is_short", "falcon/nistfalcon/src/common.c:is_short_half"]}
{"id": "C85", "title": "Key computations and key recovery of the C reference code", "statement": "compute_public returns exactly the canonical h with h*f=g and fails exactly when f is not invertible; complete_private returns exactly the G in [-127,127] with G*f=g*F modulo q; is_invertible decides invertibility; verify_recover accepts exactly when (s1,s2) is short and s2 invertible and then outputs the only h with s1+h*s2=c; hint_epervier is the inverse of the product of the values of s2 that the contract checks; count_nttzero counts the zeros.", "quantifier": "all int8 key vectors, int16 signature vectors and canonical hashes, every size 2^0..2^10", "why_tests_cant": "equivalences over all inputs, with rare non-invertible cases", "anchors": ["falcon/nistfalcon/src/vrfy.c:compute_public", "falcon/nistfalcon/src/vrfy.c:complete_private", "falcon/nistfalcon/src/vrfy.c:is_invertible", "falcon/nistfalcon/src/vrfy.c:verify_recover", "falcon/nistfalcon/src/vrfy.c:verify_recover_epervier", "falcon/nistfalcon/src/vrfy.c:hint_epervier", "falcon/nistfalcon/src/vrfy.c:count_nttzero"]}
{"id": "C78", "title": "16-bit signature format of the C code: exact decoding, range of the round trip, malleability", "statement": "The 16-bit signature decoder accepts exactly big-endian words below q or at least 2^15, reads words up to 2046 as non-negative and others as negative values (minus q, or minus 2^16 for large ones); decoding an encoding gives back the vector exactly when every coefficient lies in [-10242, 2046]; every accepted encoding with a word in [2047, q) has a second accepted encoding of the same vector.", "quantifier": "all byte strings, all int16 vectors and sizes 2^k", "why_tests_cant": "the claim is an exact acceptance set and round-trip range; one wrong boundary affects single values", "anchors": ["falcon/nistfalcon/src/codec.c:comp_encode16", "falcon/nistfalcon/src/codec.c:comp_decode16"]}
{"id": "C79", "title": "C codecs agree with the mathematical formats and with Python", "statement": "The C encoders and decoders of public keys (14 and 16 bit), private-key vectors (fixed width) and compressed signatures accept exactly the well-formed bit strings, produce exactly one encoding of each vector, never exceed the output capacity, round trip with trailing data, and agree with the Python codec functions.", "quantifier": "all vectors, byte strings, widths, capacities and sizes 2^k", "why_tests_cant": "the claim is over all bit strings; accumulator wraparounds of 32-bit shifts occur only on particular alignments", "anchors": ["falcon/nistfalcon/src/codec.c:modq_encode", "falcon/nistfalcon/src/codec.c:modq_decode", "falcon/nistfalcon/src/codec.c:modq_encode16", "falcon/nistfalcon/src/codec.c:modq_decode16", "falcon/nistfalcon/src/codec.c:trim_i8_encode", "falcon/nistfalcon/src/codec.c:trim_i8_decode", "falcon/nistfalcon/src/codec.c:trim_i16_encode", "falcon/nistfalcon/src/codec.c:trim_i16_decode", "falcon/nistfalcon/src/codec.c:comp_encode", "falcon/nistfalcon/src/codec.c:comp_decode"]}
{"id": "C80", "title": "C Keccak-256, Keccak PRNG and hash-to-point equal the specification, the contract and Python", "statement": "In the C reference code, keccak256 of a byte string of fewer than 65536 bytes is Keccak-256 however the string is cut into update calls and whatever the pointer alignment (a single call on more bytes hashes only the first length mod 65536 bytes, because the size parameter is a uint16_t). The PRNG built on it accepts 4096 bytes of input in total and refuses, unchanged, what does not fit; its output is H(H(seed)||ctr) for every cutting of the reads; and keccak_hash_to_point_vartime returns exactly the point of that stream, which for salt and message of at most 4096 bytes is the point computed by the Solidity contract and, when Python returns one, the one Python computes.", "quantifier": "every input byte string, every cutting into inject/update and extract calls, every dimension 2^logn, both alignments", "why_tests_cant": "Block boundaries, buffer fill levels and cuttings form an unbounded product; agreement of three implementations on all messages cannot be sampled.", "anchors": ["falcon/nistfalcon/src/keccak256.c: keccak_init, keccak_update, keccak_final", "falcon/nistfalcon/src/keccak_prng.c: inner_keccak256_*", "falcon/nistfalcon/src/common.c: keccak_hash_to_point_vartime"]}
{"id": "C86", "title": "C SHAKE256 and its hash-to-point equal FIPS 202, Python and the contract", "statement": "In the C reference code the two-rounds-per-iteration process_block with complemented lanes is the FIPS 202 permutation on every state; inject/flip/extract produce SHAKE256 of the concatenated input for every cutting of input and output; hash_to_point_vartime returns exactly the point of that stream, which is the one Python's hash_to_point with SHAKE and the contract's hashToPointNIST compute, for every salt and message without length limit.", "quantifier": "every state of 25 lanes; every list of byte strings injected; every list of extraction lengths; every dimension 2^logn", "why_tests_cant": "The permutation acts on 2^1600 states and block positions interact with call cutting; tests sample a vanishing part.", "anchors": ["falcon/nistfalcon/src/shake.c: process_block, inner_shake256_*", "falcon/nistfalcon/src/common.c: hash_to_point_vartime"]}
{"id": "C81", "title": "C crypto_sign_open accepts exactly the signed messages of the format", "statement": "crypto_sign_open (NIST format, 14-bit keys, compressed signatures) and zknox_crypto_sign_open (16-bit format), in the SHAKE and in the Keccak variant, return 0 and the message m exactly when the public key is a well-formed key of some polynomial h and the input is length || 40-byte nonce || m || header || signature where the signature is the encoding of a vector s2 such that (c - s2*h mod q centred, s2) has squared norm at most 34034726, c being the hash of nonce || m. Nothing else is opened, and the returned message is exactly the embedded one.", "quantifier": "every byte string given as signed message, every public key of the right length, both hash variants", "why_tests_cant": "the accepted set is a set of byte strings of every length; tests sample it", "anchors": ["falcon/nistfalcon/src/nist16.c: zknox_crypto_sign_open", "falcon/nistfalcon/src/nist.c: crypto_sign_open", "falcon/nistfalcon/src/vrfy.c: verify_raw", "falcon/nistfalcon/src/codec.c"]}
{"id": "C82", "title": "C signer and verifier hash the same string and distinguish all messages", "statement": "The point used by the C signer for (nonce, message) equals the one the C verifier recomputes, and it depends on the whole message. (True without limit for SHAKE; for the Keccak variant true up to 4096 bytes of nonce and message; false beyond: the injection that does not fit is dropped, so the signer's point no longer depends on the message and an accepted signed long message is accepted for every other long message and nonce.)", "quantifier": "every nonce and message of every length, both variants", "why_tests_cant": "the failure starts at a length above those of the test vectors and is a statement about all pairs of messages", "anchors": ["falcon/nistfalcon/src/nist16.c", "falcon/nistfalcon/src/keccak_prng.c: inner_keccak256_inject"]}
{"id": "C83", "title": "Signed messages of the C code are not malleable", "statement": "From an accepted signed message no second, different accepted signed message for the same message, nonce and signature vector can be built. (Holds of the NIST format; false of the 16-bit format, where each negative coefficient has two accepted words w and w + 53247.)", "quantifier": "every accepted signed message, every pair of keys, both variants", "why_tests_cant": "uniqueness ranges over all pairs of byte strings", "anchors": ["falcon/nistfalcon/src/nist16.c: zknox_crypto_sign_open", "falcon/nistfalcon/src/codec.c: comp_decode16", "falcon/nistfalcon/src/nist.c: crypto_sign_open"]}
{"id": "C84", "title": "C Epervier: open accepts exactly the messages whose pair recovers the key", "statement": "zknox_crypto_sign_open_epervier returns 0 and m exactly when the key is a well-formed key of h and the input is length || nonce || m || header || s1 || header || s2 || ..., with s2 invertible, short pair and (c - s1)/s2 = h; signing loops until the first pair with invertible s2 and its output opens exactly when no coefficient exceeds 2046. The accepted set depends on nothing else. (False in the last sentence: the hint and trailing bytes are ignored, with an announced length below 2050 the function reads beyond the input, and a public key passed through zknox_pk_epervier a second time no longer opens anything unless h is its own transform.)", "quantifier": "every byte string, every key, every content of the memory behind the input, every sequence of results of the lattice signer", "why_tests_cant": "reads beyond the input and ignored bytes cannot be seen in accepted test vectors; the signer loop has no bound", "anchors": ["falcon/nistfalcon/src/epervier16.c: zknox_crypto_sign_open_epervier, zknox_crypto_sign_epervier, zknox_pk_epervier", "falcon/nistfalcon/KAT/PQCgenKAT_sign_epervier_zknox.c"]}
{"id": "C87", "title": "C key pairs and sign-then-open", "statement": "For f, g, F, h from key generation the key pair is produced exactly when f, g lie in [-31,31] and F in [-127,127]; decoding the private key returns f, g, F and the unique G. If the lattice signer returns a short preimage for this key, signing returns a text that opens under the public key to the same message: always for the NIST format when the compressed form fits in 647 bytes, and in the 16-bit format exactly when no coefficient exceeds 2046. Of the strings of the length of a private key, signing accepts exactly the header byte 0x59 followed by the canonical encodings of f, g, F with f invertible modulo q and g*F/f within [-127,127].", "quantifier": "all key polynomials, all messages, nonces, seeds, every lattice signer meeting its contract, both variants", "why_tests_cant": "completeness over all keys and messages; coefficients above 2046 are rare and absent from vectors", "anchors": ["falcon/nistfalcon/src/nist16.c: zknox_crypto_sign_keypair, zknox_crypto_sign", "falcon/nistfalcon/src/nist.c: crypto_sign_keypair, crypto_sign"]}
{"id": "C88", "title": "The contract accepts what the C code accepts, and only that", "statement": "If the C code opens a signed message whose words are canonical (below 12289) with norm strictly below the bound, then the Solidity contract accepts the same nonce, message, words and key; and conversely. (The converse is false: for every key without a zero value and every message with a hash there are words accepted by the contract and refused by the C code.)", "quantifier": "every key, nonce, message and signature, both hash variants, every free memory pointer", "why_tests_cant": "agreement of two implementations on all inputs; disagreement only on crafted signatures", "anchors": ["falcon/nistfalcon/src/nist16.c: zknox_crypto_sign_open", "src/ZKNOX_falcon.sol: verify", "src/ZKNOX_ethfalcon.sol: verify"]}
{"id": "C89", "title": "The constant-time C hash to point equals the variable-time one", "statement": "hash_to_point_ct, which reads a fixed number of words and squeezes out the rejected ones by conditional exchanges in a logarithmic number of passes, returns exactly the point of hash_to_point_vartime whenever at least n of the words it reads are accepted (so the same point as Python and the contract); otherwise, and only then, its result contains the value 65535. Its scratch space always suffices. For uniform words the failure case has probability below 2^-256 in every dimension, and the oversampling is the least with that property.", "quantifier": "every input, every dimension 2^1..2^10, every pattern of accepted and rejected samples", "why_tests_cant": "the claim in the source ('it can be shown that the destination slot is free') is about all 2^717 patterns of rejected samples; the failure case has probability below 2^-256", "anchors": ["falcon/nistfalcon/src/common.c: hash_to_point_ct"]}
{"id": "C90", "title": "C key generation returns Falcon keys", "statement": "The check of the NTRU equation at the end of the C solve_NTRU, which works modulo one 31-bit prime with a Montgomery NTT, succeeds exactly when f*G - g*F = q over the integers. Hence, whatever the random source, the bignum solver and the floating-point test compute, everything keygen returns is a Falcon key: f, g within the bounds of the key format, odd sums, squared norm at most 16822, F and G in [-127,127], the NTRU equation, f invertible modulo q and h = g/f; and a candidate that meets the conditions is accepted, one that does not is followed by a new one.", "quantifier": "every random stream, every result of the solver, every int8 polynomials, every degree 2^1..2^10 (the check: 2^0..2^10)", "why_tests_cant": "the check is modulo one prime: that no false solution slips through is a bound over all int8 inputs; the soundness must hold for every output of the unmodelled bignum solver", "anchors": ["falcon/nistfalcon/src/keygen.c: solve_NTRU, poly_big_to_small, poly_small_mkgauss, poly_small_sqnorm, keygen, modp_mkgm2, modp_NTT2", "falcon/nistfalcon/src/vrfy.c: compute_public"]}
{"id": "C91", "title": "The table of small primes of the C key generator", "statement": "Every one of the 521 entries (p, g, s) of PRIMES is what the code assumes: p is prime, 2^30 < p < 2^31, p = 1 mod 2048, the primes are strictly decreasing, g is a primitive 2048-th root of unity (g^1024 = -1), s is the inverse of the product of the preceding primes in Montgomery form; on a table prime the C routines compute sums, differences, Montgomery products and quotients of all residues; with the tables of modp_mkgm2 the transforms modp_NTT2 and modp_iNTT2 undo each other and multiply modulo X^n + 1.", "quantifier": "all table entries; all residues modulo each prime", "why_tests_cant": "the arithmetic claims range over all pairs of residues of 521 31-bit primes; primality needs a certificate", "anchors": ["falcon/nistfalcon/src/keygen.c: PRIMES, modp_ninv31, modp_montymul, modp_R2, modp_div", "falcon/nistfalcon/src/keygen.c: modp_mkgm2, modp_NTT2, modp_iNTT2"]}
{"id": "C92", "title": "C key pairs from a seed", "statement": "crypto_sign_keypair_from_seed and zknox_crypto_sign_keypair_from_seed refuse seeds shorter than 32 bytes; with any other seed they never return -1: when key generation stops, the key always encodes, the public key is the encoding of h = g/f, and decoding the private key gives back f, g, F and the very G that was thrown away. Key generation depends only on the SHAKE256 stream of the seed (FIPS 202), and both entry points make the same private key from the same seed.", "quantifier": "every seed, every solver and floating-point test", "why_tests_cant": "covers every seed and every possible key; the recomputation of G modulo q must agree with the integer G for all of them", "anchors": ["falcon/nistfalcon/src/nist.c: crypto_sign_keypair_from_seed", "falcon/nistfalcon/src/nist16.c: zknox_crypto_sign_keypair_from_seed", "falcon/nistfalcon/src/keygen.c: get_rng_u64, keygen"]}
{"id": "C93", "title": "Law of the C key generation Gaussian, and agreement with Python", "statement": "On the same 64-bit words the constant-time C table scan and the Python code draw the same value, and from the same byte source poly_small_mkgauss of C and Python return the same polynomials and leave the source in the same state. Of the 2^128 word pairs the exact number giving each value is known, and the probability of every integer is within 2^-63 of the discrete Gaussian of deviation 1.17 sqrt(q/2048).", "quantifier": "all pairs of 64-bit words, all integers, all byte sources, every degree 2^0..2^10", "why_tests_cant": "2^128 inputs; a statistical test cannot see a deviation of 2^-63", "anchors": ["falcon/nistfalcon/src/keygen.c: gauss_1024_12289, mkgauss, poly_small_mkgauss", "pythonref/mkgauss.py: mkgauss, poly_small_mkgauss"]}
{"id": "C96", "title": "katrng.c: AES-256, CTR_DRBG and the seed expander", "statement": "The table-driven AES-256 of katrng.c is the cipher of FIPS 197, built from the field arithmetic alone. randombytes_init and randombytes are CTR_DRBG of SP 800-90A with that cipher: every history of requests, of any sizes, after any seed and optional personalisation string gets the specified bytes, the same as the Python reference generator. The seed expander returns consecutive bytes of AES in counter mode, refuses requests as specified, and never delivers the last byte of the announced allowance.", "quantifier": "every key, block, seed, personalisation string and history of request sizes (Python equality: below 2^48 requests); every expander seed, diversifier, allowance below 2^32 and history", "why_tests_cant": "known-answer tests fix a few keys; carries of the 128-bit counter and the partial blocks of arbitrary request histories are not covered", "anchors": ["falcon/nistfalcon/src/katrng.c: AES256_ECB, AES256_CTR_DRBG_Update, randombytes_init, randombytes, seedexpander_init, seedexpander", "pythonref/drbg/aes256_ctr_drbg.py: AES256_CTR_DRBG"]}
{"id": "C97", "title": "Keys and nonces of the Go and JavaScript bindings are unpredictable", "statement": "Two processes using the Go or JavaScript bindings generate independent keys and nonces. This is false of the code: both link katrng.c, whose generator nobody seeds. Whatever a program signed or verified before, the bytes behind its next key pair or signature are CTR_DRBG under the all-zero key, a function of the kinds of its earlier calls only; the first key pair of every process comes from one 48-byte constant, the first signature of every process has one 40-byte constant nonce.", "quantifier": "every sequence of library calls with any arguments, every library behaviour behind the random bytes", "why_tests_cant": "a test of one process sees keys that look random; the statement compares all processes and all histories", "anchors": ["falcon/makefile: go, js", "falcon/falcon.go: GenerateKeypair, SignMessage", "falcon/nistfalcon/src/katrng.c: DRBG_ctx, randombytes", "falcon/nistfalcon/src/nist.c: crypto_sign_keypair, crypto_sign", "falcon/nistfalcon/src/nist16.c: zknox_crypto_sign_keypair, zknox_crypto_sign"]}
{"id": "C94", "title": "The geth precompile and the Go wrapper", "statement": "With a public key of at least 897 bytes, a non-empty signature and a message of at most 1024 bytes the precompile at 0x13 returns 1 exactly when the signature is a valid NIST-format Falcon-512 signature (SHAKE256) of that very message under the first 897 bytes of the key; its answer is always a 32-byte 0 or 1, an error exactly for input that is not three byte strings, and a function of the input. GenerateKeypair never fails and returns Falcon key pairs; what SignMessage returns, VerifySignature and the precompile accept. For other inputs this is false of the code, and the exact sets are proved: an empty signature or key panics the node; a valid signature on a message over 1024 bytes overruns a buffer; a key shorter than 897 bytes makes the answer depend on the memory behind it, so two nodes can disagree; SignMessage overruns its buffer for every message of 712 bytes or more and never for at most 640.", "quantifier": "every precompile input, every memory contents behind the key, every message, key, generator state and lattice signer", "why_tests_cant": "the claims are about all inputs including adversarial ones and about all contents of memory the caller does not control", "anchors": ["geth/contracts.go: falconvrfy.Run, falconvrfy.RequiredGas", "falcon/falcon.go: GenerateKeypair, SignMessage, VerifySignature", "falcon/nistfalcon/src/nist.c: crypto_sign, crypto_sign_open", "falcon/makefile: go"]}
{"id": "C95", "title": "The generator of the C signer", "statement": "Whatever its buffer held before, the generator of the C signer answers every history of 64-bit and 8-bit requests with successive pieces of the ChaCha20 stream of its 56-byte seed (RFC 7539 block function, eight interleaved blocks per chunk, 64-bit counter that wraps); no byte is handed out twice, and a 64-bit request that finds fewer than ten unused bytes drops them. Attempt number k of a signature is seeded with bytes 56k to 56k+55 of SHAKE256 of the injected seed. From the same seed C and Python draw the same numbers unless a 72-bit draw starts with exactly nine bytes left; there Python uses the nine bytes and C drops them (proved false by a witness). prng_get_bytes (unused by the signer) returns the same bytes again for successive requests.", "quantifier": "every seed, every old buffer, every history of requests of any length, every number of attempts", "why_tests_cant": "the stream, the counter wrap and the order of refills must be right after every history; the divergence from Python needs a rare position that the test vectors never reach", "anchors": ["falcon/nistfalcon/src/rng.c: prng_init, prng_refill, prng_get_bytes", "falcon/nistfalcon/src/inner.h: prng_get_u64, prng_get_u8", "falcon/nistfalcon/src/sign.c: sign_tree, sign_dyn", "pythonref/rng.py: ChaCha20"]}
{"id": "C99", "title": "Soft floating point is correctly rounded", "statement": "In the integer emulation of binary64 used by the C signer, addition, subtraction, multiplication, division (divisor not zero), square root, and the conversion of every 64-bit integer times a power of two return the binary64 number nearest to the exact real result, ties to even, whenever that result is in the normal range, and a zero when it is smaller in magnitude than 2^-1022. An exact zero sum is +0 unless both operands are -0. rint, trunc and floor return the nearest integer (ties to even), the integer part and the floor of every number below 2^63 in magnitude, except that floor(-0) is -1. half and double are exact where the result is a zero or a normal number; half of a number below 2^-1021 may be a word that is not one. lt compares the values, except that -0 is put below +0.", "quantifier": "all pairs of zeros and normal numbers, all 64-bit integers, all scalings, all exponents and signs", "why_tests_cant": "there are 2^128 operand pairs; rounding errors hide in ties, cancellations, carries out of the mantissa and far-apart exponents", "anchors": ["falcon/nistfalcon/src/fpr.c: fpr_scaled, fpr_add, fpr_mul, fpr_div, fpr_sqrt", "falcon/nistfalcon/src/fpr.h: FPR, fpr_ursh, fpr_irsh, fpr_ulsh, fpr_of, fpr_rint, fpr_floor, fpr_trunc, fpr_sub, fpr_neg, fpr_half, fpr_double, fpr_inv, fpr_lt"]}
{"id": "C100", "title": "Floating-point constants of the C signer", "statement": "The words for q, 1/q, 1/(2 sigma0^2), log 2, 1/log 2, 1/sqrt 2, 1/sqrt 8, the Gram-Schmidt bound and the powers of two are the binary64 numbers nearest to these reals. For every degree 2 to 1024 the C constants 1/sigma and sigma_min agree with the parameters sigma and sigmin of the Python signer up to a relative error 2^-50 and an absolute error 2^-51; they are not bit-identical (witness in degree 512).", "quantifier": "every constant and every degree of the tables", "why_tests_cant": "an error in the low bits of a constant changes the distribution of signatures but no test vector comparison within one implementation; the closeness to irrational numbers is a statement about reals", "anchors": ["falcon/nistfalcon/src/fpr.h: fpr_q, fpr_inverse_of_q, fpr_inv_2sqrsigma0, fpr_inv_sigma, fpr_sigma_min, fpr_log2, fpr_inv_log2, fpr_bnorm_max, fpr_invsqrt2, fpr_invsqrt8", "pythonref/falcon.py: Params"]}
{"id": "C98", "title": "Gaussian sampler of the C signer", "statement": "The base sampler of the C signer maps every 72-bit draw to the same value as the Python signer. For every exponent between 0 and 1000 and every scaling factor in [1/2, 1), BerExp answers 1 exactly when the next eight bytes of the generator, read as a big-endian number, are below a threshold whose ratio to 2^64 differs from ccs*exp(-x) by at most 2^-49, rounding errors of the emulated floating point included. For every centre mu of magnitude below 2^31, 1 <= sigma <= 1.8205 and sigma_min/sigma in [1/2, 1), the sampler is rejection sampling around an integer m with mu - m in [0, 1] in which a candidate z from (z0, sign) is kept with a probability within 2^-41 of (sigma_min/sigma) exp(-((z-mu)^2/(2 sigma^2) - z0^2/(2 sigma0^2))). For the scaling factor 1 (sigma = sigma_min) it is false: BerExp(0.5, 1) answers 1 for all but one of the 2^64 numbers.", "quantifier": "all 72-bit draws, all exponents and scaling factors of the range, all centres and standard deviations, all states of the generator", "why_tests_cant": "a statistical test sees deviations of 2^-20 at best; the security argument needs the acceptance probabilities for every centre and deviation to within 2^-37 or better", "anchors": ["falcon/nistfalcon/src/sign.c: gaussian0_sampler, BerExp, Zf(sampler)", "falcon/nistfalcon/src/fpr.c: fpr_expm_p63"]}
{"id": "C101", "title": "Big integers of the C key generation", "statement": "The multi-precision operations of key generation compute what their names say for numbers of every length: subtraction with borrow, multiplication by a word, addition of a multiple, reduction of an unsigned and of a signed number modulo every prime of the table, centring modulo an odd number, reconstruction from the remainders modulo the first k primes (k up to 521; unsigned in [0, product), or the representative nearest to zero), x + k*y*2^sc, x - y*2^sc, and the polynomial version F - k*f*2^sc in Z[x]/(x^n+1), each modulo the size of the destination and exactly whenever the result fits.", "quantifier": "all numbers of all lengths, all scalings, all degrees 2^logn, all residue vectors", "why_tests_cant": "carry and sign-extension errors show up for rare words only; intermediate numbers of key generation have up to 6300 bits and depend on the secret seed", "anchors": ["falcon/nistfalcon/src/keygen.c: zint_sub, zint_mul_small, zint_mod_small_unsigned, zint_mod_small_signed, zint_add_mul_small, zint_norm_zero, zint_rebuild_CRT, zint_add_scaled_mul_small, zint_sub_scaled, poly_sub_scaled"]}
{"id": "C102", "title": "Extended GCD of the C key generation", "statement": "When zint_bezout reports success on x and y > 1 of equal length, then x*u - y*v = 1 with 0 <= u < y and 0 <= v < x; hence x and y are odd and coprime and (u, v) is the only such pair. No 64-bit intermediate overflows. For y = 1 it is false: for x = 7 success is reported with u = 0, v = 6.", "quantifier": "all pairs of numbers of every common length", "why_tests_cant": "the algorithm works on approximations of the top 62 bits and corrects signs afterwards; a wrong correction is data dependent and rare", "anchors": ["falcon/nistfalcon/src/keygen.c: zint_bezout, zint_co_reduce, zint_co_reduce_mod, zint_finish_mod, zint_negate"]}
{"id": "C103", "title": "Accuracy of the C FFT", "statement": "The C function FFT, computed with the software floating point of fpr.c, stores in slot u (real part in u, imaginary part in u + n/2) the value of the input polynomial at exp(i*pi*(4*rev(u)+1)/n), rev the reversal of log2(n)-1 bits, up to an absolute error of (log2(n)-1)*n*B/2^50 for inputs of magnitude at most B, and no word becomes infinite or NaN. The order stated in the comment of fft.c (slot rev(j)/2 holds the value at exp(i*pi*(2j+1)/n)) is false.", "quantifier": "all degrees 2 to 1024, all input words that are zero or normal with magnitude at most B, all B between 2^-900 and 2^800", "why_tests_cant": "the error bound quantifies over all real inputs and needs an analysis of every rounding and of all 2048 words of the table against exact roots of unity", "anchors": ["falcon/nistfalcon/src/fft.c: FFT, FPC_ADD, FPC_SUB, FPC_MUL", "falcon/nistfalcon/src/fpr.c: fpr_gm_tab"]}
{"id": "C104", "title": "Accuracy of the C inverse FFT and round trip", "statement": "If the slots are within e of the values of a real polynomial at the roots, and these values are at most M, then iFFT returns its coefficients up to e + 14*log2(n)*M/2^53. Hence FFT followed by iFFT and fpr_rint returns every integer polynomial with n*max|a_j| <= 2^44 unchanged.", "quantifier": "all degrees 2 to 1024, all arrays, all error bounds e <= M/2^30", "why_tests_cant": "bound on rounding errors over a continuum of inputs", "anchors": ["falcon/nistfalcon/src/fft.c: iFFT, FFT", "falcon/nistfalcon/src/fpr.c: fpr_p2_tab, fpr_gm_tab"]}
{"id": "C105", "title": "Exact products through the C FFT", "statement": "For integer polynomials a, b with n^2*max|a_j|*max|b_j| <= 2^43, FFT of both, poly_mul_fft, iFFT and fpr_rint give exactly a*b modulo X^n+1.", "quantifier": "all degrees 2 to 1024, all integer polynomials within the bound", "why_tests_cant": "a rounding error above 1/2 for one rare input would give a wrong signature or key; sampling cannot exclude it", "anchors": ["falcon/nistfalcon/src/fft.c: FFT, poly_mul_fft, iFFT", "falcon/nistfalcon/src/fpr.h: fpr_rint"]}
{"id": "C106", "title": "Signatures of the C signer are valid", "statement": "Whatever integers the sampler returns in one attempt of do_sign_dyn (at most 32768 in magnitude), if the lattice vector s1 = c - z0*g - z1*G, s2 = z0*f + z1*F of these integers fits 16 bits, then the floating-point computation (FFT, sampling tree, products, inverse FFT, rounding) is exact: the attempt returns exactly s2 when the squared norm of (s1, s2) is within the bound of the degree and nothing otherwise. Hence every signature returned by sign_dyn is valid for the public key h = g/f, and with the API of nist16.c a message signed with a generated key pair is produced and opens (up to the 2046 limit of C87). The signature is that of the first attempt that passes the norm check.", "quantifier": "all degrees 2 to 1024, all private keys with int8 coefficients, all hashed messages, all samplers and all their outputs in range, all numbers of attempts", "why_tests_cant": "a rounding error above 1/2 in one coefficient for rare draws would give an invalid signature; draws are random and cannot be enumerated", "anchors": ["falcon/nistfalcon/src/sign.c: do_sign_dyn, ffSampling_fft_dyntree, smallints_to_fpr, sign_dyn", "falcon/nistfalcon/src/fft.c: FFT, iFFT, poly_merge_fft, poly_mul_fft, poly_add, poly_neg", "falcon/nistfalcon/src/common.c: is_short_half"]}
{"id": "C107", "title": "The test of the orthogonalized norm in C key generation", "statement": "Every key returned by the C key generation has an orthogonalized vector (q f*/(ff*+gg*), q g*/(ff*+gg*)), and its exact squared norm is at most (1.17)^2 q = 16822.4121 up to 2^-15, although the test is made in floating point. Conversely a pair (f, g) whose exact squared norm is at most 16822.4121 - 2^-15 passes the test. In between, the computed norm has relative error at most 2^-29/d when ff*+gg* is at least d^2 at every root.", "quantifier": "all degrees 2 to 1024, all f and g with coefficients in the range of the degree, all sources of random words, all solvers, all seeds", "why_tests_cant": "a badly conditioned (f, g), where ff*+gg* is nearly zero at one root, is astronomically rare under random sampling; whether rounding can fool the test there cannot be sampled", "anchors": ["falcon/nistfalcon/src/keygen.c: keygen, poly_small_to_fp", "falcon/nistfalcon/src/fft.c: FFT, iFFT, poly_invnorm2_fft, poly_adj_fft, poly_mulconst, poly_mul_autoadj_fft", "falcon/nistfalcon/src/fpr.h: fpr_bnorm_max, fpr_q"]}
{"id": "C108", "title": "Every deviation the C signer passes to its Gaussian sampler is one the sampler is made for", "statement": "For a Falcon key of any degree whose orthogonalized vector has exact squared norm at most 16818 (key generation lets through at most 16822.4121), every inverse deviation that an attempt of sign_dyn hands to the sampler, computed in floating point through Gram matrix, LDL decomposition and the whole dynamic tree, lies in the range the sampler is correct for: at most 1, deviation at most that of the base sampler (1.8205), and isigma * sigma_min in [1/2, 1). So replacing the sampler by one that differs outside that range changes no signature.", "quantifier": "all degrees 2 to 1024, all keys with the stated norm, all message points, all samplers and sampler states, all attempts", "why_tests_cant": "the leaves depend on the key; the accumulated rounding error over ten levels of the tree, worst over all keys, and a leaf just above sigma_max or below sigma_min cannot be found by sampling", "anchors": ["falcon/nistfalcon/src/sign.c: do_sign_dyn, ffSampling_fft_dyntree, sign_dyn", "falcon/nistfalcon/src/fft.c: FFT, poly_mulselfadj_fft, poly_muladj_fft, poly_LDL_fft, poly_split_fft", "falcon/nistfalcon/src/fpr.h: fpr_inv_sigma, fpr_sigma_min, fpr_inv_2sqrsigma0"]}
{"id": "C109", "title": "Every integer the C signer draws comes from rejection sampling for the discrete Gaussian with in-range centre and deviation", "statement": "For a Falcon key of any degree whose orthogonalized vector has exact squared norm at most 16818, every centre that an attempt of sign_dyn hands to the sampler, computed in floating point through FFT, basis products, splits, merges and the multiplier of the LDL tree with the earlier draws fed back, is a finite number of absolute value below 2^31 (the range in which the sampler's floor, a cast to 32 bits, is exact). Hence an attempt to sign equals the attempt in which every integer is drawn by rejection sampling with thresholds within 2^-41 of the discrete Gaussian's, and the signature is the first attempt that is short enough.", "quantifier": "all degrees 2 to 1024, all keys with the stated norm, all message points, all samplers answering within 20 of the centre, all generator states, all numbers of attempts", "why_tests_cant": "centres depend on key, message and all earlier draws; that no history of draws at any level of the tree drives one out of range (feedback through nearly singular Gram matrices) cannot be found by sampling", "anchors": ["falcon/nistfalcon/src/sign.c: do_sign_dyn, ffSampling_fft_dyntree, sign_dyn, sampler, gaussian0_sampler, BerExp", "falcon/nistfalcon/src/fft.c: FFT, poly_mul_fft, poly_mulconst, poly_split_fft, poly_merge_fft, poly_LDL_fft, poly_sub, poly_add"]}
{"id": "C110", "title": "Floating-point rounding never changes what the Python signer computes from the drawn integers", "statement": "In floating-point arithmetic whose operations are accurate to 2^-53 relative, sample_preimage of a secret key returns, for every hashed point, every content of the tree and every sequence of integers drawn by the sampler, exactly (point - z0*g - z1*G, z0*f + z1*F) modulo x^n+1 over the integers, where z0, z1 are the drawn integers in the order of the recursion, provided n^2 * max|key coefficient| * max|draw| <= 2^40. So it is a preimage of the point under the public key, and every signature built from such attempts is accepted by verify. It raises no exception of its own.", "quantifier": "all roundings with the stated accuracy, degrees 2 to 1024, all keys and draws within the product bound, all points, all trees of the right shape, all samplers and generator states, all messages and salts", "why_tests_cant": "the error of three float transforms depends on every coefficient and draw; a test sees a few of the 2^(thousands) inputs, and int(round(.)) is wrong exactly on rare worst cases", "anchors": ["pythonref/falcon.py: SecretKey.__init__, sample_preimage, sample_preimage_with_prng, sign", "pythonref/ffsampling.py: ffsampling_fft", "pythonref/fft.py: fft, ifft, split_fft, merge_fft, add_fft, sub_fft, mul_fft", "pythonref/fft_constants.py: roots_dict"]}
{"id": "C111", "title": "What gs_norm measures: the longer of the two Gram-Schmidt vectors of the secret basis", "statement": "In exact arithmetic gs_norm(f, g, q) is the larger of the squared length of (f, g) and the squared length of the real vector whose transform is q*(conj f, conj g)/(|f|^2+|g|^2); for every completion (F, G) of (f, g) to a key the latter is the squared distance of (F, G) from the real multiples of (f, g), the least over all of them and attained. It raises ZeroDivisionError where f and g vanish together at a root of x^n+1. So when its test in ntru_gen is exact, every returned key has both Gram-Schmidt vectors of squared length at most 1.17^2*q.", "quantifier": "all degrees 2 to 1024, all integer f, g, all completions F, G, all real multipliers, all candidate streams", "why_tests_cant": "the minimum is over a continuum of real polynomials and all keys", "anchors": ["pythonref/ntrugen.py: gs_norm, ntru_gen", "pythonref/common.py: sqnorm", "pythonref/fft.py: add, mul, div, adj"]}
{"id": "C112", "title": "Every deviation the Python signer hands to samplerz meets its documented precondition", "statement": "In exact arithmetic, if gs_norm(f, g, q) <= b then every leaf of the tree of a key with these f, g, and so the deviation of each of the 2n calls of the sampler in sample_preimage, lies between sigma/sqrt(b) and sigma*sqrt(b)/q. For every parameter set and every key that ntru_gen returns (its test being exact) this is the documented precondition of samplerz, 1 < sigmin < sigma < MAX_SIGMA (sigmin < sigma up to 10^-14, since sigmin is a rounded decimal).", "quantifier": "all degrees 2 to 1024, all keys, all hashed points, all behaviours of the sampler and states, all 2n calls", "why_tests_cant": "the deviations depend on every coefficient of the key through the whole tree; a sampler called outside its range silently draws from a wrong law", "anchors": ["pythonref/ffsampling.py: ffldl_fft, ffsampling_fft", "pythonref/falcon.py: normalize_tree, Params, SecretKey", "pythonref/samplerz.py: samplerz", "pythonref/ntrugen.py: gs_norm, ntru_gen"]}
{"id": "C113", "title": "Signing with an expanded key reads the stored tree correctly and is as exact as signing with the private key", "statement": "expand_privkey followed by sign_tree performs, bit for bit, the computation of sign_dyn with the same private key, except that polynomials with four coefficients are split and merged with two other constants (1/sqrt 8 and 1/sqrt 2 rounded) in the unrolled code; in degree 2 the two are identical. The array has (logn + 5) 2^logn numbers as the callers allocate. The deviations asked for are the same in the same order whatever was drawn, and for a key that passes the norm test of key generation they all suit the sampler. If an attempt stays in range, it returns exactly s2 when the exact norm of (s1, s2) is within the bound and asks for another attempt otherwise; so every returned signature is valid for the public key, and sign_tree returns the signature of the first attempt that passes.", "quantifier": "all degrees 2 to 1024, all keys, all hashed points, all samplers and generator states, all integers drawn, all numbers of attempts", "why_tests_cant": "the expanded key is one array addressed by recursive offsets; a wrong offset, a swapped subtree or a missing normalization changes only the law of the signatures, which still verify", "anchors": ["falcon/nistfalcon/src/sign.c: expand_privkey, ffLDL_fft, ffLDL_fft_inner, ffLDL_binary_normalize, ffSampling_fft, do_sign_tree, sign_tree", "falcon/nistfalcon/src/fft.c: poly_LDLmv_fft", "falcon/nistfalcon/src/inner.h: expand_privkey, sign_tree"]}
{"id": "C114", "title": "The C descent through the tower of fields computes the iterated field norms", "statement": "make_fg returns, for every depth, the residues modulo the first MAX_BL_SMALL[depth] primes of the table of the coefficients of the iterated field norm of f (the same norm as field_norm of the Python code), as long as the norms of the levels passed through fit the words that MAX_BL_SMALL provides for them; with out_ntt the words are the values of that norm at fixed roots of X^n + 1 modulo each prime that determine the polynomial.", "quantifier": "all degrees up to 1024, all depths, all polynomials with 8-bit coefficients", "why_tests_cant": "the residues go through products of transforms, signed Chinese remaindering, reductions modulo up to 209 primes and tables of a different size at every level; an error for one prime or one level only makes key generation fail or slow", "anchors": ["falcon/nistfalcon/src/keygen.c: make_fg, make_fg_step, MAX_BL_SMALL, zint_rebuild_CRT, zint_mod_small_signed, modp_NTT2_ext, modp_iNTT2_ext", "pythonref/ntrugen.py: field_norm"]}
{"id": "C115", "title": "The deepest level of the C NTRU solver solves the equation of the resultants", "statement": "If solve_NTRU_deepest reports success, its big integers F and G satisfy Res(f) G - Res(g) F = 12289 exactly, where Res is the resultant with X^n + 1, and 0 <= G < 12289 Res(g), 0 <= F < 12289 Res(f); provided the norms of all levels and the resultants fit the words of MAX_BL_SMALL and Res(g) > 1.", "quantifier": "all degrees 2 to 1024, all polynomials f, g with 8-bit coefficients", "why_tests_cant": "the resultants have up to 6000 bits and every word passes through the RNS, the Chinese remainders and the binary GCD; a wrong sign or order of u and v would only make every later level fail", "anchors": ["falcon/nistfalcon/src/keygen.c: solve_NTRU_deepest, make_fg, zint_rebuild_CRT, zint_bezout, zint_mul_small"]}
{"id": "C116", "title": "Every integer drawn when signing with an expanded key comes from rejection sampling with in-range centre and deviation", "statement": "For a Falcon key of any degree whose orthogonalized vector has exact squared norm at most 16818, every centre that an attempt of sign_tree with the expanded key hands to the sampler is a finite number of absolute value below 2^31 and every deviation is one the sampler is made for, although the last two levels are unrolled and split and merge with other constants than sign_dyn. Hence an attempt to sign equals the attempt in which every integer is drawn by rejection sampling with thresholds within 2^-41 of the discrete Gaussian's, and the signature is the first attempt that is short enough.", "quantifier": "all degrees 2 to 1024, all keys with the stated norm, all message points, all samplers answering within 20 of the centre, all generator states, all numbers of attempts", "why_tests_cant": "centres depend on key, message and all earlier draws; a wrong sign or constant in the unrolled split changes only the distribution of signatures, which stay valid", "anchors": ["falcon/nistfalcon/src/sign.c: do_sign_tree, ffSampling_fft, sign_tree, expand_privkey, sampler, BerExp", "falcon/nistfalcon/src/fpr.h: fpr_invsqrt2, fpr_invsqrt8"]}
{"id": "C117", "title": "Reduction inside the C NTRU solver keeps the NTRU equation, whatever the floating-point part computes", "statement": "At every level where solve_NTRU_intermediate reduces (F,G), f G - g F in Z[x]/(x^n+1) is the same before and after, modulo 2 to the number of bits of the returned coefficients, for every choice of the multipliers of all rounds and although rows are shortened, sign-extended and truncated; it is the same integer polynomial if both sides fit. At depths up to 4, where products go through transforms modulo small primes, this needs multipliers below the primes in use and products that fit one word more than f; then poly_sub_scaled_ntt writes the same words as poly_sub_scaled. The range test of the code admits multipliers up to 2^31 - 1, which is not enough: the two functions then differ on some inputs.", "quantifier": "all degrees up to 1024, all depths 0 to 9, all f, g, F, G of the right numbers of words, all multipliers chosen in the rounds as functions of the state", "why_tests_cant": "the multipliers come from floating-point approximations of very large numbers and the lengths shrink by an estimate; a lost carry or word breaks the equation only for rare keys, and the final check of the solver would silently turn this into a retry", "anchors": ["falcon/nistfalcon/src/keygen.c: solve_NTRU_intermediate, poly_sub_scaled, poly_sub_scaled_ntt, zint_sub_scaled, MAX_BL_LARGE, BITLENGTH"]}
{"id": "C118", "title": "An intermediate level of the C NTRU solver turns a solution for the field norms into a solution", "statement": "If F', G' of half the degree satisfy N(f) G' - N(g) F' = q, where N(f), N(g) are the norms of f and g at the current depth, then the F, G that solve_NTRU_intermediate returns satisfy f G - g F = q in Z[x]/(x^n+1), modulo 2 to the number of bits of the returned coefficients, and outright if f G - g F fits that many bits. This holds for every choice of multipliers in the reduction; needed are sizes that fit the tables MAX_BL_SMALL and MAX_BL_LARGE.", "quantifier": "all top degrees up to 1024, all depths below the deepest one, all f and g with 8-bit coefficients whose norms fit the tables, all F', G', q, all multipliers in the reduction", "why_tests_cant": "residues modulo up to 308 primes, transforms of two sizes, CRT of numbers of thousands of bits; an error for rare inputs would silently become a retry", "anchors": ["falcon/nistfalcon/src/keygen.c: solve_NTRU_intermediate, make_fg, zint_rebuild_CRT, modp_NTT2, modp_iNTT2"]}
{"id": "C119", "title": "The levels of the C NTRU solver together: from the resultants to f G - g F = 12289", "statement": "When solve_NTRU_deepest and any number of calls of solve_NTRU_intermediate succeed one after the other, the polynomials F, G they leave satisfy the NTRU equation N(f) G - N(g) F = 12289 exactly, for the norms of f and g at the depth reached; after all levels, as for degrees 2 and 4, f G - g F = 12289. The multipliers of all reductions may be anything in range; needed is that the numbers met fit the tables of the code.", "quantifier": "all degrees 2 to 1024, all f and g with 8-bit coefficients whose norms fit the tables, all numbers of levels, all multipliers in all reductions", "why_tests_cant": "numbers of thousands of bits whose sizes depend on f and g; a fault at one level is only seen as a retry by the final check", "anchors": ["falcon/nistfalcon/src/keygen.c: solve_NTRU, solve_NTRU_deepest, solve_NTRU_intermediate"]}
