#!/usr/bin/env python3
"""Writes MANIFEST.json from the table below (property, status, namespace, theorem names, note)."""
import json, os
T = []
def c(p, st, ns, names, note=""):
    T.append({"property": p, "status": st, "theorems": [ (n if n.startswith("Verif.") else f"Verif.{ns}.{n}") for n in names.split()], "note": note})

E="Encoding"
c("C01","proved",E,"decompress_compress")
c("C02","proved",E,"compress_fits_iff")
c("C03","proved",E,"decompress_accepts_iff decompress_zero decompress_wellformed decompress_rejects_minus_zero")
c("C04","partial",E,"decompress_malleable decompress_tail_ignored decompress_unique_partial","False of the code; negation proved with a witness, uniqueness proved for zero tails.")
c("C05","partial",E,"decompress_raises_iff decompress_can_raise decompress_total_partial","False of the code; exact set of raising inputs proved.")
K="Codec"
c("C06","proved",K,"modqEncode_ok_iff modqDecode_ok_iff modqDecode_encode")
c("C07","proved",K,"modqDecode_canonical modqDecode_injective modqDecode_error")
c("C08","proved",K,"modqEncode_error_iff modqEncode_too_long")
c("C09","proved",K,"trimEncode_ok_iff trimDecode_ok_iff trimDecode_encode")
c("C10","proved",K,"trimDecode_canonical trimEncode_error")
c("C11","partial",K,"fromBytes_ok_iff fromBytes_roundtrip_512 fromBytes_never_1024 fromBytes_rejects_nist_1024 fromBytes_ignores_tail fromBytes_canonical_897 fromBytes_encodePublicKey","Holds for n=512, false for n=1024 (length check off by one); accepted set characterised.")
c("C12","partial",K,"decodeSecretKey_roundtrip decodeSecretKey_canonical decodeSecretKey_rejects_encodeSecretKey","Round trip and canonicity proved for the NIST layout; the repository's own encode_secret_key output is rejected (proved).")
c("C36","proved",K,"solDecompress_eq_modqDecode solDecompress_roundtrip")
S="SolSig"
c("C35","partial",S,"decompressSig_ok_iff contract_accepts_python contract_reads_compress contract_accepts_minus_zero python_accepts_contract_partial contract_reads_past_end decompressSig_error","First half proved; second half false (negative zero, foreign memory), proved with witnesses.")
c("C60","partial",S,"decompressKAT_roundtrip decompressKAT_ok_iff decompressKAT_ignores_length","Round trip and exact acceptance condition proved; rejection of disagreeing lengths is false (proved).")
P="Packing"
c("C13","proved",P,"falconCompact_ok_iff falconCompact_injective solExpand_falconCompact solExpand_solCompact solCompact_eq_falconCompact solCompact_solExpand solSwap_eq solSwap_solSwap")
c("C14","proved",P,"merge_eq merge_split split_merge merge_split_odd merge_error_iff sqnorm_eq")
R="Ring"
c("C15","proved",R,"ntruSolve_correct ntruSolve_coeffs")
c("C16","proved",R,"ntruSolve_fails ntruSolve_succeeds ntruSolve_one","For n>=2 the gcd of the resultants decides; the n=1 case (sign matters) is characterised separately. The Babai loop's own termination is not modelled (arbitrary float oracle).")
c("C17","proved",R,"karamul_eq_schoolbook karamul_negEq karatsuba_eq_mul karamul_comm karamul_assoc")
c("C18","proved",R,"fieldNorm_negEq fieldNorm_unique fieldNorm_mul lift_eq galois_eq")
c("C19","proved",R,"xgcd_spec xgcd_sign xgcd_nonneg xgcd_fuel")
c("C20","proved",R,"bitsize_spec bitsize_mono")
c("C21","proved",R,"reduce_lattice reduce_invariant")
K="Keccak"
c("C42","proved",K,"C42_python C42_contract C42_agree")
c("C43","proved",K,"C43_absorb_chunks C43_python C43_contract C43_digest C43_agree C43_read_split C43_length")
K="Hash"
c("C22","proved",K,"C22_point C22_shake C22_shake_total C22_keccak C22_blake2s C22_keccak_long","Termination of rejection sampling is a property of the stream: the theorems are iff statements with the existence of n accepted words.")
c("C23","proved",K,"C23_concat C23_injective C23_ambiguous")
c("C24","proved",K,"C24_evm C24_evm_conv C24_nist C24_tetration C24_evm_shape C24_nist_shape")
c("C44","proved",K,"C44_inject_iff C44_stream C44_chunks C44_inject_after_flip C44_double_flip C44_extract_before_flip C44_exhausted C44_counter_injective")
c("C45","partial",K,"C45_stream_partial C45_update C45_shifted C45_not_separated C45_prng_separated C45_update_after_read","Determinism proved; separation is false of the code (proved).")
N="NTT"
c("C32","proved",N,"C32_forward C32_inverse_forward C32_round_trip C32_forward_inverse C32_inverse_reduced C32_stateless")
c("C33","proved",N,"C33_mul_NTTPoly C33_halfmul_compact C33_every_key")
c("C34","proved",N,"C34_forward_tables C34_inverse_tables C34_lengths C34_primitive C34_roots")
c("C66","proved",N,"C66_half_mul C66_reverts C66_vec","")
c("C62","partial",N,"C62_deploy_layout C62_stateful_partial C62_false C62_witness","False of the code with the deployment script's tables (proved for every input); true with 32 bytes per entry.")
F="Falcon"
c("C25","proved",F,"C25_accepts_iff C25_rejects_iff C25_lengths","polyntt (not in the repository) enters as any library satisfying Arith; lib shows one exists.")
c("C26","partial",F,"C26_header_ignored C26_tail_ignored C26_canonical_partial C26_witness","False of the code (witness and general malleability proved); true for equal headers, lengths and zero tails.")
c("C27","proved",F,"C27_sign_verify C27_generated_key","int(round(ifft(...))) in sample_preimage is exact here; C110 proves that floating point gives the same integers.")
c("C28","proved",F,"C28_format")
c("C29","proved",F,"C29_first_good")
c("C59","proved",F,"C59_public_key C59_keygen C59_ntru_gen C59_no_division_error")
K="Contract"
c("C30","partial",K,"C30_accepts_iff C30_every_key C30_every_signature C30_universal_forgery C30_false C30_verify_false","False of the code: the accepted set is characterised exactly, and for every invertible key and every hash a signature of norm above the bound is accepted (proved). Memory addresses of the arrays are modelled by the allocation order.")
c("C31","proved",K,"C31_core C31_evm C31_nist C31_boundary","Strictness of the bound is necessary (C31_boundary).")
c("C37","partial",K,"C37_residues_only C37_malleable C37_trailing_bytes C37_reduced_unique_partial","False of the code (proved for every signature); unique among reduced encodings.")
c("C38","proved",K,"C38_reverts_iff C38_returns C38_fmp C38_abi C38_packed C38_packed_reverts C38_core_lengths C38_abi_iff C38_pack_error C38_pack_layout")
c("C63","partial",K,"C63_range_iff C63_false","False of the code (witness); the predicate it does decide is proved.")
K="Epervier"
c("C39","partial",K,"C39_recover_iff C39_unique C39_evm C39_nist C39_wraps_iff C39_false C39_norm_not_enforced C39_evm_nonvacuous","The accepted set is characterised exactly; the claim holds when no field of s1 exceeds 12289 and fails otherwise (subtraction wraps modulo 2^256), proved both ways.")
c("C40","proved",K,"C40_sign_iff C40_sign_recover C40_epervier C40_recovery C40_signs toyRecover","sample_preimage with exact rounding, polyntt as any lawful library.")
c("C41","partial",K,"C41_recover_iff C41_verify_iff C41_nonzero_partial C41_false","True for public keys other than 0; false for 0 (proved).")
c("C64","partial",K,"C64_hint_malleable C64_s2_malleable C64_s1_malleable C64_malleable","False of the code; the malleations are proved for every accepted call.")
c("C65","proved",K,"C65_nist C65_evm C65_lib recover_exists")
c("C67","proved","Falcon","C67_params C67_domain C67_contract")
K="Sampler"
c("C46","proved",K,"C46_base_range C46_base_law C46_base_monotone C46_base_count C46_berexp_law C46_exponent C46_range C46_no_error","Floating-point numbers are exact rationals.")
c("C47","proved",K,"C47_draw C47_magnitude C47_mkgauss C47_poly")
c("C68","proved",K,"C68_rcdt C68_gauss C68_gauss_zero C68_base_prob")
c("C69","proved",K,"C69_threshold C69_berexp C69_in_range C69_trial_law C69_loop","Floating-point numbers are exact rationals.")
K="Rng"
c("C48","proved",K,"C48_block C48_stream C48_no_reuse C48_length C48_inputs_distinct C48_wrap_false","Up to the end of the 64-bit block counter; past it the stream is not ChaCha20 (C48_wrap_false).")
c("C49","proved",K,"C49_init C49_generate C49_history C49_exhausted C49_no_counter_reuse C49_blocks_used","For every block cipher with 16-byte blocks (AES itself is not in the repository).")
c("C54","partial","Storage","C54_last_update C54_partial C54_false C54_observable","false as stated: the guard is inverted, every update by anybody succeeds before and after make_immutable; exact law of the storage over all histories, and that it only changes by update")
c("C55","proved","Storage","C55_creation_code C55_write_read C55_write_succeeds C55_write_too_long C55_write_error C55_stable C55_inert C55_read_range C55_read_from C55_unwritten C55_key C55_setKey_succeeds C55_no_key C55_short_key_reads_on","the creation code is run by a small EVM model; addresses of creations are a parameter; gas not modelled")
c("C50","partial","Cli","C50_public_bytes C50_reads C50_stream C50_recover_seeds C50_plain_seeds C50_last_block C50_hash_data_false C50_distinct_salts_false C50_short_data_false C50_salt_public","As stated it is false: the theorems give the exact stream (unflipped sponge), show that for 512-coefficient keys data differing only in the last byte of 32 share salt and seeds, that short data leave the first salt bytes constant, and that salt and seeds depend on the public key and data only.")
c("C51","proved","Cli","C51_public_key C51_secret_key C51_signature C51_public_injective C51_genkeys C51_genkeys_unknown","Text of the files at character level; literal_eval restricted to integers and flat integer lists.")
c("C52","proved","Cli","C52_range C52_injective C52_layout C52_hash C52_collision","")
c("C53","partial","Cli","C53_same_hash C53_which_hash C53_falconrec_false C53_falcon C53_epervier C53_sign_tx_false C53_sign_tx_hash_false C53_recover_send_false C53_verify_send","True for falcon, ethfalcon and epervier (proved end to end on the files); false for falconrec, whose verification always raises. sign_tx and recoveronchainsend always raise.")
c("C56","proved","FFT","C56_fft_evaluates C56_roots C56_ifft_fft C56_fft_ifft C56_split_merge C56_splitFft_mergeFft C56_splitFft_fft C56_mul C56_adj C56_div C56_parseval C56_fft_lengths C56_truncation_false C56_tables_exist C56_tables_close","exact arithmetic over any field with conjugation; rounding is not modelled; the tables are shown to be within 5e-15 of exact ones. Finding: over-long inputs are silently cut.")
c("C57","proved","FFT","C57_ldl_fft C57_ldl_fft_error C57_ldl C57_ldl_error C57_gram","exact arithmetic")
c("C58","proved","FFT","C58_ffsampling C58_ffnp_fft C58_ffnp","exact arithmetic, every leaf sampler")
c("C70","proved","FFT","C70_norm C70_preimage","exact arithmetic over the complex numbers")
c("C71","proved","FFT","C71_key_setup","exact arithmetic over the complex numbers")
c("C72","proved","FFT","C72_ffldl C72_ffnp","exact arithmetic")
c("C61","proved","Blake","C61_mix_bijective C61_compress C61_hash C61_words_injective C61_bytes_injective C61_default C61_modes_false","equal to RFC 7693 below 2^32 bytes (the high word of the counter is never set); across modes injectivity is false (C61_modes_false)")
c("C73","proved","Tetration","C73_inverse_table C73_transforms C73_roundtrip C73_mul C73_mul_opt C73_mul_opt_any C73_domain_forward C73_domain_inverse C73_add C73_sub","Exact domains included; nTT silently truncates lengths in [2^k, 1.5*2^k).")
c("C74","proved","Tetration","C74_accepts_iff C74_otherwise_reverts C74_nttpub C74_malleable C74_other_representative","Also shows malleability: each coefficient has another accepted representative.")
c("C75","partial","Tetration","C75_resplit C75_false C75_fixed_length_partial C75_python","False of the code: only message||salt is hashed, so the boundary can be moved; holds for messages of equal length. C75_python: a Python signature with KeccaXof is accepted for every split.")
c("C76","proved","CRef","C76_field C76_div C76_tables C76_inverse C76_product C76_contract","all sizes up to 1024")
c("C77","proved","CRef","C77_verify_raw C77_is_short C77_is_short_half C77_bounds","for all int16 vectors")
c("C85","proved","CRef","C85_is_invertible C85_compute_public C85_complete_private C85_recover C85_hint C85_hint_contract C85_count","is_invertible, hint and count for coefficients of absolute value at most q (the reduction is wrong outside); recovery for all int16")
c("C78","proved","CRef","C78_comp_decode16 C78_comp_encode16 C78_roundtrip C78_boundary_false C78_malleable","The format does not round trip for coefficient 2047 and is malleable: shown with witnesses")
c("C79","proved","CRef","C79_modq_encode C79_modq_decode C79_modq_python C79_trim C79_comp_encode C79_comp_decode C79_comp_roundtrip C79_comp_unique C79_comp_python","32-bit accumulators modelled with wraparound")
c("C80","proved","CRef","C80_keccak256_pieces C80_keccak256 C80_inject C80_stream C80_python_stream C80_misuse C80_hash_to_point C80_contract C80_python_point","size parameter of keccak_update is 16 bits: reported as truncation")
c("C86","proved","CRef","C86_permutation C86_stream C86_hash_to_point C86_python C86_contract","every statement of process_block transcribed")
c("C81","proved","CRef","C81_open16 C81_open14","both formats, both hash variants; the hash and the codec parts are C78-C80, C86")
c("C82","partial","CRef","C82_agree C82_signer_false C82_verifier_false","false of the Keccak variant for nonce and message above 4096 bytes: negation proved; the rest proved")
c("C83","partial","CRef","C83_unique14 C83_malleable","holds of the NIST format; false of the 16-bit format: negation proved for every accepted message with a negative coefficient")
c("C84","partial","CRef","C84_open C84_complete C84_pk C84_sign_open C84_hint_false C84_memory_false C84_pk_twice_false","accepted set proved; false parts (hint, memory behind the input, double transform) proved as negations")
c("C87","proved","CRef","C87_private_key C87_keypair16 C87_keypair14 C87_sign_open16 C87_sign_open14 C87_chain16","the lattice signer (floating point) is a parameter with its contract as hypothesis")
c("C88","partial","CRef","C88_contract_accepts C88_converse_false","one direction proved; the converse is false, negation proved")
c("C89","proved","CRef","C89_constant_time C89_space C89_failure C89_count","three arrays as one list")
c("C90","proved","CRef.Kg","C90_check C90_solve C90_mkgauss C90_round C90_keygen","the bignum solver and the floating-point orthogonalisation test are parameters with no assumption but 31-bit words")
c("C91","proved","CRef.Kg","C91_primes C91_arith C91_ntt","primality by Lucas certificates checked in the kernel")
c("C92","proved","CRef.Kg","C92_stream C92_keypair16 C92_keypair14 C92_agree","solver and floating-point test are parameters")
c("C93","proved","CRef.Kg","C93_table C93_draw C93_value C93_law C93_gaussian C93_python","both models on the same source")
c("C94","partial","Geth","C94_accept C94_output C94_determined C94_verify C94_verify_other C94_keypair C94_roundtrip C94_sign_short C94_panic_false C94_overflow_false C94_crash_false C94_corrupt_false C94_short_key_false C94_sign_long_false C94_attack_false","Proved for keys of at least 897 bytes, non-empty signatures and messages of at most 1024 bytes; false of the code otherwise, the negations are proved. ABI decoding is a parameter.")
c("C95","partial","CRef.Prng","block_spec C95_init C95_stream C95_no_reuse C95_attempts C95_python_partial C95_python_false C95_get_bytes_false","The stream, no-reuse and seeding claims are proved for every history; equality with Python is proved for the histories that avoid one position and is false of the code there, the negation is proved.")
c("C96","proved","CRef.Kat","Verif.CRef.Aes.C96_aes C96_python C96_randombytes C96_history C96_init C96_unseeded C96_seedexpander C96_last_byte_false","last byte of the seed expander's allowance: the negation is proved")
c("C97","partial","CRef.Kat","C97_keypair_false C97_sign_false C97_first_key C97_first_nonce","False of the code; the exact dependence on the earlier calls is proved.")
c("C99","proved","CRef.Fpr","C99_add C99_add_zero C99_sub C99_neg C99_mul C99_div C99_inv C99_sqrt C99_scaled C99_of C99_rint C99_trunc C99_floor C99_floor_false C99_half C99_half_false C99_double C99_lt C99_lt_false rnd_nearest","rnd_nearest shows that the specification rnd is the nearest 53-bit number.")
c("C100","proved","CRef.Fpr","C100_exact C100_rational C100_sqrt_const C100_log C100_sigma C100_sigma_false","")
c("C98","proved","CRef.SignSampler","C98_gaussian0 C98_threshold C98_berexp C98_sampler C98_scale_one_false","the loop of sampler has fuel; C98_scale_one_false is the excluded scaling factor 1")
c("C101","proved","CRef.Kg","C101_sub C101_mul_small C101_add_mul_small C101_mod_small C101_norm_zero C101_crt C101_scaled C101_poly_sub_scaled","")
c("C102","proved","CRef.Kg","C102_bezout C102_coprime C102_unique C102_one_false","Soundness of a reported success; that success is always reported for odd coprime inputs is not claimed. C102_one_false is the excluded y = 1.")
c("C103","proved","CRef.Fft","C103_fft C103_const C103_order_false","C103_order_false refutes the order of the slots given in the comment of fft.c 145-168; the order actually used is part of C103_fft.")
c("C104","proved","CRef.Fft","C104_ifft C104_roundtrip","")
c("C105","proved","CRef.Fft","C105_mul","")
c("C106","proved","CRef.SignDyn","C106_logged C106_attempt C106_valid C106_loop C106_sign_dyn C106_chain16","The distribution of the signatures is not claimed: the targets and the Gram matrix only influence which integers are drawn. Draws above 32768 and vectors beyond 16 bits (negligible probability) are excluded by hypothesis.")
c("C107","proved","CRef.Orth","C107_vector C107_close C107_sound C107_complete C107_keygen C107_keypair16","C107_sound needs f f* + g g* >= 2^-40 at every root; C107_keygen discharges it from the NTRU equation, so the bound holds for every returned key. An example shows the bare test accepts f = g = 0.")
c("C108","proved","CRef.Fft","C108_agree C108_deviations C108_spied C108_sign_dyn","Keys with squared norm of the orthogonalized vector in (16818, 16822.4121] are not covered (the bound is taken with the worst accumulated rounding). The centres are bounded in C109.")
c("C109","proved","CRef.Fft","C109_agree C109_near C109_centres C109_watched C109_rejection C109_sign_dyn","Same keys as C108 (orthogonalized squared norm at most 16818).")
c("C110","proved","PyFloat","C110_exact C110_logged C110_total C110_preimage C110_run C110_sign_verify","Rounding is any function within 2^-53 relative (2^-200 near zero); 4^k * (largest key coefficient) * (largest draw) is at most 2^40, which leaves room for draws up to 2^15 in dimension 512. The tree is arbitrary (its construction in floating point is not modelled).")
c("C111","proved","FFT","C111_value C111_zero C111_distance C111_ntru_gen","Exact arithmetic; floating-point errors in the test of ntru_gen are not modelled.")
c("C112","proved","FFT","C112_tree C112_calls C112_contract C112_ntru_gen","Exact arithmetic. sigmin is sigma/(1.17 sqrt q) rounded to 17 digits, so sigmin < deviation holds up to 10^-14 only.")
c("C113","proved","CRef.SignTree","C113_size C113_refine C113_dyn C113_degree2 C113_same_deviations C113_deviations C113_logged C113_attempt C113_valid C113_loop C113_sign_tree split4_close merge4_close","Draws above 32768 and vectors beyond 16 bits are excluded by hypothesis, as in C106. The API of nist.c does not call these functions.")
c("C114","proved","CRef.Kg","C114_make_fg C114_plain C114_values","The sizes of MAX_BL_SMALL are heuristic in the C code (averages plus six standard deviations), so that the norms fit them is a hypothesis.")
c("C115","proved","CRef.Kg","C115_deepest","Sizes as in C114; Res(g) = 1 is excluded, where zint_bezout is wrong (C102_one_false).")
c("C116","proved","CRef.SignTree","C116_agree C116_centres C116_watched C116_rejection C116_sign_tree","Key hypotheses as in C109. The API of nist.c does not call these functions.")
c("C117","proved","CRef.Kg","C117_reduce C117_exact C117_ntt C117_ntt_range_false","The multipliers are a parameter; GoodMult states their range. C117_ntt_range_false: at depths up to 4 the range test of the code (up to 2^31-1) is laxer than modp_set needs.")
c("C118","proved","CRef.Kg","C118_intermediate C118_exact","Sizes that fit MAX_BL_SMALL and MAX_BL_LARGE and the range of the multipliers (C117) are hypotheses. The C code uses this function for depths above 1 (and a copy of its first half at depth 1).")
c("C119","proved","CRef.Kg","C119_levels C119_all","Hypotheses as in C115 and C118 at every level, among them that the results fit (FitsAt). For degrees above 4 the code ends with depth1 and depth0, which are not modelled.")
for t in T:
    if t["property"]=="C62": t["theorems"]+=["Verif.Storage.C62_deployed_code","Verif.Storage.C62_half_mul"]
T.sort(key=lambda d:d["property"])
ids=[json.loads(l)["id"] for l in open(os.path.join(os.path.dirname(__file__),"..","properties.jsonl"))]
assert set(d["property"] for d in T)<=set(ids)
json.dump({"claims":T},open(os.path.join(os.path.dirname(__file__),"..","MANIFEST.json"),"w"),indent=1)
print("missing:",[i for i in ids if i not in {d["property"] for d in T}])
