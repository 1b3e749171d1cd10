{
 "claims": [
  {
   "property": "C01",
   "status": "proved",
   "theorems": [
    "Verif.Encoding.decompress_compress"
   ],
   "note": ""
  },
  {
   "property": "C02",
   "status": "proved",
   "theorems": [
    "Verif.Encoding.compress_fits_iff"
   ],
   "note": ""
  },
  {
   "property": "C03",
   "status": "proved",
   "theorems": [
    "Verif.Encoding.decompress_accepts_iff",
    "Verif.Encoding.decompress_zero",
    "Verif.Encoding.decompress_wellformed",
    "Verif.Encoding.decompress_rejects_minus_zero"
   ],
   "note": ""
  },
  {
   "property": "C04",
   "status": "partial",
   "theorems": [
    "Verif.Encoding.decompress_malleable",
    "Verif.Encoding.decompress_tail_ignored",
    "Verif.Encoding.decompress_unique_partial"
   ],
   "note": "False of the code; negation proved with a witness, uniqueness proved for zero tails."
  },
  {
   "property": "C05",
   "status": "partial",
   "theorems": [
    "Verif.Encoding.decompress_raises_iff",
    "Verif.Encoding.decompress_can_raise",
    "Verif.Encoding.decompress_total_partial"
   ],
   "note": "False of the code; exact set of raising inputs proved."
  },
  {
   "property": "C06",
   "status": "proved",
   "theorems": [
    "Verif.Codec.modqEncode_ok_iff",
    "Verif.Codec.modqDecode_ok_iff",
    "Verif.Codec.modqDecode_encode"
   ],
   "note": ""
  },
  {
   "property": "C07",
   "status": "proved",
   "theorems": [
    "Verif.Codec.modqDecode_canonical",
    "Verif.Codec.modqDecode_injective",
    "Verif.Codec.modqDecode_error"
   ],
   "note": ""
  },
  {
   "property": "C08",
   "status": "proved",
   "theorems": [
    "Verif.Codec.modqEncode_error_iff",
    "Verif.Codec.modqEncode_too_long"
   ],
   "note": ""
  },
  {
   "property": "C09",
   "status": "proved",
   "theorems": [
    "Verif.Codec.trimEncode_ok_iff",
    "Verif.Codec.trimDecode_ok_iff",
    "Verif.Codec.trimDecode_encode"
   ],
   "note": ""
  },
  {
   "property": "C10",
   "status": "proved",
   "theorems": [
    "Verif.Codec.trimDecode_canonical",
    "Verif.Codec.trimEncode_error"
   ],
   "note": ""
  },
  {
   "property": "C100",
   "status": "proved",
   "theorems": [
    "Verif.CRef.Fpr.C100_exact",
    "Verif.CRef.Fpr.C100_rational",
    "Verif.CRef.Fpr.C100_sqrt_const",
    "Verif.CRef.Fpr.C100_log",
    "Verif.CRef.Fpr.C100_sigma",
    "Verif.CRef.Fpr.C100_sigma_false"
   ],
   "note": ""
  },
  {
   "property": "C101",
   "status": "proved",
   "theorems": [
    "Verif.CRef.Kg.C101_sub",
    "Verif.CRef.Kg.C101_mul_small",
    "Verif.CRef.Kg.C101_add_mul_small",
    "Verif.CRef.Kg.C101_mod_small",
    "Verif.CRef.Kg.C101_norm_zero",
    "Verif.CRef.Kg.C101_crt",
    "Verif.CRef.Kg.C101_scaled",
    "Verif.CRef.Kg.C101_poly_sub_scaled"
   ],
   "note": ""
  },
  {
   "property": "C102",
   "status": "proved",
   "theorems": [
    "Verif.CRef.Kg.C102_bezout",
    "Verif.CRef.Kg.C102_coprime",
    "Verif.CRef.Kg.C102_unique",
    "Verif.CRef.Kg.C102_one_false"
   ],
   "note": "Soundness of a reported success; that success is always reported for odd coprime inputs is not claimed. C102_one_false is the excluded y = 1."
  },
  {
   "property": "C103",
   "status": "proved",
   "theorems": [
    "Verif.CRef.Fft.C103_fft",
    "Verif.CRef.Fft.C103_const",
    "Verif.CRef.Fft.C103_order_false"
   ],
   "note": "C103_order_false refutes the order of the slots given in the comment of fft.c 145-168; the order actually used is part of C103_fft."
  },
  {
   "property": "C104",
   "status": "proved",
   "theorems": [
    "Verif.CRef.Fft.C104_ifft",
    "Verif.CRef.Fft.C104_roundtrip"
   ],
   "note": ""
  },
  {
   "property": "C105",
   "status": "proved",
   "theorems": [
    "Verif.CRef.Fft.C105_mul"
   ],
   "note": ""
  },
  {
   "property": "C106",
   "status": "proved",
   "theorems": [
    "Verif.CRef.SignDyn.C106_logged",
    "Verif.CRef.SignDyn.C106_attempt",
    "Verif.CRef.SignDyn.C106_valid",
    "Verif.CRef.SignDyn.C106_loop",
    "Verif.CRef.SignDyn.C106_sign_dyn",
    "Verif.CRef.SignDyn.C106_chain16"
   ],
   "note": "The distribution of the signatures is not claimed: the targets and the Gram matrix only influence which integers are drawn. Draws above 32768 and vectors beyond 16 bits (negligible probability) are excluded by hypothesis."
  },
  {
   "property": "C107",
   "status": "proved",
   "theorems": [
    "Verif.CRef.Orth.C107_vector",
    "Verif.CRef.Orth.C107_close",
    "Verif.CRef.Orth.C107_sound",
    "Verif.CRef.Orth.C107_complete",
    "Verif.CRef.Orth.C107_keygen",
    "Verif.CRef.Orth.C107_keypair16"
   ],
   "note": "C107_sound needs f f* + g g* >= 2^-40 at every root; C107_keygen discharges it from the NTRU equation, so the bound holds for every returned key. An example shows the bare test accepts f = g = 0."
  },
  {
   "property": "C108",
   "status": "proved",
   "theorems": [
    "Verif.CRef.Fft.C108_agree",
    "Verif.CRef.Fft.C108_deviations",
    "Verif.CRef.Fft.C108_spied",
    "Verif.CRef.Fft.C108_sign_dyn"
   ],
   "note": "Keys with squared norm of the orthogonalized vector in (16818, 16822.4121] are not covered (the bound is taken with the worst accumulated rounding). The centres are bounded in C109."
  },
  {
   "property": "C109",
   "status": "proved",
   "theorems": [
    "Verif.CRef.Fft.C109_agree",
    "Verif.CRef.Fft.C109_near",
    "Verif.CRef.Fft.C109_centres",
    "Verif.CRef.Fft.C109_watched",
    "Verif.CRef.Fft.C109_rejection",
    "Verif.CRef.Fft.C109_sign_dyn"
   ],
   "note": "Same keys as C108 (orthogonalized squared norm at most 16818)."
  },
  {
   "property": "C11",
   "status": "partial",
   "theorems": [
    "Verif.Codec.fromBytes_ok_iff",
    "Verif.Codec.fromBytes_roundtrip_512",
    "Verif.Codec.fromBytes_never_1024",
    "Verif.Codec.fromBytes_rejects_nist_1024",
    "Verif.Codec.fromBytes_ignores_tail",
    "Verif.Codec.fromBytes_canonical_897",
    "Verif.Codec.fromBytes_encodePublicKey"
   ],
   "note": "Holds for n=512, false for n=1024 (length check off by one); accepted set characterised."
  },
  {
   "property": "C110",
   "status": "proved",
   "theorems": [
    "Verif.PyFloat.C110_exact",
    "Verif.PyFloat.C110_logged",
    "Verif.PyFloat.C110_total",
    "Verif.PyFloat.C110_preimage",
    "Verif.PyFloat.C110_run",
    "Verif.PyFloat.C110_sign_verify"
   ],
   "note": "Rounding is any function within 2^-53 relative (2^-200 near zero); 4^k * (largest key coefficient) * (largest draw) is at most 2^40, which leaves room for draws up to 2^15 in dimension 512. The tree is arbitrary (its construction in floating point is not modelled)."
  },
  {
   "property": "C111",
   "status": "proved",
   "theorems": [
    "Verif.FFT.C111_value",
    "Verif.FFT.C111_zero",
    "Verif.FFT.C111_distance",
    "Verif.FFT.C111_ntru_gen"
   ],
   "note": "Exact arithmetic; floating-point errors in the test of ntru_gen are not modelled."
  },
  {
   "property": "C112",
   "status": "proved",
   "theorems": [
    "Verif.FFT.C112_tree",
    "Verif.FFT.C112_calls",
    "Verif.FFT.C112_contract",
    "Verif.FFT.C112_ntru_gen"
   ],
   "note": "Exact arithmetic. sigmin is sigma/(1.17 sqrt q) rounded to 17 digits, so sigmin < deviation holds up to 10^-14 only."
  },
  {
   "property": "C113",
   "status": "proved",
   "theorems": [
    "Verif.CRef.SignTree.C113_size",
    "Verif.CRef.SignTree.C113_refine",
    "Verif.CRef.SignTree.C113_dyn",
    "Verif.CRef.SignTree.C113_degree2",
    "Verif.CRef.SignTree.C113_same_deviations",
    "Verif.CRef.SignTree.C113_deviations",
    "Verif.CRef.SignTree.C113_logged",
    "Verif.CRef.SignTree.C113_attempt",
    "Verif.CRef.SignTree.C113_valid",
    "Verif.CRef.SignTree.C113_loop",
    "Verif.CRef.SignTree.C113_sign_tree",
    "Verif.CRef.SignTree.split4_close",
    "Verif.CRef.SignTree.merge4_close"
   ],
   "note": "Draws above 32768 and vectors beyond 16 bits are excluded by hypothesis, as in C106. The API of nist.c does not call these functions."
  },
  {
   "property": "C114",
   "status": "proved",
   "theorems": [
    "Verif.CRef.Kg.C114_make_fg",
    "Verif.CRef.Kg.C114_plain",
    "Verif.CRef.Kg.C114_values"
   ],
   "note": "The sizes of MAX_BL_SMALL are heuristic in the C code (averages plus six standard deviations), so that the norms fit them is a hypothesis."
  },
  {
   "property": "C115",
   "status": "proved",
   "theorems": [
    "Verif.CRef.Kg.C115_deepest"
   ],
   "note": "Sizes as in C114; Res(g) = 1 is excluded, where zint_bezout is wrong (C102_one_false)."
  },
  {
   "property": "C116",
   "status": "proved",
   "theorems": [
    "Verif.CRef.SignTree.C116_agree",
    "Verif.CRef.SignTree.C116_centres",
    "Verif.CRef.SignTree.C116_watched",
    "Verif.CRef.SignTree.C116_rejection",
    "Verif.CRef.SignTree.C116_sign_tree"
   ],
   "note": "Key hypotheses as in C109. The API of nist.c does not call these functions."
  },
  {
   "property": "C117",
   "status": "proved",
   "theorems": [
    "Verif.CRef.Kg.C117_reduce",
    "Verif.CRef.Kg.C117_exact",
    "Verif.CRef.Kg.C117_ntt",
    "Verif.CRef.Kg.C117_ntt_range_false"
   ],
   "note": "The multipliers are a parameter; GoodMult states their range. C117_ntt_range_false: at depths up to 4 the range test of the code (up to 2^31-1) is laxer than modp_set needs."
  },
  {
   "property": "C118",
   "status": "proved",
   "theorems": [
    "Verif.CRef.Kg.C118_intermediate",
    "Verif.CRef.Kg.C118_exact"
   ],
   "note": "Sizes that fit MAX_BL_SMALL and MAX_BL_LARGE and the range of the multipliers (C117) are hypotheses. The C code uses this function for depths above 1 (and a copy of its first half at depth 1)."
  },
  {
   "property": "C119",
   "status": "proved",
   "theorems": [
    "Verif.CRef.Kg.C119_levels",
    "Verif.CRef.Kg.C119_all"
   ],
   "note": "Hypotheses as in C115 and C118 at every level, among them that the results fit (FitsAt). For degrees above 4 the code ends with depth1 and depth0, which are not modelled."
  },
  {
   "property": "C12",
   "status": "partial",
   "theorems": [
    "Verif.Codec.decodeSecretKey_roundtrip",
    "Verif.Codec.decodeSecretKey_canonical",
    "Verif.Codec.decodeSecretKey_rejects_encodeSecretKey"
   ],
   "note": "Round trip and canonicity proved for the NIST layout; the repository's own encode_secret_key output is rejected (proved)."
  },
  {
   "property": "C13",
   "status": "proved",
   "theorems": [
    "Verif.Packing.falconCompact_ok_iff",
    "Verif.Packing.falconCompact_injective",
    "Verif.Packing.solExpand_falconCompact",
    "Verif.Packing.solExpand_solCompact",
    "Verif.Packing.solCompact_eq_falconCompact",
    "Verif.Packing.solCompact_solExpand",
    "Verif.Packing.solSwap_eq",
    "Verif.Packing.solSwap_solSwap"
   ],
   "note": ""
  },
  {
   "property": "C14",
   "status": "proved",
   "theorems": [
    "Verif.Packing.merge_eq",
    "Verif.Packing.merge_split",
    "Verif.Packing.split_merge",
    "Verif.Packing.merge_split_odd",
    "Verif.Packing.merge_error_iff",
    "Verif.Packing.sqnorm_eq"
   ],
   "note": ""
  },
  {
   "property": "C15",
   "status": "proved",
   "theorems": [
    "Verif.Ring.ntruSolve_correct",
    "Verif.Ring.ntruSolve_coeffs"
   ],
   "note": ""
  },
  {
   "property": "C16",
   "status": "proved",
   "theorems": [
    "Verif.Ring.ntruSolve_fails",
    "Verif.Ring.ntruSolve_succeeds",
    "Verif.Ring.ntruSolve_one"
   ],
   "note": "For n>=2 the gcd of the resultants decides; the n=1 case (sign matters) is characterised separately. The Babai loop's own termination is not modelled (arbitrary float oracle)."
  },
  {
   "property": "C17",
   "status": "proved",
   "theorems": [
    "Verif.Ring.karamul_eq_schoolbook",
    "Verif.Ring.karamul_negEq",
    "Verif.Ring.karatsuba_eq_mul",
    "Verif.Ring.karamul_comm",
    "Verif.Ring.karamul_assoc"
   ],
   "note": ""
  },
  {
   "property": "C18",
   "status": "proved",
   "theorems": [
    "Verif.Ring.fieldNorm_negEq",
    "Verif.Ring.fieldNorm_unique",
    "Verif.Ring.fieldNorm_mul",
    "Verif.Ring.lift_eq",
    "Verif.Ring.galois_eq"
   ],
   "note": ""
  },
  {
   "property": "C19",
   "status": "proved",
   "theorems": [
    "Verif.Ring.xgcd_spec",
    "Verif.Ring.xgcd_sign",
    "Verif.Ring.xgcd_nonneg",
    "Verif.Ring.xgcd_fuel"
   ],
   "note": ""
  },
  {
   "property": "C20",
   "status": "proved",
   "theorems": [
    "Verif.Ring.bitsize_spec",
    "Verif.Ring.bitsize_mono"
   ],
   "note": ""
  },
  {
   "property": "C21",
   "status": "proved",
   "theorems": [
    "Verif.Ring.reduce_lattice",
    "Verif.Ring.reduce_invariant"
   ],
   "note": ""
  },
  {
   "property": "C22",
   "status": "proved",
   "theorems": [
    "Verif.Hash.C22_point",
    "Verif.Hash.C22_shake",
    "Verif.Hash.C22_shake_total",
    "Verif.Hash.C22_keccak",
    "Verif.Hash.C22_blake2s",
    "Verif.Hash.C22_keccak_long"
   ],
   "note": "Termination of rejection sampling is a property of the stream: the theorems are iff statements with the existence of n accepted words."
  },
  {
   "property": "C23",
   "status": "proved",
   "theorems": [
    "Verif.Hash.C23_concat",
    "Verif.Hash.C23_injective",
    "Verif.Hash.C23_ambiguous"
   ],
   "note": ""
  },
  {
   "property": "C24",
   "status": "proved",
   "theorems": [
    "Verif.Hash.C24_evm",
    "Verif.Hash.C24_evm_conv",
    "Verif.Hash.C24_nist",
    "Verif.Hash.C24_tetration",
    "Verif.Hash.C24_evm_shape",
    "Verif.Hash.C24_nist_shape"
   ],
   "note": ""
  },
  {
   "property": "C25",
   "status": "proved",
   "theorems": [
    "Verif.Falcon.C25_accepts_iff",
    "Verif.Falcon.C25_rejects_iff",
    "Verif.Falcon.C25_lengths"
   ],
   "note": "polyntt (not in the repository) enters as any library satisfying Arith; lib shows one exists."
  },
  {
   "property": "C26",
   "status": "partial",
   "theorems": [
    "Verif.Falcon.C26_header_ignored",
    "Verif.Falcon.C26_tail_ignored",
    "Verif.Falcon.C26_canonical_partial",
    "Verif.Falcon.C26_witness"
   ],
   "note": "False of the code (witness and general malleability proved); true for equal headers, lengths and zero tails."
  },
  {
   "property": "C27",
   "status": "proved",
   "theorems": [
    "Verif.Falcon.C27_sign_verify",
    "Verif.Falcon.C27_generated_key"
   ],
   "note": "int(round(ifft(...))) in sample_preimage is exact here; C110 proves that floating point gives the same integers."
  },
  {
   "property": "C28",
   "status": "proved",
   "theorems": [
    "Verif.Falcon.C28_format"
   ],
   "note": ""
  },
  {
   "property": "C29",
   "status": "proved",
   "theorems": [
    "Verif.Falcon.C29_first_good"
   ],
   "note": ""
  },
  {
   "property": "C30",
   "status": "partial",
   "theorems": [
    "Verif.Contract.C30_accepts_iff",
    "Verif.Contract.C30_every_key",
    "Verif.Contract.C30_every_signature",
    "Verif.Contract.C30_universal_forgery",
    "Verif.Contract.C30_false",
    "Verif.Contract.C30_verify_false"
   ],
   "note": "False of the code: the accepted set is characterised exactly, and for every invertible key and every hash a signature of norm above the bound is accepted (proved). Memory addresses of the arrays are modelled by the allocation order."
  },
  {
   "property": "C31",
   "status": "proved",
   "theorems": [
    "Verif.Contract.C31_core",
    "Verif.Contract.C31_evm",
    "Verif.Contract.C31_nist",
    "Verif.Contract.C31_boundary"
   ],
   "note": "Strictness of the bound is necessary (C31_boundary)."
  },
  {
   "property": "C32",
   "status": "proved",
   "theorems": [
    "Verif.NTT.C32_forward",
    "Verif.NTT.C32_inverse_forward",
    "Verif.NTT.C32_round_trip",
    "Verif.NTT.C32_forward_inverse",
    "Verif.NTT.C32_inverse_reduced",
    "Verif.NTT.C32_stateless"
   ],
   "note": ""
  },
  {
   "property": "C33",
   "status": "proved",
   "theorems": [
    "Verif.NTT.C33_mul_NTTPoly",
    "Verif.NTT.C33_halfmul_compact",
    "Verif.NTT.C33_every_key"
   ],
   "note": ""
  },
  {
   "property": "C34",
   "status": "proved",
   "theorems": [
    "Verif.NTT.C34_forward_tables",
    "Verif.NTT.C34_inverse_tables",
    "Verif.NTT.C34_lengths",
    "Verif.NTT.C34_primitive",
    "Verif.NTT.C34_roots"
   ],
   "note": ""
  },
  {
   "property": "C35",
   "status": "partial",
   "theorems": [
    "Verif.SolSig.decompressSig_ok_iff",
    "Verif.SolSig.contract_accepts_python",
    "Verif.SolSig.contract_reads_compress",
    "Verif.SolSig.contract_accepts_minus_zero",
    "Verif.SolSig.python_accepts_contract_partial",
    "Verif.SolSig.contract_reads_past_end",
    "Verif.SolSig.decompressSig_error"
   ],
   "note": "First half proved; second half false (negative zero, foreign memory), proved with witnesses."
  },
  {
   "property": "C36",
   "status": "proved",
   "theorems": [
    "Verif.Codec.solDecompress_eq_modqDecode",
    "Verif.Codec.solDecompress_roundtrip"
   ],
   "note": ""
  },
  {
   "property": "C37",
   "status": "partial",
   "theorems": [
    "Verif.Contract.C37_residues_only",
    "Verif.Contract.C37_malleable",
    "Verif.Contract.C37_trailing_bytes",
    "Verif.Contract.C37_reduced_unique_partial"
   ],
   "note": "False of the code (proved for every signature); unique among reduced encodings."
  },
  {
   "property": "C38",
   "status": "proved",
   "theorems": [
    "Verif.Contract.C38_reverts_iff",
    "Verif.Contract.C38_returns",
    "Verif.Contract.C38_fmp",
    "Verif.Contract.C38_abi",
    "Verif.Contract.C38_packed",
    "Verif.Contract.C38_packed_reverts",
    "Verif.Contract.C38_core_lengths",
    "Verif.Contract.C38_abi_iff",
    "Verif.Contract.C38_pack_error",
    "Verif.Contract.C38_pack_layout"
   ],
   "note": ""
  },
  {
   "property": "C39",
   "status": "partial",
   "theorems": [
    "Verif.Epervier.C39_recover_iff",
    "Verif.Epervier.C39_unique",
    "Verif.Epervier.C39_evm",
    "Verif.Epervier.C39_nist",
    "Verif.Epervier.C39_wraps_iff",
    "Verif.Epervier.C39_false",
    "Verif.Epervier.C39_norm_not_enforced",
    "Verif.Epervier.C39_evm_nonvacuous"
   ],
   "note": "The accepted set is characterised exactly; the claim holds when no field of s1 exceeds 12289 and fails otherwise (subtraction wraps modulo 2^256), proved both ways."
  },
  {
   "property": "C40",
   "status": "proved",
   "theorems": [
    "Verif.Epervier.C40_sign_iff",
    "Verif.Epervier.C40_sign_recover",
    "Verif.Epervier.C40_epervier",
    "Verif.Epervier.C40_recovery",
    "Verif.Epervier.C40_signs",
    "Verif.Epervier.toyRecover"
   ],
   "note": "sample_preimage with exact rounding, polyntt as any lawful library."
  },
  {
   "property": "C41",
   "status": "partial",
   "theorems": [
    "Verif.Epervier.C41_recover_iff",
    "Verif.Epervier.C41_verify_iff",
    "Verif.Epervier.C41_nonzero_partial",
    "Verif.Epervier.C41_false"
   ],
   "note": "True for public keys other than 0; false for 0 (proved)."
  },
  {
   "property": "C42",
   "status": "proved",
   "theorems": [
    "Verif.Keccak.C42_python",
    "Verif.Keccak.C42_contract",
    "Verif.Keccak.C42_agree"
   ],
   "note": ""
  },
  {
   "property": "C43",
   "status": "proved",
   "theorems": [
    "Verif.Keccak.C43_absorb_chunks",
    "Verif.Keccak.C43_python",
    "Verif.Keccak.C43_contract",
    "Verif.Keccak.C43_digest",
    "Verif.Keccak.C43_agree",
    "Verif.Keccak.C43_read_split",
    "Verif.Keccak.C43_length"
   ],
   "note": ""
  },
  {
   "property": "C44",
   "status": "proved",
   "theorems": [
    "Verif.Hash.C44_inject_iff",
    "Verif.Hash.C44_stream",
    "Verif.Hash.C44_chunks",
    "Verif.Hash.C44_inject_after_flip",
    "Verif.Hash.C44_double_flip",
    "Verif.Hash.C44_extract_before_flip",
    "Verif.Hash.C44_exhausted",
    "Verif.Hash.C44_counter_injective"
   ],
   "note": ""
  },
  {
   "property": "C45",
   "status": "partial",
   "theorems": [
    "Verif.Hash.C45_stream_partial",
    "Verif.Hash.C45_update",
    "Verif.Hash.C45_shifted",
    "Verif.Hash.C45_not_separated",
    "Verif.Hash.C45_prng_separated",
    "Verif.Hash.C45_update_after_read"
   ],
   "note": "Determinism proved; separation is false of the code (proved)."
  },
  {
   "property": "C46",
   "status": "proved",
   "theorems": [
    "Verif.Sampler.C46_base_range",
    "Verif.Sampler.C46_base_law",
    "Verif.Sampler.C46_base_monotone",
    "Verif.Sampler.C46_base_count",
    "Verif.Sampler.C46_berexp_law",
    "Verif.Sampler.C46_exponent",
    "Verif.Sampler.C46_range",
    "Verif.Sampler.C46_no_error"
   ],
   "note": "Floating-point numbers are exact rationals."
  },
  {
   "property": "C47",
   "status": "proved",
   "theorems": [
    "Verif.Sampler.C47_draw",
    "Verif.Sampler.C47_magnitude",
    "Verif.Sampler.C47_mkgauss",
    "Verif.Sampler.C47_poly"
   ],
   "note": ""
  },
  {
   "property": "C48",
   "status": "proved",
   "theorems": [
    "Verif.Rng.C48_block",
    "Verif.Rng.C48_stream",
    "Verif.Rng.C48_no_reuse",
    "Verif.Rng.C48_length",
    "Verif.Rng.C48_inputs_distinct",
    "Verif.Rng.C48_wrap_false"
   ],
   "note": "Up to the end of the 64-bit block counter; past it the stream is not ChaCha20 (C48_wrap_false)."
  },
  {
   "property": "C49",
   "status": "proved",
   "theorems": [
    "Verif.Rng.C49_init",
    "Verif.Rng.C49_generate",
    "Verif.Rng.C49_history",
    "Verif.Rng.C49_exhausted",
    "Verif.Rng.C49_no_counter_reuse",
    "Verif.Rng.C49_blocks_used"
   ],
   "note": "For every block cipher with 16-byte blocks (AES itself is not in the repository)."
  },
  {
   "property": "C50",
   "status": "partial",
   "theorems": [
    "Verif.Cli.C50_public_bytes",
    "Verif.Cli.C50_reads",
    "Verif.Cli.C50_stream",
    "Verif.Cli.C50_recover_seeds",
    "Verif.Cli.C50_plain_seeds",
    "Verif.Cli.C50_last_block",
    "Verif.Cli.C50_hash_data_false",
    "Verif.Cli.C50_distinct_salts_false",
    "Verif.Cli.C50_short_data_false",
    "Verif.Cli.C50_salt_public"
   ],
   "note": "As stated it is false: the theorems give the exact stream (unflipped sponge), show that for 512-coefficient keys data differing only in the last byte of 32 share salt and seeds, that short data leave the first salt bytes constant, and that salt and seeds depend on the public key and data only."
  },
  {
   "property": "C51",
   "status": "proved",
   "theorems": [
    "Verif.Cli.C51_public_key",
    "Verif.Cli.C51_secret_key",
    "Verif.Cli.C51_signature",
    "Verif.Cli.C51_public_injective",
    "Verif.Cli.C51_genkeys",
    "Verif.Cli.C51_genkeys_unknown"
   ],
   "note": "Text of the files at character level; literal_eval restricted to integers and flat integer lists."
  },
  {
   "property": "C52",
   "status": "proved",
   "theorems": [
    "Verif.Cli.C52_range",
    "Verif.Cli.C52_injective",
    "Verif.Cli.C52_layout",
    "Verif.Cli.C52_hash",
    "Verif.Cli.C52_collision"
   ],
   "note": ""
  },
  {
   "property": "C53",
   "status": "partial",
   "theorems": [
    "Verif.Cli.C53_same_hash",
    "Verif.Cli.C53_which_hash",
    "Verif.Cli.C53_falconrec_false",
    "Verif.Cli.C53_falcon",
    "Verif.Cli.C53_epervier",
    "Verif.Cli.C53_sign_tx_false",
    "Verif.Cli.C53_sign_tx_hash_false",
    "Verif.Cli.C53_recover_send_false",
    "Verif.Cli.C53_verify_send"
   ],
   "note": "True for falcon, ethfalcon and epervier (proved end to end on the files); false for falconrec, whose verification always raises. sign_tx and recoveronchainsend always raise."
  },
  {
   "property": "C54",
   "status": "partial",
   "theorems": [
    "Verif.Storage.C54_last_update",
    "Verif.Storage.C54_partial",
    "Verif.Storage.C54_false",
    "Verif.Storage.C54_observable"
   ],
   "note": "false as stated: the guard is inverted, every update by anybody succeeds before and after make_immutable; exact law of the storage over all histories, and that it only changes by update"
  },
  {
   "property": "C55",
   "status": "proved",
   "theorems": [
    "Verif.Storage.C55_creation_code",
    "Verif.Storage.C55_write_read",
    "Verif.Storage.C55_write_succeeds",
    "Verif.Storage.C55_write_too_long",
    "Verif.Storage.C55_write_error",
    "Verif.Storage.C55_stable",
    "Verif.Storage.C55_inert",
    "Verif.Storage.C55_read_range",
    "Verif.Storage.C55_read_from",
    "Verif.Storage.C55_unwritten",
    "Verif.Storage.C55_key",
    "Verif.Storage.C55_setKey_succeeds",
    "Verif.Storage.C55_no_key",
    "Verif.Storage.C55_short_key_reads_on"
   ],
   "note": "the creation code is run by a small EVM model; addresses of creations are a parameter; gas not modelled"
  },
  {
   "property": "C56",
   "status": "proved",
   "theorems": [
    "Verif.FFT.C56_fft_evaluates",
    "Verif.FFT.C56_roots",
    "Verif.FFT.C56_ifft_fft",
    "Verif.FFT.C56_fft_ifft",
    "Verif.FFT.C56_split_merge",
    "Verif.FFT.C56_splitFft_mergeFft",
    "Verif.FFT.C56_splitFft_fft",
    "Verif.FFT.C56_mul",
    "Verif.FFT.C56_adj",
    "Verif.FFT.C56_div",
    "Verif.FFT.C56_parseval",
    "Verif.FFT.C56_fft_lengths",
    "Verif.FFT.C56_truncation_false",
    "Verif.FFT.C56_tables_exist",
    "Verif.FFT.C56_tables_close"
   ],
   "note": "exact arithmetic over any field with conjugation; rounding is not modelled; the tables are shown to be within 5e-15 of exact ones. Finding: over-long inputs are silently cut."
  },
  {
   "property": "C57",
   "status": "proved",
   "theorems": [
    "Verif.FFT.C57_ldl_fft",
    "Verif.FFT.C57_ldl_fft_error",
    "Verif.FFT.C57_ldl",
    "Verif.FFT.C57_ldl_error",
    "Verif.FFT.C57_gram"
   ],
   "note": "exact arithmetic"
  },
  {
   "property": "C58",
   "status": "proved",
   "theorems": [
    "Verif.FFT.C58_ffsampling",
    "Verif.FFT.C58_ffnp_fft",
    "Verif.FFT.C58_ffnp"
   ],
   "note": "exact arithmetic, every leaf sampler"
  },
  {
   "property": "C59",
   "status": "proved",
   "theorems": [
    "Verif.Falcon.C59_public_key",
    "Verif.Falcon.C59_keygen",
    "Verif.Falcon.C59_ntru_gen",
    "Verif.Falcon.C59_no_division_error"
   ],
   "note": ""
  },
  {
   "property": "C60",
   "status": "partial",
   "theorems": [
    "Verif.SolSig.decompressKAT_roundtrip",
    "Verif.SolSig.decompressKAT_ok_iff",
    "Verif.SolSig.decompressKAT_ignores_length"
   ],
   "note": "Round trip and exact acceptance condition proved; rejection of disagreeing lengths is false (proved)."
  },
  {
   "property": "C61",
   "status": "proved",
   "theorems": [
    "Verif.Blake.C61_mix_bijective",
    "Verif.Blake.C61_compress",
    "Verif.Blake.C61_hash",
    "Verif.Blake.C61_words_injective",
    "Verif.Blake.C61_bytes_injective",
    "Verif.Blake.C61_default",
    "Verif.Blake.C61_modes_false"
   ],
   "note": "equal to RFC 7693 below 2^32 bytes (the high word of the counter is never set); across modes injectivity is false (C61_modes_false)"
  },
  {
   "property": "C62",
   "status": "partial",
   "theorems": [
    "Verif.NTT.C62_deploy_layout",
    "Verif.NTT.C62_stateful_partial",
    "Verif.NTT.C62_false",
    "Verif.NTT.C62_witness",
    "Verif.Storage.C62_deployed_code",
    "Verif.Storage.C62_half_mul"
   ],
   "note": "False of the code with the deployment script's tables (proved for every input); true with 32 bytes per entry."
  },
  {
   "property": "C63",
   "status": "partial",
   "theorems": [
    "Verif.Contract.C63_range_iff",
    "Verif.Contract.C63_false"
   ],
   "note": "False of the code (witness); the predicate it does decide is proved."
  },
  {
   "property": "C64",
   "status": "partial",
   "theorems": [
    "Verif.Epervier.C64_hint_malleable",
    "Verif.Epervier.C64_s2_malleable",
    "Verif.Epervier.C64_s1_malleable",
    "Verif.Epervier.C64_malleable"
   ],
   "note": "False of the code; the malleations are proved for every accepted call."
  },
  {
   "property": "C65",
   "status": "proved",
   "theorems": [
    "Verif.Epervier.C65_nist",
    "Verif.Epervier.C65_evm",
    "Verif.Epervier.C65_lib",
    "Verif.Epervier.recover_exists"
   ],
   "note": ""
  },
  {
   "property": "C66",
   "status": "proved",
   "theorems": [
    "Verif.NTT.C66_half_mul",
    "Verif.NTT.C66_reverts",
    "Verif.NTT.C66_vec"
   ],
   "note": ""
  },
  {
   "property": "C67",
   "status": "proved",
   "theorems": [
    "Verif.Falcon.C67_params",
    "Verif.Falcon.C67_domain",
    "Verif.Falcon.C67_contract"
   ],
   "note": ""
  },
  {
   "property": "C68",
   "status": "proved",
   "theorems": [
    "Verif.Sampler.C68_rcdt",
    "Verif.Sampler.C68_gauss",
    "Verif.Sampler.C68_gauss_zero",
    "Verif.Sampler.C68_base_prob"
   ],
   "note": ""
  },
  {
   "property": "C69",
   "status": "proved",
   "theorems": [
    "Verif.Sampler.C69_threshold",
    "Verif.Sampler.C69_berexp",
    "Verif.Sampler.C69_in_range",
    "Verif.Sampler.C69_trial_law",
    "Verif.Sampler.C69_loop"
   ],
   "note": "Floating-point numbers are exact rationals."
  },
  {
   "property": "C70",
   "status": "proved",
   "theorems": [
    "Verif.FFT.C70_norm",
    "Verif.FFT.C70_preimage"
   ],
   "note": "exact arithmetic over the complex numbers"
  },
  {
   "property": "C71",
   "status": "proved",
   "theorems": [
    "Verif.FFT.C71_key_setup"
   ],
   "note": "exact arithmetic over the complex numbers"
  },
  {
   "property": "C72",
   "status": "proved",
   "theorems": [
    "Verif.FFT.C72_ffldl",
    "Verif.FFT.C72_ffnp"
   ],
   "note": "exact arithmetic"
  },
  {
   "property": "C73",
   "status": "proved",
   "theorems": [
    "Verif.Tetration.C73_inverse_table",
    "Verif.Tetration.C73_transforms",
    "Verif.Tetration.C73_roundtrip",
    "Verif.Tetration.C73_mul",
    "Verif.Tetration.C73_mul_opt",
    "Verif.Tetration.C73_mul_opt_any",
    "Verif.Tetration.C73_domain_forward",
    "Verif.Tetration.C73_domain_inverse",
    "Verif.Tetration.C73_add",
    "Verif.Tetration.C73_sub"
   ],
   "note": "Exact domains included; nTT silently truncates lengths in [2^k, 1.5*2^k)."
  },
  {
   "property": "C74",
   "status": "proved",
   "theorems": [
    "Verif.Tetration.C74_accepts_iff",
    "Verif.Tetration.C74_otherwise_reverts",
    "Verif.Tetration.C74_nttpub",
    "Verif.Tetration.C74_malleable",
    "Verif.Tetration.C74_other_representative"
   ],
   "note": "Also shows malleability: each coefficient has another accepted representative."
  },
  {
   "property": "C75",
   "status": "partial",
   "theorems": [
    "Verif.Tetration.C75_resplit",
    "Verif.Tetration.C75_false",
    "Verif.Tetration.C75_fixed_length_partial",
    "Verif.Tetration.C75_python"
   ],
   "note": "False of the code: only message||salt is hashed, so the boundary can be moved; holds for messages of equal length. C75_python: a Python signature with KeccaXof is accepted for every split."
  },
  {
   "property": "C76",
   "status": "proved",
   "theorems": [
    "Verif.CRef.C76_field",
    "Verif.CRef.C76_div",
    "Verif.CRef.C76_tables",
    "Verif.CRef.C76_inverse",
    "Verif.CRef.C76_product",
    "Verif.CRef.C76_contract"
   ],
   "note": "all sizes up to 1024"
  },
  {
   "property": "C77",
   "status": "proved",
   "theorems": [
    "Verif.CRef.C77_verify_raw",
    "Verif.CRef.C77_is_short",
    "Verif.CRef.C77_is_short_half",
    "Verif.CRef.C77_bounds"
   ],
   "note": "for all int16 vectors"
  },
  {
   "property": "C78",
   "status": "proved",
   "theorems": [
    "Verif.CRef.C78_comp_decode16",
    "Verif.CRef.C78_comp_encode16",
    "Verif.CRef.C78_roundtrip",
    "Verif.CRef.C78_boundary_false",
    "Verif.CRef.C78_malleable"
   ],
   "note": "The format does not round trip for coefficient 2047 and is malleable: shown with witnesses"
  },
  {
   "property": "C79",
   "status": "proved",
   "theorems": [
    "Verif.CRef.C79_modq_encode",
    "Verif.CRef.C79_modq_decode",
    "Verif.CRef.C79_modq_python",
    "Verif.CRef.C79_trim",
    "Verif.CRef.C79_comp_encode",
    "Verif.CRef.C79_comp_decode",
    "Verif.CRef.C79_comp_roundtrip",
    "Verif.CRef.C79_comp_unique",
    "Verif.CRef.C79_comp_python"
   ],
   "note": "32-bit accumulators modelled with wraparound"
  },
  {
   "property": "C80",
   "status": "proved",
   "theorems": [
    "Verif.CRef.C80_keccak256_pieces",
    "Verif.CRef.C80_keccak256",
    "Verif.CRef.C80_inject",
    "Verif.CRef.C80_stream",
    "Verif.CRef.C80_python_stream",
    "Verif.CRef.C80_misuse",
    "Verif.CRef.C80_hash_to_point",
    "Verif.CRef.C80_contract",
    "Verif.CRef.C80_python_point"
   ],
   "note": "size parameter of keccak_update is 16 bits: reported as truncation"
  },
  {
   "property": "C81",
   "status": "proved",
   "theorems": [
    "Verif.CRef.C81_open16",
    "Verif.CRef.C81_open14"
   ],
   "note": "both formats, both hash variants; the hash and the codec parts are C78-C80, C86"
  },
  {
   "property": "C82",
   "status": "partial",
   "theorems": [
    "Verif.CRef.C82_agree",
    "Verif.CRef.C82_signer_false",
    "Verif.CRef.C82_verifier_false"
   ],
   "note": "false of the Keccak variant for nonce and message above 4096 bytes: negation proved; the rest proved"
  },
  {
   "property": "C83",
   "status": "partial",
   "theorems": [
    "Verif.CRef.C83_unique14",
    "Verif.CRef.C83_malleable"
   ],
   "note": "holds of the NIST format; false of the 16-bit format: negation proved for every accepted message with a negative coefficient"
  },
  {
   "property": "C84",
   "status": "partial",
   "theorems": [
    "Verif.CRef.C84_open",
    "Verif.CRef.C84_complete",
    "Verif.CRef.C84_pk",
    "Verif.CRef.C84_sign_open",
    "Verif.CRef.C84_hint_false",
    "Verif.CRef.C84_memory_false",
    "Verif.CRef.C84_pk_twice_false"
   ],
   "note": "accepted set proved; false parts (hint, memory behind the input, double transform) proved as negations"
  },
  {
   "property": "C85",
   "status": "proved",
   "theorems": [
    "Verif.CRef.C85_is_invertible",
    "Verif.CRef.C85_compute_public",
    "Verif.CRef.C85_complete_private",
    "Verif.CRef.C85_recover",
    "Verif.CRef.C85_hint",
    "Verif.CRef.C85_hint_contract",
    "Verif.CRef.C85_count"
   ],
   "note": "is_invertible, hint and count for coefficients of absolute value at most q (the reduction is wrong outside); recovery for all int16"
  },
  {
   "property": "C86",
   "status": "proved",
   "theorems": [
    "Verif.CRef.C86_permutation",
    "Verif.CRef.C86_stream",
    "Verif.CRef.C86_hash_to_point",
    "Verif.CRef.C86_python",
    "Verif.CRef.C86_contract"
   ],
   "note": "every statement of process_block transcribed"
  },
  {
   "property": "C87",
   "status": "proved",
   "theorems": [
    "Verif.CRef.C87_private_key",
    "Verif.CRef.C87_keypair16",
    "Verif.CRef.C87_keypair14",
    "Verif.CRef.C87_sign_open16",
    "Verif.CRef.C87_sign_open14",
    "Verif.CRef.C87_chain16"
   ],
   "note": "the lattice signer (floating point) is a parameter with its contract as hypothesis"
  },
  {
   "property": "C88",
   "status": "partial",
   "theorems": [
    "Verif.CRef.C88_contract_accepts",
    "Verif.CRef.C88_converse_false"
   ],
   "note": "one direction proved; the converse is false, negation proved"
  },
  {
   "property": "C89",
   "status": "proved",
   "theorems": [
    "Verif.CRef.C89_constant_time",
    "Verif.CRef.C89_space",
    "Verif.CRef.C89_failure",
    "Verif.CRef.C89_count"
   ],
   "note": "three arrays as one list"
  },
  {
   "property": "C90",
   "status": "proved",
   "theorems": [
    "Verif.CRef.Kg.C90_check",
    "Verif.CRef.Kg.C90_solve",
    "Verif.CRef.Kg.C90_mkgauss",
    "Verif.CRef.Kg.C90_round",
    "Verif.CRef.Kg.C90_keygen"
   ],
   "note": "the bignum solver and the floating-point orthogonalisation test are parameters with no assumption but 31-bit words"
  },
  {
   "property": "C91",
   "status": "proved",
   "theorems": [
    "Verif.CRef.Kg.C91_primes",
    "Verif.CRef.Kg.C91_arith",
    "Verif.CRef.Kg.C91_ntt"
   ],
   "note": "primality by Lucas certificates checked in the kernel"
  },
  {
   "property": "C92",
   "status": "proved",
   "theorems": [
    "Verif.CRef.Kg.C92_stream",
    "Verif.CRef.Kg.C92_keypair16",
    "Verif.CRef.Kg.C92_keypair14",
    "Verif.CRef.Kg.C92_agree"
   ],
   "note": "solver and floating-point test are parameters"
  },
  {
   "property": "C93",
   "status": "proved",
   "theorems": [
    "Verif.CRef.Kg.C93_table",
    "Verif.CRef.Kg.C93_draw",
    "Verif.CRef.Kg.C93_value",
    "Verif.CRef.Kg.C93_law",
    "Verif.CRef.Kg.C93_gaussian",
    "Verif.CRef.Kg.C93_python"
   ],
   "note": "both models on the same source"
  },
  {
   "property": "C94",
   "status": "partial",
   "theorems": [
    "Verif.Geth.C94_accept",
    "Verif.Geth.C94_output",
    "Verif.Geth.C94_determined",
    "Verif.Geth.C94_verify",
    "Verif.Geth.C94_verify_other",
    "Verif.Geth.C94_keypair",
    "Verif.Geth.C94_roundtrip",
    "Verif.Geth.C94_sign_short",
    "Verif.Geth.C94_panic_false",
    "Verif.Geth.C94_overflow_false",
    "Verif.Geth.C94_crash_false",
    "Verif.Geth.C94_corrupt_false",
    "Verif.Geth.C94_short_key_false",
    "Verif.Geth.C94_sign_long_false",
    "Verif.Geth.C94_attack_false"
   ],
   "note": "Proved for keys of at least 897 bytes, non-empty signatures and messages of at most 1024 bytes; false of the code otherwise, the negations are proved. ABI decoding is a parameter."
  },
  {
   "property": "C95",
   "status": "partial",
   "theorems": [
    "Verif.CRef.Prng.block_spec",
    "Verif.CRef.Prng.C95_init",
    "Verif.CRef.Prng.C95_stream",
    "Verif.CRef.Prng.C95_no_reuse",
    "Verif.CRef.Prng.C95_attempts",
    "Verif.CRef.Prng.C95_python_partial",
    "Verif.CRef.Prng.C95_python_false",
    "Verif.CRef.Prng.C95_get_bytes_false"
   ],
   "note": "The stream, no-reuse and seeding claims are proved for every history; equality with Python is proved for the histories that avoid one position and is false of the code there, the negation is proved."
  },
  {
   "property": "C96",
   "status": "proved",
   "theorems": [
    "Verif.CRef.Aes.C96_aes",
    "Verif.CRef.Kat.C96_python",
    "Verif.CRef.Kat.C96_randombytes",
    "Verif.CRef.Kat.C96_history",
    "Verif.CRef.Kat.C96_init",
    "Verif.CRef.Kat.C96_unseeded",
    "Verif.CRef.Kat.C96_seedexpander",
    "Verif.CRef.Kat.C96_last_byte_false"
   ],
   "note": "last byte of the seed expander's allowance: the negation is proved"
  },
  {
   "property": "C97",
   "status": "partial",
   "theorems": [
    "Verif.CRef.Kat.C97_keypair_false",
    "Verif.CRef.Kat.C97_sign_false",
    "Verif.CRef.Kat.C97_first_key",
    "Verif.CRef.Kat.C97_first_nonce"
   ],
   "note": "False of the code; the exact dependence on the earlier calls is proved."
  },
  {
   "property": "C98",
   "status": "proved",
   "theorems": [
    "Verif.CRef.SignSampler.C98_gaussian0",
    "Verif.CRef.SignSampler.C98_threshold",
    "Verif.CRef.SignSampler.C98_berexp",
    "Verif.CRef.SignSampler.C98_sampler",
    "Verif.CRef.SignSampler.C98_scale_one_false"
   ],
   "note": "the loop of sampler has fuel; C98_scale_one_false is the excluded scaling factor 1"
  },
  {
   "property": "C99",
   "status": "proved",
   "theorems": [
    "Verif.CRef.Fpr.C99_add",
    "Verif.CRef.Fpr.C99_add_zero",
    "Verif.CRef.Fpr.C99_sub",
    "Verif.CRef.Fpr.C99_neg",
    "Verif.CRef.Fpr.C99_mul",
    "Verif.CRef.Fpr.C99_div",
    "Verif.CRef.Fpr.C99_inv",
    "Verif.CRef.Fpr.C99_sqrt",
    "Verif.CRef.Fpr.C99_scaled",
    "Verif.CRef.Fpr.C99_of",
    "Verif.CRef.Fpr.C99_rint",
    "Verif.CRef.Fpr.C99_trunc",
    "Verif.CRef.Fpr.C99_floor",
    "Verif.CRef.Fpr.C99_floor_false",
    "Verif.CRef.Fpr.C99_half",
    "Verif.CRef.Fpr.C99_half_false",
    "Verif.CRef.Fpr.C99_double",
    "Verif.CRef.Fpr.C99_lt",
    "Verif.CRef.Fpr.C99_lt_false",
    "Verif.CRef.Fpr.rnd_nearest"
   ],
   "note": "rnd_nearest shows that the specification rnd is the nearest 53-bit number."
  }
 ]
}