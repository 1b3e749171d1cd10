# Axioms of every theorem of MANIFEST.json (output of tools/axioms.py)

## propext (17)

`Verif.Hash.C23_injective`, `Verif.NTT.C34_forward_tables`, `Verif.NTT.C34_inverse_tables`, `Verif.Contract.C38_reverts_iff`, `Verif.Contract.C38_core_lengths`, `Verif.Hash.C45_prng_separated`, `Verif.Rng.C49_exhausted`, `Verif.Storage.C54_observable`, `Verif.Storage.C55_unwritten`, `Verif.Storage.C55_no_key`, `Verif.Blake.C61_modes_false`, `Verif.NTT.C62_deploy_layout`, `Verif.Falcon.C67_domain`, `Verif.Tetration.C73_mul_opt`, `Verif.Tetration.C75_resplit`, `Verif.Tetration.C75_false`, `Verif.Tetration.C75_fixed_length_partial`

## no axiom (6)

`Verif.NTT.C34_lengths`, `Verif.Hash.C44_inject_after_flip`, `Verif.Hash.C44_double_flip`, `Verif.Hash.C45_update`, `Verif.Falcon.C67_contract`, `Verif.CRef.Kg.C93_table`

## Quot.sound (1)

`Verif.Contract.C38_pack_error`

## propext, Quot.sound (54)

`Verif.Encoding.decompress_zero`, `Verif.CRef.Kg.C102_one_false`, `Verif.CRef.Fft.C103_const`, `Verif.CRef.SignDyn.C106_logged`, `Verif.CRef.Fft.C108_spied`, `Verif.CRef.Fft.C109_watched`, `Verif.CRef.SignTree.C113_dyn`, `Verif.CRef.SignTree.C113_logged`, `Verif.Codec.decodeSecretKey_rejects_encodeSecretKey`, `Verif.Packing.solSwap_eq`, `Verif.Packing.solSwap_solSwap`, `Verif.Packing.merge_error_iff`, `Verif.Packing.sqnorm_eq`, `Verif.Ring.xgcd_fuel`, `Verif.Hash.C22_point`, `Verif.Falcon.C26_header_ignored`, `Verif.SolSig.contract_reads_past_end`, `Verif.Contract.C38_returns`, `Verif.Contract.C38_abi_iff`, `Verif.Epervier.C41_verify_iff`, `Verif.Epervier.C41_nonzero_partial`, `Verif.Epervier.C41_false`, `Verif.Keccak.C42_python`, `Verif.Keccak.C43_absorb_chunks`, `Verif.Keccak.C43_read_split`, `Verif.Keccak.C43_length`, `Verif.Hash.C44_inject_iff`, `Verif.Hash.C44_extract_before_flip`, `Verif.Hash.C44_counter_injective`, `Verif.Hash.C45_stream_partial`, `Verif.Hash.C45_shifted`, `Verif.Hash.C45_not_separated`, `Verif.Hash.C45_update_after_read`, `Verif.Sampler.C46_base_range`, `Verif.Rng.C49_blocks_used`, `Verif.Cli.C52_range`, `Verif.Storage.C54_last_update`, `Verif.Storage.C54_partial`, `Verif.FFT.C56_split_merge`, `Verif.FFT.C57_ldl_fft_error`, `Verif.SolSig.decompressKAT_ok_iff`, `Verif.CRef.C76_tables`, `Verif.CRef.C78_boundary_false`, `Verif.CRef.C80_inject`, `Verif.CRef.C82_agree`, `Verif.CRef.C82_signer_false`, `Verif.CRef.C89_space`, `Verif.Geth.C94_output`, `Verif.Geth.C94_panic_false`, `Verif.Geth.C94_crash_false`, `Verif.CRef.Kat.C96_last_byte_false`, `Verif.CRef.Kat.C97_first_key`, `Verif.CRef.Kat.C97_first_nonce`, `Verif.CRef.Fpr.C99_half_false`

## propext, Classical.choice, Quot.sound (512)

`Verif.Encoding.decompress_compress`, `Verif.Encoding.compress_fits_iff`, `Verif.Encoding.decompress_accepts_iff`, `Verif.Encoding.decompress_wellformed`, `Verif.Encoding.decompress_rejects_minus_zero`, `Verif.Encoding.decompress_malleable`, `Verif.Encoding.decompress_tail_ignored`, `Verif.Encoding.decompress_unique_partial`, `Verif.Encoding.decompress_raises_iff`, `Verif.Encoding.decompress_can_raise`, `Verif.Encoding.decompress_total_partial`, `Verif.Codec.modqEncode_ok_iff`, `Verif.Codec.modqDecode_ok_iff`, `Verif.Codec.modqDecode_encode`, `Verif.Codec.modqDecode_canonical`, `Verif.Codec.modqDecode_injective`, `Verif.Codec.modqDecode_error`, `Verif.Codec.modqEncode_error_iff`, `Verif.Codec.modqEncode_too_long`, `Verif.Codec.trimEncode_ok_iff`, `Verif.Codec.trimDecode_ok_iff`, `Verif.Codec.trimDecode_encode`, `Verif.Codec.trimDecode_canonical`, `Verif.Codec.trimEncode_error`, `Verif.CRef.Fpr.C100_exact`, `Verif.CRef.Fpr.C100_rational`, `Verif.CRef.Fpr.C100_sqrt_const`, `Verif.CRef.Fpr.C100_log`, `Verif.CRef.Fpr.C100_sigma`, `Verif.CRef.Fpr.C100_sigma_false`, `Verif.CRef.Kg.C101_sub`, `Verif.CRef.Kg.C101_mul_small`, `Verif.CRef.Kg.C101_add_mul_small`, `Verif.CRef.Kg.C101_mod_small`, `Verif.CRef.Kg.C101_norm_zero`, `Verif.CRef.Kg.C101_crt`, `Verif.CRef.Kg.C101_scaled`, `Verif.CRef.Kg.C101_poly_sub_scaled`, `Verif.CRef.Kg.C102_bezout`, `Verif.CRef.Kg.C102_coprime`, `Verif.CRef.Kg.C102_unique`, `Verif.CRef.Fft.C103_fft`, `Verif.CRef.Fft.C103_order_false`, `Verif.CRef.Fft.C104_ifft`, `Verif.CRef.Fft.C104_roundtrip`, `Verif.CRef.Fft.C105_mul`, `Verif.CRef.SignDyn.C106_attempt`, `Verif.CRef.SignDyn.C106_valid`, `Verif.CRef.SignDyn.C106_loop`, `Verif.CRef.SignDyn.C106_sign_dyn`, `Verif.CRef.SignDyn.C106_chain16`, `Verif.CRef.Orth.C107_vector`, `Verif.CRef.Orth.C107_close`, `Verif.CRef.Orth.C107_sound`, `Verif.CRef.Orth.C107_complete`, `Verif.CRef.Orth.C107_keygen`, `Verif.CRef.Orth.C107_keypair16`, `Verif.CRef.Fft.C108_agree`, `Verif.CRef.Fft.C108_deviations`, `Verif.CRef.Fft.C108_sign_dyn`, `Verif.CRef.Fft.C109_agree`, `Verif.CRef.Fft.C109_near`, `Verif.CRef.Fft.C109_centres`, `Verif.CRef.Fft.C109_rejection`, `Verif.CRef.Fft.C109_sign_dyn`, `Verif.Codec.fromBytes_ok_iff`, `Verif.Codec.fromBytes_roundtrip_512`, `Verif.Codec.fromBytes_never_1024`, `Verif.Codec.fromBytes_rejects_nist_1024`, `Verif.Codec.fromBytes_ignores_tail`, `Verif.Codec.fromBytes_canonical_897`, `Verif.Codec.fromBytes_encodePublicKey`, `Verif.PyFloat.C110_exact`, `Verif.PyFloat.C110_logged`, `Verif.PyFloat.C110_total`, `Verif.PyFloat.C110_preimage`, `Verif.PyFloat.C110_run`, `Verif.PyFloat.C110_sign_verify`, `Verif.FFT.C111_value`, `Verif.FFT.C111_zero`, `Verif.FFT.C111_distance`, `Verif.FFT.C111_ntru_gen`, `Verif.FFT.C112_tree`, `Verif.FFT.C112_calls`, `Verif.FFT.C112_contract`, `Verif.FFT.C112_ntru_gen`, `Verif.CRef.SignTree.C113_size`, `Verif.CRef.SignTree.C113_refine`, `Verif.CRef.SignTree.C113_degree2`, `Verif.CRef.SignTree.C113_same_deviations`, `Verif.CRef.SignTree.C113_deviations`, `Verif.CRef.SignTree.C113_attempt`, `Verif.CRef.SignTree.C113_valid`, `Verif.CRef.SignTree.C113_loop`, `Verif.CRef.SignTree.C113_sign_tree`, `Verif.CRef.SignTree.split4_close`, `Verif.CRef.SignTree.merge4_close`, `Verif.CRef.Kg.C114_make_fg`, `Verif.CRef.Kg.C114_plain`, `Verif.CRef.Kg.C114_values`, `Verif.CRef.Kg.C115_deepest`, `Verif.CRef.SignTree.C116_agree`, `Verif.CRef.SignTree.C116_centres`, `Verif.CRef.SignTree.C116_watched`, `Verif.CRef.SignTree.C116_rejection`, `Verif.CRef.SignTree.C116_sign_tree`, `Verif.CRef.Kg.C117_reduce`, `Verif.CRef.Kg.C117_exact`, `Verif.CRef.Kg.C117_ntt`, `Verif.CRef.Kg.C117_ntt_range_false`, `Verif.CRef.Kg.C118_intermediate`, `Verif.CRef.Kg.C118_exact`, `Verif.CRef.Kg.C119_levels`, `Verif.CRef.Kg.C119_all`, `Verif.Codec.decodeSecretKey_roundtrip`, `Verif.Codec.decodeSecretKey_canonical`, `Verif.Packing.falconCompact_ok_iff`, `Verif.Packing.falconCompact_injective`, `Verif.Packing.solExpand_falconCompact`, `Verif.Packing.solExpand_solCompact`, `Verif.Packing.solCompact_eq_falconCompact`, `Verif.Packing.solCompact_solExpand`, `Verif.Packing.merge_eq`, `Verif.Packing.merge_split`, `Verif.Packing.split_merge`, `Verif.Packing.merge_split_odd`, `Verif.Ring.ntruSolve_correct`, `Verif.Ring.ntruSolve_coeffs`, `Verif.Ring.ntruSolve_fails`, `Verif.Ring.ntruSolve_succeeds`, `Verif.Ring.ntruSolve_one`, `Verif.Ring.karamul_eq_schoolbook`, `Verif.Ring.karamul_negEq`, `Verif.Ring.karatsuba_eq_mul`, `Verif.Ring.karamul_comm`, `Verif.Ring.karamul_assoc`, `Verif.Ring.fieldNorm_negEq`, `Verif.Ring.fieldNorm_unique`, `Verif.Ring.fieldNorm_mul`, `Verif.Ring.lift_eq`, `Verif.Ring.galois_eq`, `Verif.Ring.xgcd_spec`, `Verif.Ring.xgcd_sign`, `Verif.Ring.xgcd_nonneg`, `Verif.Ring.bitsize_spec`, `Verif.Ring.bitsize_mono`, `Verif.Ring.reduce_lattice`, `Verif.Ring.reduce_invariant`, `Verif.Hash.C22_shake`, `Verif.Hash.C22_shake_total`, `Verif.Hash.C22_keccak`, `Verif.Hash.C22_blake2s`, `Verif.Hash.C22_keccak_long`, `Verif.Hash.C23_concat`, `Verif.Hash.C23_ambiguous`, `Verif.Hash.C24_evm`, `Verif.Hash.C24_evm_conv`, `Verif.Hash.C24_nist`, `Verif.Hash.C24_tetration`, `Verif.Hash.C24_evm_shape`, `Verif.Hash.C24_nist_shape`, `Verif.Falcon.C25_accepts_iff`, `Verif.Falcon.C25_rejects_iff`, `Verif.Falcon.C25_lengths`, `Verif.Falcon.C26_tail_ignored`, `Verif.Falcon.C26_canonical_partial`, `Verif.Falcon.C26_witness`, `Verif.Falcon.C27_sign_verify`, `Verif.Falcon.C27_generated_key`, `Verif.Falcon.C28_format`, `Verif.Falcon.C29_first_good`, `Verif.Contract.C30_accepts_iff`, `Verif.Contract.C30_every_key`, `Verif.Contract.C30_every_signature`, `Verif.Contract.C30_universal_forgery`, `Verif.Contract.C30_false`, `Verif.Contract.C30_verify_false`, `Verif.Contract.C31_core`, `Verif.Contract.C31_evm`, `Verif.Contract.C31_nist`, `Verif.Contract.C31_boundary`, `Verif.NTT.C32_forward`, `Verif.NTT.C32_inverse_forward`, `Verif.NTT.C32_round_trip`, `Verif.NTT.C32_forward_inverse`, `Verif.NTT.C32_inverse_reduced`, `Verif.NTT.C32_stateless`, `Verif.NTT.C33_mul_NTTPoly`, `Verif.NTT.C33_halfmul_compact`, `Verif.NTT.C33_every_key`, `Verif.NTT.C34_primitive`, `Verif.NTT.C34_roots`, `Verif.SolSig.decompressSig_ok_iff`, `Verif.SolSig.contract_accepts_python`, `Verif.SolSig.contract_reads_compress`, `Verif.SolSig.contract_accepts_minus_zero`, `Verif.SolSig.python_accepts_contract_partial`, `Verif.SolSig.decompressSig_error`, `Verif.Codec.solDecompress_eq_modqDecode`, `Verif.Codec.solDecompress_roundtrip`, `Verif.Contract.C37_residues_only`, `Verif.Contract.C37_malleable`, `Verif.Contract.C37_trailing_bytes`, `Verif.Contract.C37_reduced_unique_partial`, `Verif.Contract.C38_fmp`, `Verif.Contract.C38_abi`, `Verif.Contract.C38_packed`, `Verif.Contract.C38_packed_reverts`, `Verif.Contract.C38_pack_layout`, `Verif.Epervier.C39_recover_iff`, `Verif.Epervier.C39_unique`, `Verif.Epervier.C39_evm`, `Verif.Epervier.C39_nist`, `Verif.Epervier.C39_wraps_iff`, `Verif.Epervier.C39_false`, `Verif.Epervier.C39_norm_not_enforced`, `Verif.Epervier.C39_evm_nonvacuous`, `Verif.Epervier.C40_sign_iff`, `Verif.Epervier.C40_sign_recover`, `Verif.Epervier.C40_epervier`, `Verif.Epervier.C40_recovery`, `Verif.Epervier.C40_signs`, `Verif.Epervier.toyRecover`, `Verif.Epervier.C41_recover_iff`, `Verif.Keccak.C42_contract`, `Verif.Keccak.C42_agree`, `Verif.Keccak.C43_python`, `Verif.Keccak.C43_contract`, `Verif.Keccak.C43_digest`, `Verif.Keccak.C43_agree`, `Verif.Hash.C44_stream`, `Verif.Hash.C44_chunks`, `Verif.Hash.C44_exhausted`, `Verif.Sampler.C46_base_law`, `Verif.Sampler.C46_base_monotone`, `Verif.Sampler.C46_base_count`, `Verif.Sampler.C46_berexp_law`, `Verif.Sampler.C46_exponent`, `Verif.Sampler.C46_range`, `Verif.Sampler.C46_no_error`, `Verif.Sampler.C47_draw`, `Verif.Sampler.C47_magnitude`, `Verif.Sampler.C47_mkgauss`, `Verif.Sampler.C47_poly`, `Verif.Rng.C48_block`, `Verif.Rng.C48_stream`, `Verif.Rng.C48_no_reuse`, `Verif.Rng.C48_length`, `Verif.Rng.C48_inputs_distinct`, `Verif.Rng.C48_wrap_false`, `Verif.Rng.C49_init`, `Verif.Rng.C49_generate`, `Verif.Rng.C49_history`, `Verif.Rng.C49_no_counter_reuse`, `Verif.Cli.C50_public_bytes`, `Verif.Cli.C50_reads`, `Verif.Cli.C50_stream`, `Verif.Cli.C50_recover_seeds`, `Verif.Cli.C50_plain_seeds`, `Verif.Cli.C50_last_block`, `Verif.Cli.C50_hash_data_false`, `Verif.Cli.C50_distinct_salts_false`, `Verif.Cli.C50_short_data_false`, `Verif.Cli.C50_salt_public`, `Verif.Cli.C51_public_key`, `Verif.Cli.C51_secret_key`, `Verif.Cli.C51_signature`, `Verif.Cli.C51_public_injective`, `Verif.Cli.C51_genkeys`, `Verif.Cli.C51_genkeys_unknown`, `Verif.Cli.C52_injective`, `Verif.Cli.C52_layout`, `Verif.Cli.C52_hash`, `Verif.Cli.C52_collision`, `Verif.Cli.C53_same_hash`, `Verif.Cli.C53_which_hash`, `Verif.Cli.C53_falconrec_false`, `Verif.Cli.C53_falcon`, `Verif.Cli.C53_epervier`, `Verif.Cli.C53_sign_tx_false`, `Verif.Cli.C53_sign_tx_hash_false`, `Verif.Cli.C53_recover_send_false`, `Verif.Cli.C53_verify_send`, `Verif.Storage.C54_false`, `Verif.Storage.C55_creation_code`, `Verif.Storage.C55_write_read`, `Verif.Storage.C55_write_succeeds`, `Verif.Storage.C55_write_too_long`, `Verif.Storage.C55_write_error`, `Verif.Storage.C55_stable`, `Verif.Storage.C55_inert`, `Verif.Storage.C55_read_range`, `Verif.Storage.C55_read_from`, `Verif.Storage.C55_key`, `Verif.Storage.C55_setKey_succeeds`, `Verif.Storage.C55_short_key_reads_on`, `Verif.FFT.C56_fft_evaluates`, `Verif.FFT.C56_roots`, `Verif.FFT.C56_ifft_fft`, `Verif.FFT.C56_fft_ifft`, `Verif.FFT.C56_splitFft_mergeFft`, `Verif.FFT.C56_splitFft_fft`, `Verif.FFT.C56_mul`, `Verif.FFT.C56_adj`, `Verif.FFT.C56_div`, `Verif.FFT.C56_parseval`, `Verif.FFT.C56_fft_lengths`, `Verif.FFT.C56_truncation_false`, `Verif.FFT.C56_tables_exist`, `Verif.FFT.C56_tables_close`, `Verif.FFT.C57_ldl_fft`, `Verif.FFT.C57_ldl`, `Verif.FFT.C57_ldl_error`, `Verif.FFT.C57_gram`, `Verif.FFT.C58_ffsampling`, `Verif.FFT.C58_ffnp_fft`, `Verif.FFT.C58_ffnp`, `Verif.Falcon.C59_public_key`, `Verif.Falcon.C59_keygen`, `Verif.Falcon.C59_ntru_gen`, `Verif.Falcon.C59_no_division_error`, `Verif.SolSig.decompressKAT_roundtrip`, `Verif.SolSig.decompressKAT_ignores_length`, `Verif.Blake.C61_mix_bijective`, `Verif.Blake.C61_compress`, `Verif.Blake.C61_hash`, `Verif.Blake.C61_words_injective`, `Verif.Blake.C61_bytes_injective`, `Verif.Blake.C61_default`, `Verif.NTT.C62_stateful_partial`, `Verif.NTT.C62_false`, `Verif.NTT.C62_witness`, `Verif.Storage.C62_deployed_code`, `Verif.Storage.C62_half_mul`, `Verif.Contract.C63_range_iff`, `Verif.Contract.C63_false`, `Verif.Epervier.C64_hint_malleable`, `Verif.Epervier.C64_s2_malleable`, `Verif.Epervier.C64_s1_malleable`, `Verif.Epervier.C64_malleable`, `Verif.Epervier.C65_nist`, `Verif.Epervier.C65_evm`, `Verif.Epervier.C65_lib`, `Verif.Epervier.recover_exists`, `Verif.NTT.C66_half_mul`, `Verif.NTT.C66_reverts`, `Verif.NTT.C66_vec`, `Verif.Falcon.C67_params`, `Verif.Sampler.C68_rcdt`, `Verif.Sampler.C68_gauss`, `Verif.Sampler.C68_gauss_zero`, `Verif.Sampler.C68_base_prob`, `Verif.Sampler.C69_threshold`, `Verif.Sampler.C69_berexp`, `Verif.Sampler.C69_in_range`, `Verif.Sampler.C69_trial_law`, `Verif.Sampler.C69_loop`, `Verif.FFT.C70_norm`, `Verif.FFT.C70_preimage`, `Verif.FFT.C71_key_setup`, `Verif.FFT.C72_ffldl`, `Verif.FFT.C72_ffnp`, `Verif.Tetration.C73_inverse_table`, `Verif.Tetration.C73_transforms`, `Verif.Tetration.C73_roundtrip`, `Verif.Tetration.C73_mul`, `Verif.Tetration.C73_mul_opt_any`, `Verif.Tetration.C73_domain_forward`, `Verif.Tetration.C73_domain_inverse`, `Verif.Tetration.C73_add`, `Verif.Tetration.C73_sub`, `Verif.Tetration.C74_accepts_iff`, `Verif.Tetration.C74_otherwise_reverts`, `Verif.Tetration.C74_nttpub`, `Verif.Tetration.C74_malleable`, `Verif.Tetration.C74_other_representative`, `Verif.Tetration.C75_python`, `Verif.CRef.C76_field`, `Verif.CRef.C76_div`, `Verif.CRef.C76_inverse`, `Verif.CRef.C76_product`, `Verif.CRef.C76_contract`, `Verif.CRef.C77_verify_raw`, `Verif.CRef.C77_is_short`, `Verif.CRef.C77_is_short_half`, `Verif.CRef.C77_bounds`, `Verif.CRef.C78_comp_decode16`, `Verif.CRef.C78_comp_encode16`, `Verif.CRef.C78_roundtrip`, `Verif.CRef.C78_malleable`, `Verif.CRef.C79_modq_encode`, `Verif.CRef.C79_modq_decode`, `Verif.CRef.C79_modq_python`, `Verif.CRef.C79_trim`, `Verif.CRef.C79_comp_encode`, `Verif.CRef.C79_comp_decode`, `Verif.CRef.C79_comp_roundtrip`, `Verif.CRef.C79_comp_unique`, `Verif.CRef.C79_comp_python`, `Verif.CRef.C80_keccak256_pieces`, `Verif.CRef.C80_keccak256`, `Verif.CRef.C80_stream`, `Verif.CRef.C80_python_stream`, `Verif.CRef.C80_misuse`, `Verif.CRef.C80_hash_to_point`, `Verif.CRef.C80_contract`, `Verif.CRef.C80_python_point`, `Verif.CRef.C81_open16`, `Verif.CRef.C81_open14`, `Verif.CRef.C82_verifier_false`, `Verif.CRef.C83_unique14`, `Verif.CRef.C83_malleable`, `Verif.CRef.C84_open`, `Verif.CRef.C84_complete`, `Verif.CRef.C84_pk`, `Verif.CRef.C84_sign_open`, `Verif.CRef.C84_hint_false`, `Verif.CRef.C84_memory_false`, `Verif.CRef.C84_pk_twice_false`, `Verif.CRef.C85_is_invertible`, `Verif.CRef.C85_compute_public`, `Verif.CRef.C85_complete_private`, `Verif.CRef.C85_recover`, `Verif.CRef.C85_hint`, `Verif.CRef.C85_hint_contract`, `Verif.CRef.C85_count`, `Verif.CRef.C86_permutation`, `Verif.CRef.C86_stream`, `Verif.CRef.C86_hash_to_point`, `Verif.CRef.C86_python`, `Verif.CRef.C86_contract`, `Verif.CRef.C87_private_key`, `Verif.CRef.C87_keypair16`, `Verif.CRef.C87_keypair14`, `Verif.CRef.C87_sign_open16`, `Verif.CRef.C87_sign_open14`, `Verif.CRef.C87_chain16`, `Verif.CRef.C88_contract_accepts`, `Verif.CRef.C88_converse_false`, `Verif.CRef.C89_constant_time`, `Verif.CRef.C89_failure`, `Verif.CRef.C89_count`, `Verif.CRef.Kg.C90_check`, `Verif.CRef.Kg.C90_solve`, `Verif.CRef.Kg.C90_mkgauss`, `Verif.CRef.Kg.C90_round`, `Verif.CRef.Kg.C90_keygen`, `Verif.CRef.Kg.C91_primes`, `Verif.CRef.Kg.C91_arith`, `Verif.CRef.Kg.C91_ntt`, `Verif.CRef.Kg.C92_stream`, `Verif.CRef.Kg.C92_keypair16`, `Verif.CRef.Kg.C92_keypair14`, `Verif.CRef.Kg.C92_agree`, `Verif.CRef.Kg.C93_draw`, `Verif.CRef.Kg.C93_value`, `Verif.CRef.Kg.C93_law`, `Verif.CRef.Kg.C93_gaussian`, `Verif.CRef.Kg.C93_python`, `Verif.Geth.C94_accept`, `Verif.Geth.C94_determined`, `Verif.Geth.C94_verify`, `Verif.Geth.C94_verify_other`, `Verif.Geth.C94_keypair`, `Verif.Geth.C94_roundtrip`, `Verif.Geth.C94_sign_short`, `Verif.Geth.C94_overflow_false`, `Verif.Geth.C94_corrupt_false`, `Verif.Geth.C94_short_key_false`, `Verif.Geth.C94_sign_long_false`, `Verif.Geth.C94_attack_false`, `Verif.CRef.Prng.block_spec`, `Verif.CRef.Prng.C95_init`, `Verif.CRef.Prng.C95_stream`, `Verif.CRef.Prng.C95_no_reuse`, `Verif.CRef.Prng.C95_attempts`, `Verif.CRef.Prng.C95_python_partial`, `Verif.CRef.Prng.C95_python_false`, `Verif.CRef.Prng.C95_get_bytes_false`, `Verif.CRef.Aes.C96_aes`, `Verif.CRef.Kat.C96_python`, `Verif.CRef.Kat.C96_randombytes`, `Verif.CRef.Kat.C96_history`, `Verif.CRef.Kat.C96_init`, `Verif.CRef.Kat.C96_unseeded`, `Verif.CRef.Kat.C96_seedexpander`, `Verif.CRef.Kat.C97_keypair_false`, `Verif.CRef.Kat.C97_sign_false`, `Verif.CRef.SignSampler.C98_gaussian0`, `Verif.CRef.SignSampler.C98_threshold`, `Verif.CRef.SignSampler.C98_berexp`, `Verif.CRef.SignSampler.C98_sampler`, `Verif.CRef.SignSampler.C98_scale_one_false`, `Verif.CRef.Fpr.C99_add`, `Verif.CRef.Fpr.C99_add_zero`, `Verif.CRef.Fpr.C99_sub`, `Verif.CRef.Fpr.C99_neg`, `Verif.CRef.Fpr.C99_mul`, `Verif.CRef.Fpr.C99_div`, `Verif.CRef.Fpr.C99_inv`, `Verif.CRef.Fpr.C99_sqrt`, `Verif.CRef.Fpr.C99_scaled`, `Verif.CRef.Fpr.C99_of`, `Verif.CRef.Fpr.C99_rint`, `Verif.CRef.Fpr.C99_trunc`, `Verif.CRef.Fpr.C99_floor`, `Verif.CRef.Fpr.C99_floor_false`, `Verif.CRef.Fpr.C99_half`, `Verif.CRef.Fpr.C99_double`, `Verif.CRef.Fpr.C99_lt`, `Verif.CRef.Fpr.C99_lt_false`, `Verif.CRef.Fpr.rnd_nearest`
