# Axioms of each property theorem

Written by `tools/axioms.py` from `#print axioms`.

| theorem | axioms |
|---|---|
| `Blake2s.C01_one_shot` | propext, Classical.choice, Quot.sound |
| `Blake2s.C01_too_long` | propext, Classical.choice, Quot.sound |
| `Blake2s.C02_parameterised` | propext, Classical.choice, Quot.sound |
| `Blake2s.C02_params` | propext, Classical.choice, Quot.sound |
| `Blake2s.C03_split` | propext, Classical.choice, Quot.sound |
| `Blake2s.C03_digest` | propext, Classical.choice, Quot.sound |
| `Blake2s.C04_finalize` | propext, Classical.choice, Quot.sound |
| `Blake2s.C04_no_disturbance` | propext, Classical.choice, Quot.sound |
| `Blake2s.C04_repeatable` | propext, Classical.choice, Quot.sound |
| `Blake2s.C05_count_exact` | propext, Classical.choice, Quot.sound |
| `Blake2s.C05_count_partial` | propext, Classical.choice, Quot.sound |
| `Blake2s.C05_keyed_false` | propext, Classical.choice, Quot.sound |
| `Blake2s.C06_last_node` | propext, Classical.choice, Quot.sound |
| `Blake2s.C06_only_flag` | propext, Classical.choice, Quot.sound |
| `Blake2s.C07_sse41` | propext, Classical.choice, Quot.sound |
| `Blake2s.C07_rfc` | propext, Classical.choice, Quot.sound |
| `Blake2s.C08_transposed_all` | propext, Classical.choice, Quot.sound |
| `Blake2s.C08_avx2` | propext, Classical.choice, Quot.sound |
| `Blake2s.C08_portable` | propext, Quot.sound |
| `Blake2s.C09_sse41` | propext, Classical.choice, Quot.sound |
| `Blake2s.C10_involution` | propext, Classical.choice, Quot.sound |
| `Blake2s.C10_steps` | propext, Classical.choice, Quot.sound |
| `Blake2s.C11_update8` | propext, Classical.choice, Quot.sound |
| `Blake2s.C11_update8_panics` | propext, Classical.choice, Quot.sound |
| `Blake2s.C12_finalize8` | propext, Classical.choice, Quot.sound |
| `Blake2s.C13_hash4_exact` | propext, Classical.choice, Quot.sound |
| `Blake2s.C13_refuses` | propext, Quot.sound |
| `Blake2s.C14_hash8_exact` | propext, Classical.choice, Quot.sound |
| `Blake2s.C14_refuses` | propext, Quot.sound |
| `Blake2s.C15_hash8` | propext, Classical.choice, Quot.sound |
| `Blake2s.C15_refuses` | propext, Quot.sound |
| `Blake2s.C16_hash4_exact` | propext, Classical.choice, Quot.sound |
| `Blake2s.C16_hash8_exact` | propext, Classical.choice, Quot.sound |
| `Blake2s.C16_program` | propext, Classical.choice, Quot.sound |
| `Blake2s.C17_program` | propext, Classical.choice, Quot.sound |
| `Blake2s.C18_same_backend` | propext, Classical.choice, Quot.sound |
| `Blake2s.C18_forced` | propext, Classical.choice, Quot.sound |
| `Blake2s.C18_platforms_partial` | propext, Classical.choice, Quot.sound |
| `Blake2s.C18_keyed_exact_false` | propext, Classical.choice, Quot.sound |
| `Blake2s.C19_portable` | propext, Classical.choice, Quot.sound |
| `Blake2s.C19_portable8` | propext, Classical.choice, Quot.sound |
| `Blake2s.C19_partial` | propext, Classical.choice, Quot.sound |
| `Blake2s.C19_simd_ignores_key` | propext, Classical.choice, Quot.sound |
| `Blake2s.C19_simd_exact` | propext, Classical.choice, Quot.sound |
| `Blake2s.C19_false` | propext, Classical.choice, Quot.sound |
| `Blake2s.C20_accepts` | propext, Classical.choice, Quot.sound |
| `Blake2s.C20_rejects` | propext, Classical.choice, Quot.sound |
| `Blake2s.C20_new` | propext |
| `Blake2s.C20_view_injective` | propext, Classical.choice, Quot.sound |
| `Blake2s.Sp.C20_sp_accepts` | propext, Classical.choice, Quot.sound |
| `Blake2s.Sp.C20_sp_rejects` | propext, Classical.choice, Quot.sound |
| `Blake2s.Sp.C20_sp_new` | propext |
| `Blake2s.Sp.C20_sp_view_injective` | propext, Classical.choice, Quot.sound |
| `Blake2s.C20_unchanged` | propext, Classical.choice, Quot.sound |
| `Blake2s.C20_sp_unchanged` | propext, Classical.choice, Quot.sound |
| `Blake2s.C21_last_wins` | propext, Classical.choice, Quot.sound |
| `Blake2s.C21_commute` | propext, Classical.choice, Quot.sound |
| `Blake2s.C21_salt_padding` | propext, Classical.choice, Quot.sound |
| `Blake2s.C21_personal_padding` | propext, Classical.choice, Quot.sound |
| `Blake2s.C21_sequence_last_wins` | propext, Classical.choice, Quot.sound |
| `Blake2s.C21_sequence_order` | propext, Classical.choice, Quot.sound |
| `Blake2s.Sp.C21_sp_last_wins` | propext, Classical.choice, Quot.sound |
| `Blake2s.Sp.C21_sp_commute` | propext, Classical.choice, Quot.sound |
| `Blake2s.C22_chaining_value` | propext, Classical.choice, Quot.sound |
| `Blake2s.C22_first_block` | propext, Classical.choice, Quot.sound |
| `Blake2s.Sp.C22_sp_leaves` | propext, Classical.choice, Quot.sound |
| `Blake2s.Sp.C22_sp_roots` | propext, Classical.choice, Quot.sound |
| `Blake2s.Sp.C22_sp_leaf_root` | propext, Classical.choice, Quot.sound |
| `Blake2s.Sp.C22_sp_blake2s` | propext, Classical.choice, Quot.sound |
| `Blake2s.Sp.C22_sp_first_block` | propext, Classical.choice, Quot.sound |
| `Blake2s.C23_program` | propext, Classical.choice, Quot.sound |
| `Blake2s.C23_finalize` | propext, Classical.choice, Quot.sound |
| `Blake2s.C23_bulk` | propext, Classical.choice, Quot.sound |
| `Blake2s.C23_sp_finalize` | propext, Classical.choice, Quot.sound |
| `Blake2s.C24_to_hex` | propext, Classical.choice, Quot.sound |
| `Blake2s.C24_shape` | propext, Classical.choice, Quot.sound |
| `Blake2s.C24_decodes` | propext, Classical.choice, Quot.sound |
| `Blake2s.C24_debug` | propext, Classical.choice, Quot.sound |
| `Blake2s.C25_eq` | propext, Classical.choice, Quot.sound |
| `Blake2s.C25_eq_slice` | propext, Classical.choice, Quot.sound |
| `Blake2s.C25_lengths` | propext, Classical.choice, Quot.sound |
| `Blake2s.C25_refl` | propext, Classical.choice, Quot.sound |
| `Blake2s.C25_symm` | propext, Classical.choice, Quot.sound |
| `Blake2s.C25_trans` | propext, Classical.choice, Quot.sound |
| `Blake2s.Sp.C26_one_shot` | propext, Classical.choice, Quot.sound |
| `Blake2s.Sp.C27_digest` | propext, Classical.choice, Quot.sound |
| `Blake2s.Sp.C27_split` | propext, Classical.choice, Quot.sound |
| `Blake2s.Sp.C28_finalize` | propext, Classical.choice, Quot.sound |
| `Blake2s.Sp.C28_unchanged` | propext, Quot.sound |
| `Blake2s.Sp.C28_removable` | propext, Quot.sound |
| `Blake2s.Sp.C28_repeatable` | propext, Classical.choice, Quot.sound |
| `Blake2s.Sp.C29_count_exact` | propext, Classical.choice, Quot.sound |
| `Blake2s.Sp.C29_count_partial` | propext, Classical.choice, Quot.sound |
| `Blake2s.Sp.C29_keyed_false` | propext, Classical.choice, Quot.sound |
| `Blake2s.Sp.C30_release_differs` | propext, Classical.choice, Quot.sound |
| `Blake2s.Sp.C30_partial` | propext, Classical.choice, Quot.sound |
| `Blake2s.Sp.C30_debug_panics` | propext, Classical.choice, Quot.sound |
| `Blake2s.Sp.C30_release_exact` | propext, Classical.choice, Quot.sound |
| `Blake2s.Sp.C30_release_wrong` | propext, Classical.choice, Quot.sound |
| `Blake2s.Sp.C30_false` | propext, Classical.choice, Quot.sound |
| `Blake2s.C31_write` | propext, Quot.sound |
| `Blake2s.C31_flush` | none |
| `Blake2s.C31_pieces` | propext, Classical.choice, Quot.sound |
| `Blake2s.Sp.C31_sp_write` | propext, Quot.sound |
| `Blake2s.Sp.C31_sp_flush` | none |
| `Blake2s.Sp.C31_sp_pieces` | propext, Classical.choice, Quot.sound |
| `Blake2s.C32_programs` | propext, Classical.choice, Quot.sound |
| `Blake2s.C32_state` | propext |
| `Blake2s.C32_sp_params` | propext |
| `Blake2s.C32_sp_state` | propext, Quot.sound |
| `Blake2s.C33_states` | propext, Classical.choice, Quot.sound |
| `Blake2s.C33_params` | propext, Classical.choice, Quot.sound |
| `Blake2s.C33_hashes` | propext, Classical.choice, Quot.sound |
| `Blake2s.C33_sp_states` | propext, Classical.choice, Quot.sound |
| `Blake2s.C33_same_life` | propext, Classical.choice, Quot.sound |
| `Blake2s.C34_exact` | propext, Classical.choice, Quot.sound |
| `Blake2s.C34_refinement_partial` | propext, Classical.choice, Quot.sound |
| `Blake2s.C34_unkeyed` | propext, Classical.choice, Quot.sound |
| `Blake2s.C34_ideal_false` | propext, Classical.choice, Quot.sound |
| `Blake2s.C35_program` | propext, Classical.choice, Quot.sound |
| `Blake2s.C35_release` | propext, Classical.choice, Quot.sound |
| `Blake2s.C35_many` | propext, Classical.choice, Quot.sound |
| `Blake2s.C35_update` | propext, Classical.choice, Quot.sound |
| `Blake2s.C35_finalize` | propext, Classical.choice, Quot.sound |
| `Blake2s.C35_to_state` | propext, Classical.choice, Quot.sound |
| `Blake2s.Sp.C35_sp` | propext, Classical.choice, Quot.sound |
| `Blake2s.Sp.C35_sp_to_state` | propext, Classical.choice, Quot.sound |
| `Blake2s.C36_batch` | propext, Classical.choice, Quot.sound |
| `Blake2s.C36_indistinguishable` | propext, Classical.choice, Quot.sound |
| `Blake2s.Sp.C36_blake2sp_partial` | propext, Classical.choice, Quot.sound |
| `Blake2s.Sp.C36_blake2sp_rows` | propext, Classical.choice, Quot.sound |
| `Blake2s.Sp.C36_blake2sp_false` | propext, Classical.choice, Quot.sound |
| `Blake2s.Sp.C36_blake2sp_debug_false` | propext, Classical.choice, Quot.sound |
| `Blake2s.C37_collision` | propext, Classical.choice, Quot.sound |
| `Blake2s.C37_any_length` | propext, Classical.choice, Quot.sound |
| `Blake2s.C37_one_shot` | propext, Classical.choice, Quot.sound |
| `Blake2s.C37_trace_output` | propext, Quot.sound |
| `Blake2s.Sp.C38_collision` | propext, Classical.choice, Quot.sound |
| `Blake2s.Sp.C38_any_length` | propext, Classical.choice, Quot.sound |
| `Blake2s.Sp.C38_one_shot` | propext, Classical.choice, Quot.sound |
| `Blake2s.Sp.C38_keyed` | propext, Classical.choice, Quot.sound |
| `Blake2s.Sp.C38_key_or_not` | propext, Classical.choice, Quot.sound |
| `Blake2s.Sp.C38_keyed_any_length` | propext, Classical.choice, Quot.sound |
| `Blake2s.Sp.C38_key_or_not_any_length` | propext, Classical.choice, Quot.sound |
| `Blake2s.C39_constructors` | propext, Quot.sound |
| `Blake2s.C39_defaults` | propext |
| `Blake2s.Sp.C39_sp_constructors` | propext, Quot.sound |
| `Blake2s.Sp.C39_sp_defaults` | propext |
| `Blake2s.C40_control_flow` | propext, Classical.choice, Quot.sound |
| `Blake2s.Sp.C41_reference` | propext, Classical.choice, Quot.sound |
| `Blake2s.Sp.C41_pieces` | propext, Classical.choice, Quot.sound |
| `Blake2s.C42_profiles` | propext, Classical.choice, Quot.sound |
| `Blake2s.C43_rfc_self_test` | propext, Classical.choice, Quot.sound |
| `Blake2s.Tests.C43_test_blake2s` | propext, Classical.choice, Quot.sound |
| `Blake2s.Tests.C43_test_blake2sp` | propext, Classical.choice, Quot.sound |
| `Blake2s.Tests.C43_test_blake2s_passes` | propext, Classical.choice, Quot.sound |
| `Blake2s.Tests.C43_test_blake2sp_passes` | propext, Classical.choice, Quot.sound |
| `Blake2s.C43_blake2s` | propext, Classical.choice, Quot.sound |
| `Blake2s.C43_blake2sp` | propext, Classical.choice, Quot.sound |
| `Blake2s.C43_blake2s_keyed` | propext, Classical.choice, Quot.sound |
| `Blake2s.C43_blake2sp_keyed` | propext, Classical.choice, Quot.sound |
| `Blake2s.C43_all_parameters` | propext, Classical.choice, Quot.sound |
| `Blake2s.C43_all_parameters_sp` | propext, Classical.choice, Quot.sound |
| `Blake2s.C44_first_panic` | propext, Classical.choice, Quot.sound |
| `Blake2s.C44_safe` | propext, Classical.choice, Quot.sound |
| `Blake2s.C44_unchanged` | propext, Classical.choice, Quot.sound |
| `Blake2s.C44_exact` | propext, Classical.choice, Quot.sound |
| `Blake2s.C44_exact_unchecked` | propext, Classical.choice, Quot.sound |
| `Blake2s.C44_truncates` | propext, Classical.choice, Quot.sound |
| `Blake2s.C44_platforms` | propext, Classical.choice, Quot.sound |
| `Blake2s.C44_control_flow` | propext, Classical.choice, Quot.sound |
| `Blake2s.Sp.C45_separation` | propext, Classical.choice, Quot.sound |
| `Blake2s.Sp.C45_any_length` | propext, Classical.choice, Quot.sound |
| `Blake2s.Sp.C45_keyed` | propext, Classical.choice, Quot.sound |
| `Blake2s.Sp.C45_one_shot` | propext, Classical.choice, Quot.sound |
| `Blake2s.Tests.C46_compression_impls` | propext, Classical.choice, Quot.sound |
| `Blake2s.Tests.C46_compression_constants` | propext, Classical.choice, Quot.sound |
| `Blake2s.Tests.C46_vectors` | propext, Classical.choice, Quot.sound |
| `Blake2s.Tests.C46_vectors_only` | propext, Classical.choice, Quot.sound |
| `Blake2s.Tests.C46_vectors_constants` | propext, Classical.choice, Quot.sound |
| `Blake2s.Tests.C46_multiple_finalizes` | propext, Classical.choice, Quot.sound |
| `Blake2s.Tests.C46_multiple_finalizes_constants` | propext, Classical.choice, Quot.sound |
| `Blake2s.Tests.C46_write` | propext, Classical.choice, Quot.sound |
| `Blake2s.Tests.C46_write_constants` | propext, Classical.choice, Quot.sound |
| `Blake2s.Tests.C46_all_parameters` | propext, Classical.choice, Quot.sound |
| `Blake2s.Tests.C46_all_parameters_constants` | propext, Classical.choice, Quot.sound |
| `Blake2s.Tests.C46_all_parameters_blake2sp` | propext, Classical.choice, Quot.sound |
| `Blake2s.Tests.C46_all_parameters_blake2sp_constants` | propext, Classical.choice, Quot.sound |
| `Blake2s.Tests.C46_should_panic` | propext, Classical.choice, Quot.sound |
| `Blake2s.Tests.C46_update8_loop` | propext, Classical.choice, Quot.sound |
| `Blake2s.Tests.C46_update8_constants` | propext, Classical.choice, Quot.sound |
| `Blake2s.Tests.C46_hash4_exact` | propext, Classical.choice, Quot.sound |
| `Blake2s.Tests.C46_hash8_exact` | propext, Classical.choice, Quot.sound |
| `Blake2s.Tests.C46_hash8` | propext, Classical.choice, Quot.sound |
| `Blake2s.Tests.C46_buffering` | propext, Classical.choice, Quot.sound |
| `Blake2s.Tests.C46_buffering_constants` | propext, Classical.choice, Quot.sound |
| `Blake2s.Tests.C46_interleave128` | propext, Classical.choice, Quot.sound |
| `Blake2s.Tests.C46_load_2x256` | propext, Classical.choice, Quot.sound |
| `Blake2s.Tests.C46_transpose_avx2` | propext, Classical.choice, Quot.sound |
| `Blake2s.Tests.C46_transpose_sse41` | propext, Classical.choice, Quot.sound |
| `Blake2s.Tests.C46_hash4_exact_constants` | propext, Classical.choice, Quot.sound |
| `Blake2s.Tests.C46_hash8_exact_constants` | propext, Classical.choice, Quot.sound |
| `Blake2s.Tests.C46_hash8_constants` | propext, Classical.choice, Quot.sound |
| `Blake2s.Bench.C47_compress` | propext, Classical.choice, Quot.sound |
| `Blake2s.Bench.C47_compress8` | propext, Classical.choice, Quot.sound |
| `Blake2s.Bench.C47_compress4_transposed` | propext, Classical.choice, Quot.sound |
| `Blake2s.Bench.C47_compress8_vectorized` | propext, Classical.choice, Quot.sound |
| `Blake2s.Bench.C47_compress8_transposed_all` | propext, Classical.choice, Quot.sound |
| `Blake2s.Bench.C47_hash` | propext, Classical.choice, Quot.sound |
| `Blake2s.Bench.C47_update8` | propext, Classical.choice, Quot.sound |
| `Blake2s.Bench.C47_gig_update8` | propext, Classical.choice, Quot.sound |
| `Blake2s.Bench.C47_hash_many` | propext, Classical.choice, Quot.sound |
| `Blake2s.Bench.C47_false` | propext, Quot.sound |
| `Blake2s.Bench.C47_supported_partial` | propext, Classical.choice, Quot.sound |
| `Blake2s.Bench.C47_same_results` | propext, Quot.sound |
| `Blake2s.Bench.C47_portable` | propext, Quot.sound |
| `Blake2s.Bench.C47_portable_blocks` | propext, Classical.choice, Quot.sound |
| `Blake2s.Bench.C47_vector` | propext, Quot.sound |
| `Blake2s.C48_same_results` | propext, Classical.choice, Quot.sound |
| `Blake2s.C48_constant_time_partial` | propext, Classical.choice, Quot.sound |
| `Blake2s.C48_printed_only` | propext, Classical.choice, Quot.sound |
| `Blake2s.C48_hex_reveals` | propext, Classical.choice, Quot.sound |
| `Blake2s.C48_hex_not_constant_time` | propext, Classical.choice, Quot.sound |
| `Blake2s.Mem.C49_sse41_compress_partial` | propext, Classical.choice, Quot.sound |
| `Blake2s.Mem.C49_hash4_exact_partial` | propext, Classical.choice, Quot.sound |
| `Blake2s.Mem.C49_hash4_exact_needs` | propext, Classical.choice, Quot.sound |
| `Blake2s.Mem.C49_element_false` | propext, Classical.choice, Quot.sound |
| `Blake2s.Mem.C49_avx2_compress8` | propext, Classical.choice, Quot.sound |
| `Blake2s.Mem.C49_vectorize_words8` | propext, Classical.choice, Quot.sound |
| `Blake2s.Mem.C49_compress8_vectorized` | propext, Classical.choice, Quot.sound |
| `Blake2s.Mem.C49_needs_alignment` | propext, Quot.sound |
| `Blake2s.Mem.C49_hash8_exact` | propext, Classical.choice, Quot.sound |
| `Blake2s.Mem.C49_hash8_exact_needs` | propext, Classical.choice, Quot.sound |
| `Blake2s.Mem.C49_safe_hash4_exact_partial` | propext, Classical.choice, Quot.sound |
| `Blake2s.Mem.C49_safe_hash8_exact` | propext, Classical.choice, Quot.sound |
| `Blake2s.C50_same_results` | propext, Quot.sound |
| `Blake2s.C50_history` | propext, Classical.choice, Quot.sound |
| `Blake2s.C50_update` | propext, Classical.choice, Quot.sound |
| `Blake2s.C50_finalize` | propext, Classical.choice, Quot.sound |
| `Blake2s.C50_one_shot` | propext, Classical.choice, Quot.sound |
| `Blake2s.C50_update8` | propext, Classical.choice, Quot.sound |
| `Blake2s.C50_finalize8` | propext, Classical.choice, Quot.sound |
| `Blake2s.C50_hash8` | propext, Classical.choice, Quot.sound |
| `Blake2s.C50_hash4_exact` | propext, Classical.choice, Quot.sound |
| `Blake2s.C50_hash8_exact` | propext, Classical.choice, Quot.sound |
| `Blake2s.C50_exact_keyed` | propext, Classical.choice, Quot.sound |
| `Blake2s.C50_blake2sp_same_results` | propext, Quot.sound |
| `Blake2s.C50_blake2sp` | propext, Classical.choice, Quot.sound |
| `Blake2s.C50_blake2sp_one_shot` | propext, Classical.choice, Quot.sound |
| `Blake2s.C50_program` | propext, Classical.choice, Quot.sound |
| `Blake2s.C50_data_independent` | propext, Classical.choice, Quot.sound |
| `Blake2s.C51_panics_speak` | propext, Classical.choice, Quot.sound |
| `Blake2s.C51_no_secrets` | propext, Classical.choice, Quot.sound |
| `Blake2s.C51_setters` | propext, Classical.choice, Quot.sound |
| `Blake2s.C51_setters_blake2sp` | propext, Quot.sound |
| `Blake2s.C51_setter_in_program` | propext, Classical.choice, Quot.sound |
| `Blake2s.C51_sp_setter_in_program` | propext, Classical.choice, Quot.sound |
| `Blake2s.C51_hash4_exact` | propext, Quot.sound |
| `Blake2s.C51_hash8_exact` | propext, Quot.sound |
| `Blake2s.C51_hash8` | propext, Quot.sound |
| `Blake2s.C51_keyed_blake2sp` | propext, Classical.choice, Quot.sound |
| `Blake2s.C52_usize` | propext, Classical.choice, Quot.sound |
| `Blake2s.PublicSp.C53_node` | propext, Classical.choice, Quot.sound |
| `Blake2s.PublicSp.C53_leaf` | propext, Classical.choice, Quot.sound |
| `Blake2s.PublicSp.C53_root` | propext, Classical.choice, Quot.sound |
| `Blake2s.PublicSp.C53_client` | propext, Classical.choice, Quot.sound |
| `Blake2s.PublicSp.C53_default` | propext, Classical.choice, Quot.sound |
| `Blake2s.PublicSp.C53_short_false` | propext, Classical.choice, Quot.sound |
| `Blake2s.PublicSp.C53_keyed_false` | propext, Classical.choice, Quot.sound |
| `Blake2s.PublicSp.C53_leaf_short` | propext, Classical.choice, Quot.sound |
| `Blake2s.PublicSp.C53_root_keyed` | propext, Classical.choice, Quot.sound |
| `Blake2s.C54_vector` | propext, Classical.choice, Quot.sound |
| `Blake2s.C54_portable` | propext, Classical.choice, Quot.sound |
| `Blake2s.C54_forced` | propext, Quot.sound |
| `Blake2s.C54_sp_same_results` | propext, Quot.sound |
| `Blake2s.C54_sp_forced` | propext, Quot.sound |
| `Blake2s.C54_batch` | propext, Quot.sound |
| `Blake2s.C54_finalize8` | propext, Quot.sound |
| `Blake2s.C54_update8` | propext, Classical.choice, Quot.sound |
| `Blake2s.C54_hash8` | propext, Classical.choice, Quot.sound |
| `Blake2s.C54_exact` | propext, Classical.choice, Quot.sound |
| `Blake2s.C54_blake2sp` | propext, Classical.choice, Quot.sound |
| `Blake2s.C54_blake2sp_bulk` | propext, Classical.choice, Quot.sound |
| `Blake2s.C54_blake2sp_one_piece` | propext, Classical.choice, Quot.sound |
| `Blake2s.C55_exact` | propext, Classical.choice, Quot.sound |
| `Blake2s.C55_remains` | propext, Classical.choice, Quot.sound |
| `Blake2s.C55_finalize` | propext, Classical.choice, Quot.sound |
| `Blake2s.C55_finalize_erases_key` | propext, Classical.choice, Quot.sound |
| `Blake2s.C55_key_remains` | propext, Classical.choice, Quot.sound |
| `Blake2s.C55_small_pieces` | propext, Classical.choice, Quot.sound |
| `Blake2s.C55_update8` | propext, Classical.choice, Quot.sound |
| `Blake2s.C55_finalize8` | propext, Classical.choice, Quot.sound |
| `Blake2s.Sp.C55_sp_key_stays` | propext, Classical.choice, Quot.sound |
| `Blake2s.Sp.C55_sp_remains` | propext, Classical.choice, Quot.sound |
| `Blake2s.Sp.C55_sp_finalize_keeps` | propext, Quot.sound |
| `Blake2s.C56_swap` | propext, Classical.choice, Quot.sound |
| `Blake2s.C56_swap_shared` | propext, Classical.choice, Quot.sound |
| `Blake2s.C56_threads` | propext, Classical.choice, Quot.sound |
| `Blake2s.C56_threads_alone` | propext, Classical.choice, Quot.sound |
| `Blake2s.C56_updates` | propext, Classical.choice, Quot.sound |
| `Blake2s.C56_sp_updates` | propext, Classical.choice, Quot.sound |
| `Blake2s.C56_update8` | propext, Classical.choice, Quot.sound |
| `Blake2s.C56_finalize8` | propext, Classical.choice, Quot.sound |
| `Blake2s.C56_hash8` | propext, Classical.choice, Quot.sound |
| `Blake2s.C56_hash8_key` | propext, Classical.choice, Quot.sound |
| `Blake2s.C56_hash8_exact` | propext, Classical.choice, Quot.sound |
| `Blake2s.C56_hash4_exact` | propext, Classical.choice, Quot.sound |
| `Blake2s.C56_blake2s` | propext, Classical.choice, Quot.sound |
| `Blake2s.C56_blake2sp` | propext, Classical.choice, Quot.sound |
| `Blake2s.C56_finalize_again` | propext, Classical.choice, Quot.sound |
| `Blake2s.C56_clone` | propext, Classical.choice, Quot.sound |
| `Blake2s.C56_nothing` | propext, Classical.choice, Quot.sound |
| `Blake2s.C57_cut` | propext, Quot.sound |
| `Blake2s.C57_determines` | propext, Quot.sound |
| `Blake2s.C57_finalize` | propext, Classical.choice, Quot.sound |
| `Blake2s.C57_finalize8` | propext, Classical.choice, Quot.sound |
| `Blake2s.C57_hash8` | propext, Classical.choice, Quot.sound |
| `Blake2s.C57_hash4_exact` | propext, Classical.choice, Quot.sound |
| `Blake2s.C57_hash8_exact` | propext, Classical.choice, Quot.sound |
| `Blake2s.C57_sp_finalize` | propext, Classical.choice, Quot.sound |
| `Blake2s.C57_hidden_unused` | propext, Classical.choice, Quot.sound |
| `Blake2s.C57_equal_holding_different` | propext, Quot.sound |
| `Blake2s.C58_shape` | propext, Classical.choice, Quot.sound |
| `Blake2s.C58_counters` | propext, Quot.sound |
| `Blake2s.C58_prefix_free` | propext, Quot.sound |
| `Blake2s.C58_no_extension` | propext, Classical.choice, Quot.sound |
| `Blake2s.C58_sp_no_extension` | propext, Classical.choice, Quot.sound |
| `Blake2s.C59_write_all` | propext, Quot.sound |
| `Blake2s.C59_write_fmt` | propext, Quot.sound |
| `Blake2s.C59_write_vectored` | propext, Quot.sound |
| `Blake2s.C59_copy` | propext, Quot.sound |
| `Blake2s.C59_sp_write_all` | propext, Quot.sound |
| `Blake2s.C59_sp_write_fmt` | propext, Quot.sound |
| `Blake2s.C59_sp_write_vectored` | propext, Quot.sound |
| `Blake2s.C59_sp_copy` | propext, Quot.sound |
| `Blake2s.C59_copy_digest` | propext, Classical.choice, Quot.sound |
| `Blake2s.C59_buf_writer` | propext, Classical.choice, Quot.sound |
| `Blake2s.C59_sp_copy_digest` | propext, Classical.choice, Quot.sound |
| `Blake2s.C59_sp_buf_writer` | propext, Classical.choice, Quot.sound |
| `Blake2s.C60_hash` | propext, Classical.choice, Quot.sound |
| `Blake2s.C60_collision_any` | propext, Classical.choice, Quot.sound |
| `Blake2s.C60_collision` | propext, Classical.choice, Quot.sound |
| `Blake2s.C60_message` | propext, Classical.choice, Quot.sound |
| `Blake2s.C60_depth_needed` | propext, Classical.choice, Quot.sound |
| `Blake2s.C60_blake2sp` | propext, Quot.sound |
| `Blake2s.C61_program` | propext, Classical.choice, Quot.sound |
| `Blake2s.C61_call` | propext, Classical.choice, Quot.sound |
| `Blake2s.C61_each` | propext, Quot.sound |
| `Blake2s.C61_batches` | propext, Quot.sound |
| `Blake2s.C61_at_least` | propext, Classical.choice, Quot.sound |
| `Blake2s.C62_blake2s` | propext, Classical.choice, Quot.sound |
| `Blake2s.C62_not_truncation` | propext, Classical.choice, Quot.sound |
| `Blake2s.Sp.C62_blake2sp` | propext, Classical.choice, Quot.sound |
| `Blake2s.Sp.C62_blake2sp_keyed` | propext, Classical.choice, Quot.sound |
| `Blake2s.Sp.C62_blake2sp_key_or_not` | propext, Classical.choice, Quot.sound |
| `Blake2s.Sp.C62_separation` | propext, Classical.choice, Quot.sound |
| `Blake2s.Sp.C62_separation_keyed` | propext, Classical.choice, Quot.sound |
| `Blake2s.Bench.C63_bytes` | propext, Classical.choice, Quot.sound |
| `Blake2s.Bench.C63_gig_bytes` | propext, Classical.choice, Quot.sound |
| `Blake2s.Bench.C63_report` | propext, Quot.sound |
| `Blake2s.Bench.C63_gig` | propext, Classical.choice, Quot.sound |
| `Blake2s.C64_portable` | propext, Quot.sound |
| `Blake2s.C64_sse41` | propext, Classical.choice, Quot.sound |
| `Blake2s.C64_many` | propext, Classical.choice, Quot.sound |
| `Blake2s.C64_spec` | propext, Classical.choice, Quot.sound |
| `Blake2s.C64_schedule` | propext, Quot.sound |
