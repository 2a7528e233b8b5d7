{
 "claims": [
  {
   "property": "C01",
   "status": "proved",
   "theorems": [
    "Blake2s.C01_one_shot",
    "Blake2s.C01_too_long"
   ],
   "note": ""
  },
  {
   "property": "C02",
   "status": "proved",
   "theorems": [
    "Blake2s.C02_parameterised",
    "Blake2s.C02_params"
   ],
   "note": ""
  },
  {
   "property": "C03",
   "status": "proved",
   "theorems": [
    "Blake2s.C03_split",
    "Blake2s.C03_digest"
   ],
   "note": ""
  },
  {
   "property": "C04",
   "status": "proved",
   "theorems": [
    "Blake2s.C04_finalize",
    "Blake2s.C04_no_disturbance",
    "Blake2s.C04_repeatable"
   ],
   "note": ""
  },
  {
   "property": "C05",
   "status": "partial",
   "theorems": [
    "Blake2s.C05_count_exact",
    "Blake2s.C05_count_partial",
    "Blake2s.C05_keyed_false"
   ],
   "note": "False of the code when a key is set: the counter also counts the 64-byte key block (C05_keyed_false). Proved: the exact value in every case (C05_count_exact) and the property for unkeyed states (C05_count_partial)."
  },
  {
   "property": "C06",
   "status": "proved",
   "theorems": [
    "Blake2s.C06_last_node",
    "Blake2s.C06_only_flag"
   ],
   "note": ""
  },
  {
   "property": "C07",
   "status": "proved",
   "theorems": [
    "Blake2s.C07_sse41",
    "Blake2s.C07_rfc"
   ],
   "note": ""
  },
  {
   "property": "C08",
   "status": "proved",
   "theorems": [
    "Blake2s.C08_transposed_all",
    "Blake2s.C08_avx2",
    "Blake2s.C08_portable"
   ],
   "note": ""
  },
  {
   "property": "C09",
   "status": "proved",
   "theorems": [
    "Blake2s.C09_sse41"
   ],
   "note": ""
  },
  {
   "property": "C10",
   "status": "proved",
   "theorems": [
    "Blake2s.C10_involution",
    "Blake2s.C10_steps"
   ],
   "note": ""
  },
  {
   "property": "C11",
   "status": "proved",
   "theorems": [
    "Blake2s.C11_update8",
    "Blake2s.C11_update8_panics"
   ],
   "note": ""
  },
  {
   "property": "C12",
   "status": "proved",
   "theorems": [
    "Blake2s.C12_finalize8"
   ],
   "note": ""
  },
  {
   "property": "C13",
   "status": "proved",
   "theorems": [
    "Blake2s.C13_hash4_exact",
    "Blake2s.C13_refuses"
   ],
   "note": ""
  },
  {
   "property": "C14",
   "status": "proved",
   "theorems": [
    "Blake2s.C14_hash8_exact",
    "Blake2s.C14_refuses"
   ],
   "note": ""
  },
  {
   "property": "C15",
   "status": "proved",
   "theorems": [
    "Blake2s.C15_hash8",
    "Blake2s.C15_refuses"
   ],
   "note": ""
  },
  {
   "property": "C16",
   "status": "proved",
   "theorems": [
    "Blake2s.C16_hash4_exact",
    "Blake2s.C16_hash8_exact",
    "Blake2s.C16_program"
   ],
   "note": ""
  },
  {
   "property": "C17",
   "status": "proved",
   "theorems": [
    "Blake2s.C17_program"
   ],
   "note": ""
  },
  {
   "property": "C18",
   "status": "partial",
   "theorems": [
    "Blake2s.C18_same_backend",
    "Blake2s.C18_forced",
    "Blake2s.C18_platforms_partial",
    "Blake2s.C18_keyed_exact_false"
   ],
   "note": "False as stated, because of C19: C18_keyed_exact_false. Proved: every program on any two platforms that select the same back end (C18_same_backend), forcing the portable implementation at any moments of any program (C18_forced), and any two platforms for programs that do not pass a key to hash4_exact / hash8_exact (C18_platforms_partial)."
  },
  {
   "property": "C19",
   "status": "partial",
   "theorems": [
    "Blake2s.C19_portable",
    "Blake2s.C19_portable8",
    "Blake2s.C19_partial",
    "Blake2s.C19_simd_ignores_key",
    "Blake2s.C19_simd_exact",
    "Blake2s.C19_false"
   ],
   "note": "False on AVX2 machines with std: C19_false is a concrete keyed counterexample and C19_simd_ignores_key shows that the key bytes never matter there; C19_simd_exact says which digests it returns. Proved: the portable back end honours the key, and every back end agrees with separate hashing for unkeyed parameters (C19_partial)."
  },
  {
   "property": "C20",
   "status": "proved",
   "theorems": [
    "Blake2s.C20_accepts",
    "Blake2s.C20_rejects",
    "Blake2s.C20_new",
    "Blake2s.C20_view_injective",
    "Blake2s.Sp.C20_sp_accepts",
    "Blake2s.Sp.C20_sp_rejects",
    "Blake2s.Sp.C20_sp_new",
    "Blake2s.Sp.C20_sp_view_injective",
    "Blake2s.C20_unchanged",
    "Blake2s.C20_sp_unchanged"
   ],
   "note": ""
  },
  {
   "property": "C21",
   "status": "proved",
   "theorems": [
    "Blake2s.C21_last_wins",
    "Blake2s.C21_commute",
    "Blake2s.C21_salt_padding",
    "Blake2s.C21_personal_padding",
    "Blake2s.C21_sequence_last_wins",
    "Blake2s.C21_sequence_order",
    "Blake2s.Sp.C21_sp_last_wins",
    "Blake2s.Sp.C21_sp_commute"
   ],
   "note": ""
  },
  {
   "property": "C22",
   "status": "proved",
   "theorems": [
    "Blake2s.C22_chaining_value",
    "Blake2s.C22_first_block",
    "Blake2s.Sp.C22_sp_leaves",
    "Blake2s.Sp.C22_sp_roots",
    "Blake2s.Sp.C22_sp_leaf_root",
    "Blake2s.Sp.C22_sp_blake2s",
    "Blake2s.Sp.C22_sp_first_block"
   ],
   "note": ""
  },
  {
   "property": "C23",
   "status": "proved",
   "theorems": [
    "Blake2s.C23_program",
    "Blake2s.C23_finalize",
    "Blake2s.C23_bulk",
    "Blake2s.C23_sp_finalize"
   ],
   "note": ""
  },
  {
   "property": "C24",
   "status": "proved",
   "theorems": [
    "Blake2s.C24_to_hex",
    "Blake2s.C24_shape",
    "Blake2s.C24_decodes",
    "Blake2s.C24_debug"
   ],
   "note": ""
  },
  {
   "property": "C25",
   "status": "proved",
   "theorems": [
    "Blake2s.C25_eq",
    "Blake2s.C25_eq_slice",
    "Blake2s.C25_lengths",
    "Blake2s.C25_refl",
    "Blake2s.C25_symm",
    "Blake2s.C25_trans"
   ],
   "note": ""
  },
  {
   "property": "C26",
   "status": "proved",
   "theorems": [
    "Blake2s.Sp.C26_one_shot"
   ],
   "note": ""
  },
  {
   "property": "C27",
   "status": "proved",
   "theorems": [
    "Blake2s.Sp.C27_digest",
    "Blake2s.Sp.C27_split"
   ],
   "note": ""
  },
  {
   "property": "C28",
   "status": "proved",
   "theorems": [
    "Blake2s.Sp.C28_finalize",
    "Blake2s.Sp.C28_unchanged",
    "Blake2s.Sp.C28_removable",
    "Blake2s.Sp.C28_repeatable"
   ],
   "note": ""
  },
  {
   "property": "C29",
   "status": "partial",
   "theorems": [
    "Blake2s.Sp.C29_count_exact",
    "Blake2s.Sp.C29_count_partial",
    "Blake2s.Sp.C29_keyed_false"
   ],
   "note": "False of the code when a key is set: the counter also counts eight 64-byte key blocks (C29_keyed_false). Proved: the exact value after every history, with or without a key (C29_count_exact), and the property for unkeyed states (C29_count_partial)."
  },
  {
   "property": "C30",
   "status": "partial",
   "theorems": [
    "Blake2s.Sp.C30_release_differs",
    "Blake2s.Sp.C30_partial",
    "Blake2s.Sp.C30_debug_panics",
    "Blake2s.Sp.C30_release_exact",
    "Blake2s.Sp.C30_release_wrong",
    "Blake2s.Sp.C30_false"
   ],
   "note": "False of the code (C30_false): with a key, debug builds panic on every history that leaves the buffer (C30_debug_panics) and release builds return a wrong digest that depends on how the input is cut (C30_release_wrong; C30_release_exact says which digest, for every history). Proved: the property for every unkeyed history and for every keyed history within the buffer (C30_partial)."
  },
  {
   "property": "C31",
   "status": "proved",
   "theorems": [
    "Blake2s.C31_write",
    "Blake2s.C31_flush",
    "Blake2s.C31_pieces",
    "Blake2s.Sp.C31_sp_write",
    "Blake2s.Sp.C31_sp_flush",
    "Blake2s.Sp.C31_sp_pieces"
   ],
   "note": ""
  },
  {
   "property": "C32",
   "status": "proved",
   "theorems": [
    "Blake2s.C32_programs",
    "Blake2s.C32_state",
    "Blake2s.C32_sp_params",
    "Blake2s.C32_sp_state"
   ],
   "note": ""
  },
  {
   "property": "C33",
   "status": "proved",
   "theorems": [
    "Blake2s.C33_states",
    "Blake2s.C33_params",
    "Blake2s.C33_hashes",
    "Blake2s.C33_sp_states",
    "Blake2s.C33_same_life"
   ],
   "note": ""
  },
  {
   "property": "C34",
   "status": "partial",
   "theorems": [
    "Blake2s.C34_exact",
    "Blake2s.C34_refinement_partial",
    "Blake2s.C34_unkeyed",
    "Blake2s.C34_ideal_false"
   ],
   "note": "C34_exact is a complete answer: every program, on every platform and in every build profile, has exactly the outputs (or the kind of panic) of the deterministic machine of Verif/Exact.lean, which has no buffers, blocks or lanes. Partial because that machine is not the ideal one of the statement where the code departs from its documentation; C34_ideal_false shows that the literal statement fails with keys. C34_refinement_partial is the refinement against the ideal machine with those cases left open (C05, C19, C29, C30). C34_unkeyed is the literal statement for every program without keys."
  },
  {
   "property": "C35",
   "status": "proved",
   "theorems": [
    "Blake2s.C35_program",
    "Blake2s.C35_release",
    "Blake2s.C35_many",
    "Blake2s.C35_update",
    "Blake2s.C35_finalize",
    "Blake2s.C35_to_state",
    "Blake2s.Sp.C35_sp",
    "Blake2s.Sp.C35_sp_to_state"
   ],
   "note": ""
  },
  {
   "property": "C36",
   "status": "partial",
   "theorems": [
    "Blake2s.C36_batch",
    "Blake2s.C36_indistinguishable",
    "Blake2s.Sp.C36_blake2sp_partial",
    "Blake2s.Sp.C36_blake2sp_rows",
    "Blake2s.Sp.C36_blake2sp_false",
    "Blake2s.Sp.C36_blake2sp_debug_false"
   ],
   "note": "Proved of BLAKE2s states under all calls, batch calls included (C36_indistinguishable, C36_batch), and of BLAKE2sp states without a key, digests and counts (C36_blake2sp_partial). False of keyed BLAKE2sp states that have left the buffer (C36_blake2sp_false; see C30), and the Debug text of a BLAKE2sp state shows how its input was cut (C36_blake2sp_debug_false). C36_blake2sp_rows is a complete answer: bytes fed and rows passed on determine everything."
  },
  {
   "property": "C37",
   "status": "proved",
   "theorems": [
    "Blake2s.C37_collision",
    "Blake2s.C37_any_length",
    "Blake2s.C37_one_shot",
    "Blake2s.C37_trace_output"
   ],
   "note": ""
  },
  {
   "property": "C38",
   "status": "proved",
   "theorems": [
    "Blake2s.Sp.C38_collision",
    "Blake2s.Sp.C38_any_length",
    "Blake2s.Sp.C38_one_shot",
    "Blake2s.Sp.C38_keyed",
    "Blake2s.Sp.C38_key_or_not",
    "Blake2s.Sp.C38_keyed_any_length",
    "Blake2s.Sp.C38_key_or_not_any_length"
   ],
   "note": ""
  },
  {
   "property": "C39",
   "status": "proved",
   "theorems": [
    "Blake2s.C39_constructors",
    "Blake2s.C39_defaults",
    "Blake2s.Sp.C39_sp_constructors",
    "Blake2s.Sp.C39_sp_defaults"
   ],
   "note": ""
  },
  {
   "property": "C40",
   "status": "proved",
   "theorems": [
    "Blake2s.C40_control_flow"
   ],
   "note": ""
  },
  {
   "property": "C41",
   "status": "proved",
   "theorems": [
    "Blake2s.Sp.C41_reference",
    "Blake2s.Sp.C41_pieces"
   ],
   "note": ""
  },
  {
   "property": "C42",
   "status": "proved",
   "theorems": [
    "Blake2s.C42_profiles"
   ],
   "note": ""
  },
  {
   "property": "C43",
   "status": "proved",
   "theorems": [
    "Blake2s.C43_rfc_self_test",
    "Blake2s.Tests.C43_test_blake2s",
    "Blake2s.Tests.C43_test_blake2sp",
    "Blake2s.Tests.C43_test_blake2s_passes",
    "Blake2s.Tests.C43_test_blake2sp_passes",
    "Blake2s.C43_blake2s",
    "Blake2s.C43_blake2sp",
    "Blake2s.C43_blake2s_keyed",
    "Blake2s.C43_blake2sp_keyed",
    "Blake2s.C43_all_parameters",
    "Blake2s.C43_all_parameters_sp"
   ],
   "note": ""
  },
  {
   "property": "C44",
   "status": "proved",
   "theorems": [
    "Blake2s.C44_first_panic",
    "Blake2s.C44_safe",
    "Blake2s.C44_unchanged",
    "Blake2s.C44_exact",
    "Blake2s.C44_exact_unchecked",
    "Blake2s.C44_truncates",
    "Blake2s.C44_platforms",
    "Blake2s.C44_control_flow"
   ],
   "note": "C44_exact stops at the first overflow of a byte counter in update, write or update8 (2^64 bytes); C44_safe, C44_platforms and C44_control_flow cover what follows too."
  },
  {
   "property": "C45",
   "status": "proved",
   "theorems": [
    "Blake2s.Sp.C45_separation",
    "Blake2s.Sp.C45_any_length",
    "Blake2s.Sp.C45_keyed",
    "Blake2s.Sp.C45_one_shot"
   ],
   "note": ""
  },
  {
   "property": "C46",
   "status": "proved",
   "theorems": [
    "Blake2s.Tests.C46_compression_impls",
    "Blake2s.Tests.C46_compression_constants",
    "Blake2s.Tests.C46_vectors",
    "Blake2s.Tests.C46_vectors_only",
    "Blake2s.Tests.C46_vectors_constants",
    "Blake2s.Tests.C46_multiple_finalizes",
    "Blake2s.Tests.C46_multiple_finalizes_constants",
    "Blake2s.Tests.C46_write",
    "Blake2s.Tests.C46_write_constants",
    "Blake2s.Tests.C46_all_parameters",
    "Blake2s.Tests.C46_all_parameters_constants",
    "Blake2s.Tests.C46_all_parameters_blake2sp",
    "Blake2s.Tests.C46_all_parameters_blake2sp_constants",
    "Blake2s.Tests.C46_should_panic",
    "Blake2s.Tests.C46_update8_loop",
    "Blake2s.Tests.C46_update8_constants",
    "Blake2s.Tests.C46_hash4_exact",
    "Blake2s.Tests.C46_hash8_exact",
    "Blake2s.Tests.C46_hash8",
    "Blake2s.Tests.C46_buffering",
    "Blake2s.Tests.C46_buffering_constants",
    "Blake2s.Tests.C46_interleave128",
    "Blake2s.Tests.C46_load_2x256",
    "Blake2s.Tests.C46_transpose_avx2",
    "Blake2s.Tests.C46_transpose_sse41",
    "Blake2s.Tests.C46_hash4_exact_constants",
    "Blake2s.Tests.C46_hash8_exact_constants",
    "Blake2s.Tests.C46_hash8_constants"
   ],
   "note": ""
  },
  {
   "property": "C47",
   "status": "partial",
   "theorems": [
    "Blake2s.Bench.C47_compress",
    "Blake2s.Bench.C47_compress8",
    "Blake2s.Bench.C47_compress4_transposed",
    "Blake2s.Bench.C47_compress8_vectorized",
    "Blake2s.Bench.C47_compress8_transposed_all",
    "Blake2s.Bench.C47_hash",
    "Blake2s.Bench.C47_update8",
    "Blake2s.Bench.C47_gig_update8",
    "Blake2s.Bench.C47_hash_many",
    "Blake2s.Bench.C47_false",
    "Blake2s.Bench.C47_supported_partial",
    "Blake2s.Bench.C47_same_results",
    "Blake2s.Bench.C47_portable",
    "Blake2s.Bench.C47_portable_blocks",
    "Blake2s.Bench.C47_vector"
   ],
   "note": "False of bench_blake2s_sse41_compress, which has no run-time check: C47_false. Proved of every other benchmark (C47_supported_partial), and what each computes for all of them (the SSE4.1 one where the CPU has SSE4.1). benches/count_cycles is not modelled: it calls a function that the crate does not define."
  },
  {
   "property": "C48",
   "status": "partial",
   "theorems": [
    "Blake2s.C48_same_results",
    "Blake2s.C48_constant_time_partial",
    "Blake2s.C48_printed_only",
    "Blake2s.C48_hex_reveals",
    "Blake2s.C48_hex_not_constant_time"
   ],
   "note": "False of Hash::to_hex and Debug of Hash, which look up digits in a table by digest nibbles: C48_hex_reveals, C48_hex_not_constant_time. Proved of every program that does not call them (C48_constant_time_partial), and of every program that does, relative to the digests printed (C48_printed_only). Source level: compiler output, the body of constant_time_eq, and literal positions (including all of the vector code, which has no others and no branches) are not in the trace."
  },
  {
   "property": "C49",
   "status": "partial",
   "theorems": [
    "Blake2s.Mem.C49_sse41_compress_partial",
    "Blake2s.Mem.C49_hash4_exact_partial",
    "Blake2s.Mem.C49_hash4_exact_needs",
    "Blake2s.Mem.C49_element_false",
    "Blake2s.Mem.C49_avx2_compress8",
    "Blake2s.Mem.C49_vectorize_words8",
    "Blake2s.Mem.C49_compress8_vectorized",
    "Blake2s.Mem.C49_needs_alignment",
    "Blake2s.Mem.C49_hash8_exact",
    "Blake2s.Mem.C49_hash8_exact_needs",
    "Blake2s.Mem.C49_safe_hash4_exact_partial",
    "Blake2s.Mem.C49_safe_hash8_exact"
   ],
   "note": "False under the rule that a pointer made from a reference to an array element may be used for that element only (C49_element_false): src/sse41.rs reads 16 bytes through &h[0] and &IV[0] and writes 16 through &mut bytes0[0]. Proved for sse41 under the rule that it may be used for the array (the _partial theorems); the AVX2 functions, which use as_ptr, are proved under both. C49_hash4_exact_needs, C49_hash8_exact_needs and C49_needs_alignment show that the preconditions are needed; C49_safe_hash4_exact_partial and C49_safe_hash8_exact that the safe functions establish them. Not modelled: aliasing of references, validity of memory the arguments point to."
  },
  {
   "property": "C50",
   "status": "proved",
   "theorems": [
    "Blake2s.C50_same_results",
    "Blake2s.C50_history",
    "Blake2s.C50_update",
    "Blake2s.C50_finalize",
    "Blake2s.C50_one_shot",
    "Blake2s.C50_update8",
    "Blake2s.C50_finalize8",
    "Blake2s.C50_hash8",
    "Blake2s.C50_hash4_exact",
    "Blake2s.C50_hash8_exact",
    "Blake2s.C50_exact_keyed",
    "Blake2s.C50_blake2sp_same_results",
    "Blake2s.C50_blake2sp",
    "Blake2s.C50_blake2sp_one_shot",
    "Blake2s.C50_program",
    "Blake2s.C50_data_independent"
   ],
   "note": "Read off the traces of Model/Leak.lean. C50_blake2sp and C50_exact_keyed speak of calls that return (keyed BLAKE2sp may panic in a debug build, C30; unkeyed BLAKE2sp returns by C27); the others need no such hypothesis. C50_program is about legal programs (as in C35). C50_exact_keyed: with a key, the SIMD hash4_exact and hash8_exact compress one block less per input, because they ignore the key (C19)."
  },
  {
   "property": "C51",
   "status": "proved",
   "theorems": [
    "Blake2s.C51_panics_speak",
    "Blake2s.C51_no_secrets",
    "Blake2s.C51_setters",
    "Blake2s.C51_setters_blake2sp",
    "Blake2s.C51_setter_in_program",
    "Blake2s.C51_sp_setter_in_program",
    "Blake2s.C51_hash4_exact",
    "Blake2s.C51_hash8_exact",
    "Blake2s.C51_hash8",
    "Blake2s.C51_keyed_blake2sp"
   ],
   "note": "C51_panics_speak is about legal programs (as in C35: eight different states per update8, slices of fewer than 2^63 bytes), C51_no_secrets about all. The message of hash4_exact names hash8_exact (lib.rs:787): C51_hash4_exact states what the code says. Source locations in messages are not modelled; the texts of assert_eq! and of overflow checks are those of Rust 1.31."
  },
  {
   "property": "C52",
   "status": "proved",
   "theorems": [
    "Blake2s.C52_usize"
   ],
   "note": "Additions and subtractions written in the library's own functions and in array_ref!; products and sums of literals (8 * BLOCKBYTES) are constants of the source. saturating_sub cannot overflow. That results do not depend on the pointer width is read off the theorem: the model computes with exact numbers, which are the machine's as long as they fit. Not covered: continuing after a caught panic, the test modules and benches."
  },
  {
   "property": "C53",
   "status": "proved",
   "theorems": [
    "Blake2s.PublicSp.C53_node",
    "Blake2s.PublicSp.C53_leaf",
    "Blake2s.PublicSp.C53_root",
    "Blake2s.PublicSp.C53_client",
    "Blake2s.PublicSp.C53_default",
    "Blake2s.PublicSp.C53_short_false",
    "Blake2s.PublicSp.C53_keyed_false",
    "Blake2s.PublicSp.C53_leaf_short",
    "Blake2s.PublicSp.C53_root_keyed"
   ],
   "note": "The two _false theorems are the negative half of the property, with concrete witnesses on every platform; C53_leaf_short and C53_root_keyed say why no other sequence of setters and calls helps. That no cleverer program reaches the digest (for instance by chance) is not claimed."
  },
  {
   "property": "C54",
   "status": "proved",
   "theorems": [
    "Blake2s.C54_vector",
    "Blake2s.C54_portable",
    "Blake2s.C54_forced",
    "Blake2s.C54_sp_same_results",
    "Blake2s.C54_sp_forced",
    "Blake2s.C54_batch",
    "Blake2s.C54_finalize8",
    "Blake2s.C54_update8",
    "Blake2s.C54_hash8",
    "Blake2s.C54_exact",
    "Blake2s.C54_blake2sp",
    "Blake2s.C54_blake2sp_bulk",
    "Blake2s.C54_blake2sp_one_piece"
   ],
   "note": "Read off the traces of Model/Leak.lean, which record every call through the function pointers of the Implementation structs and every step of the SIMD exact functions. C54_batch is the negative half of the sentence on force_portable. How fast the code runs is not modelled."
  },
  {
   "property": "C55",
   "status": "proved",
   "theorems": [
    "Blake2s.C55_exact",
    "Blake2s.C55_remains",
    "Blake2s.C55_finalize",
    "Blake2s.C55_finalize_erases_key",
    "Blake2s.C55_key_remains",
    "Blake2s.C55_small_pieces",
    "Blake2s.C55_update8",
    "Blake2s.C55_finalize8",
    "Blake2s.Sp.C55_sp_key_stays",
    "Blake2s.Sp.C55_sp_remains",
    "Blake2s.Sp.C55_sp_finalize_keeps"
   ],
   "note": "The fields of State and blake2sp::State as the model has them. Copies on the stack (the local variables of the functions, the leaves and the root that blake2sp finalize clones) and what the compiler or the allocator leaves behind are not modelled, nor is memory after a drop; the library has no Drop implementation that would erase anything. Calls that panic are not among the histories."
  },
  {
   "property": "C56",
   "status": "proved",
   "theorems": [
    "Blake2s.C56_swap",
    "Blake2s.C56_swap_shared",
    "Blake2s.C56_threads",
    "Blake2s.C56_threads_alone",
    "Blake2s.C56_updates",
    "Blake2s.C56_sp_updates",
    "Blake2s.C56_update8",
    "Blake2s.C56_finalize8",
    "Blake2s.C56_hash8",
    "Blake2s.C56_hash8_key",
    "Blake2s.C56_hash8_exact",
    "Blake2s.C56_hash4_exact",
    "Blake2s.C56_blake2s",
    "Blake2s.C56_blake2sp",
    "Blake2s.C56_finalize_again",
    "Blake2s.C56_clone",
    "Blake2s.C56_nothing"
   ],
   "note": "Threads are interleaved call by call: as safe Rust gives two threads no memory that one of them changes, and the library keeps none of its own besides the constants, steps inside two calls commute as well, but that is an argument about Rust and not part of the model. A panic is compared without its kind, since two calls that both panic would panic differently after a swap."
  },
  {
   "property": "C57",
   "status": "proved",
   "theorems": [
    "Blake2s.C57_cut",
    "Blake2s.C57_determines",
    "Blake2s.C57_finalize",
    "Blake2s.C57_finalize8",
    "Blake2s.C57_hash8",
    "Blake2s.C57_hash4_exact",
    "Blake2s.C57_hash8_exact",
    "Blake2s.C57_sp_finalize",
    "Blake2s.C57_hidden_unused",
    "Blake2s.C57_equal_holding_different"
   ],
   "note": "The fields bytes and len of Hash as the model has them. For hash4_exact and hash8_exact without a key, and for blake2sp without a key or with input that stays in the buffer, since otherwise another value than the specified one is computed (C19, C30)."
  },
  {
   "property": "C58",
   "status": "proved",
   "theorems": [
    "Blake2s.C58_shape",
    "Blake2s.C58_counters",
    "Blake2s.C58_prefix_free",
    "Blake2s.C58_no_extension",
    "Blake2s.C58_sp_no_extension"
   ],
   "note": "A reduction, like C37: that the compression function has no collisions is not provable and not assumed; a chaining value that equals a digest is turned into a collision. C58_shape, C58_counters and C58_prefix_free are about the list of compressions in SpecTrace.lean, which the digests of the code are connected with by C57_finalize and C02."
  },
  {
   "property": "C59",
   "status": "proved",
   "theorems": [
    "Blake2s.C59_write_all",
    "Blake2s.C59_write_fmt",
    "Blake2s.C59_write_vectored",
    "Blake2s.C59_copy",
    "Blake2s.C59_sp_write_all",
    "Blake2s.C59_sp_write_fmt",
    "Blake2s.C59_sp_write_vectored",
    "Blake2s.C59_sp_copy",
    "Blake2s.C59_copy_digest",
    "Blake2s.C59_buf_writer",
    "Blake2s.C59_sp_copy_digest",
    "Blake2s.C59_sp_buf_writer"
   ],
   "note": "The standard library's part is written after its documentation (StdIo.lean) and belongs to the trusted base of this property only. Writers with errors are left out, since both write functions always return Ok. For a BufWriter around a keyed blake2sp state nothing is claimed about digests (C30)."
  },
  {
   "property": "C60",
   "status": "proved",
   "theorems": [
    "Blake2s.C60_hash",
    "Blake2s.C60_collision_any",
    "Blake2s.C60_collision",
    "Blake2s.C60_message",
    "Blake2s.C60_depth_needed",
    "Blake2s.C60_blake2sp"
   ],
   "note": "The caller (treeRun in Tree.lean) is not code of the crate. That the compression function has no collisions is not assumed; equal hashes are turned into a collision, as in C37. C60_blake2sp is about the specifications; C26 connects the code with them. All nodes have the same hash_length, which C60_collision and C60_message take to be 32."
  },
  {
   "property": "C61",
   "status": "proved",
   "theorems": [
    "Blake2s.C61_program",
    "Blake2s.C61_call",
    "Blake2s.C61_each",
    "Blake2s.C61_batches",
    "Blake2s.C61_at_least"
   ],
   "note": "A step is an entry of the trace of Model/Leak.lean; what happens between two entries is straight-line code, a copy within a buffer of at most 1024 bytes, one vector compression or a pass over at most 64 bytes. Time itself is not modelled."
  },
  {
   "property": "C62",
   "status": "proved",
   "theorems": [
    "Blake2s.C62_blake2s",
    "Blake2s.C62_not_truncation",
    "Blake2s.Sp.C62_blake2sp",
    "Blake2s.Sp.C62_blake2sp_keyed",
    "Blake2s.Sp.C62_blake2sp_key_or_not",
    "Blake2s.Sp.C62_separation",
    "Blake2s.Sp.C62_separation_keyed"
   ],
   "note": "C62_blake2s is the general statement; C62_not_truncation is the case of a short digest and a longer one; C62_separation and C62_separation_keyed compare BLAKE2s with BLAKE2sp. A digest in the sense of as_bytes; the bytes a Hash holds beyond them are in C57 and C58."
  },
  {
   "property": "C63",
   "status": "proved",
   "theorems": [
    "Blake2s.Bench.C63_bytes",
    "Blake2s.Bench.C63_gig_bytes",
    "Blake2s.Bench.C63_report",
    "Blake2s.Bench.C63_gig"
   ],
   "note": "C63_bytes and C63_gig_bytes: bytes and blocks. C63_report and C63_gig: what is printed, given the times. The text of run #2 says 4-way, although hash_update8 works on eight inputs at once. Not modelled: clocks, floating point, b.bytes of the benchmarks of single compression functions (one call each), the test harness."
  },
  {
   "property": "C64",
   "status": "proved",
   "theorems": [
    "Blake2s.C64_portable",
    "Blake2s.C64_sse41",
    "Blake2s.C64_many",
    "Blake2s.C64_spec",
    "Blake2s.C64_schedule"
   ],
   "note": "C64_portable, C64_sse41, C64_many: the rounds of the code. C64_spec: those of the RFC. C64_schedule: the table. The compression function itself is not a permutation, because the working words are folded at the end; nothing is claimed of that."
  }
 ]
}