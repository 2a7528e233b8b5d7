{
 "C05": {
  "status": "partial",
  "note": "False of the code when a key is set: the counter also counts the 64-byte key block (C05_keyed_false). Proved: the exact value in every case (C05_count_exact) and the property for unkeyed states (C05_count_partial)."
 },
 "C19": {
  "status": "partial",
  "note": "False on AVX2 machines with std: C19_false is a concrete keyed counterexample and C19_simd_ignores_key shows that the key bytes never matter there; C19_simd_exact says which digests it returns. Proved: the portable back end honours the key, and every back end agrees with separate hashing for unkeyed parameters (C19_partial)."
 },
 "C29": {
  "status": "partial",
  "note": "False of the code when a key is set: the counter also counts eight 64-byte key blocks (C29_keyed_false). Proved: the exact value after every history, with or without a key (C29_count_exact), and the property for unkeyed states (C29_count_partial)."
 },
 "C30": {
  "status": "partial",
  "note": "False of the code (C30_false): with a key, debug builds panic on every history that leaves the buffer (C30_debug_panics) and release builds return a wrong digest that depends on how the input is cut (C30_release_wrong; C30_release_exact says which digest, for every history). Proved: the property for every unkeyed history and for every keyed history within the buffer (C30_partial)."
 },
 "C18": {
  "status": "partial",
  "note": "False as stated, because of C19: C18_keyed_exact_false. Proved: every program on any two platforms that select the same back end (C18_same_backend), forcing the portable implementation at any moments of any program (C18_forced), and any two platforms for programs that do not pass a key to hash4_exact / hash8_exact (C18_platforms_partial)."
 },
 "C34": {
  "status": "partial",
  "note": "C34_exact is a complete answer: every program, on every platform and in every build profile, has exactly the outputs (or the kind of panic) of the deterministic machine of Verif/Exact.lean, which has no buffers, blocks or lanes. Partial because that machine is not the ideal one of the statement where the code departs from its documentation; C34_ideal_false shows that the literal statement fails with keys. C34_refinement_partial is the refinement against the ideal machine with those cases left open (C05, C19, C29, C30). C34_unkeyed is the literal statement for every program without keys."
 },
 "C44": {
  "status": "proved",
  "note": "C44_exact stops at the first overflow of a byte counter in update, write or update8 (2^64 bytes); C44_safe, C44_platforms and C44_control_flow cover what follows too."
 },
 "C47": {
  "status": "partial",
  "note": "False of bench_blake2s_sse41_compress, which has no run-time check: C47_false. Proved of every other benchmark (C47_supported_partial), and what each computes for all of them (the SSE4.1 one where the CPU has SSE4.1). benches/count_cycles is not modelled: it calls a function that the crate does not define."
 },
 "C48": {
  "status": "partial",
  "note": "False of Hash::to_hex and Debug of Hash, which look up digits in a table by digest nibbles: C48_hex_reveals, C48_hex_not_constant_time. Proved of every program that does not call them (C48_constant_time_partial), and of every program that does, relative to the digests printed (C48_printed_only). Source level: compiler output, the body of constant_time_eq, and literal positions (including all of the vector code, which has no others and no branches) are not in the trace."
 },
 "C49": {
  "status": "partial",
  "note": "False under the rule that a pointer made from a reference to an array element may be used for that element only (C49_element_false): src/sse41.rs reads 16 bytes through &h[0] and &IV[0] and writes 16 through &mut bytes0[0]. Proved for sse41 under the rule that it may be used for the array (the _partial theorems); the AVX2 functions, which use as_ptr, are proved under both. C49_hash4_exact_needs, C49_hash8_exact_needs and C49_needs_alignment show that the preconditions are needed; C49_safe_hash4_exact_partial and C49_safe_hash8_exact that the safe functions establish them. Not modelled: aliasing of references, validity of memory the arguments point to."
 },
 "C50": {
  "status": "proved",
  "note": "Read off the traces of Model/Leak.lean. C50_blake2sp and C50_exact_keyed speak of calls that return (keyed BLAKE2sp may panic in a debug build, C30; unkeyed BLAKE2sp returns by C27); the others need no such hypothesis. C50_program is about legal programs (as in C35). C50_exact_keyed: with a key, the SIMD hash4_exact and hash8_exact compress one block less per input, because they ignore the key (C19)."
 },
 "C51": {
  "status": "proved",
  "note": "C51_panics_speak is about legal programs (as in C35: eight different states per update8, slices of fewer than 2^63 bytes), C51_no_secrets about all. The message of hash4_exact names hash8_exact (lib.rs:787): C51_hash4_exact states what the code says. Source locations in messages are not modelled; the texts of assert_eq! and of overflow checks are those of Rust 1.31."
 },
 "C36": {
  "status": "partial",
  "note": "Proved of BLAKE2s states under all calls, batch calls included (C36_indistinguishable, C36_batch), and of BLAKE2sp states without a key, digests and counts (C36_blake2sp_partial). False of keyed BLAKE2sp states that have left the buffer (C36_blake2sp_false; see C30), and the Debug text of a BLAKE2sp state shows how its input was cut (C36_blake2sp_debug_false). C36_blake2sp_rows is a complete answer: bytes fed and rows passed on determine everything."
 },
 "C52": {
  "status": "proved",
  "note": "Additions and subtractions written in the library's own functions and in array_ref!; products and sums of literals (8 * BLOCKBYTES) are constants of the source. saturating_sub cannot overflow. That results do not depend on the pointer width is read off the theorem: the model computes with exact numbers, which are the machine's as long as they fit. Not covered: continuing after a caught panic, the test modules and benches."
 },
 "C53": {
  "status": "proved",
  "note": "The two _false theorems are the negative half of the property, with concrete witnesses on every platform; C53_leaf_short and C53_root_keyed say why no other sequence of setters and calls helps. That no cleverer program reaches the digest (for instance by chance) is not claimed."
 },
 "C54": {
  "status": "proved",
  "note": "Read off the traces of Model/Leak.lean, which record every call through the function pointers of the Implementation structs and every step of the SIMD exact functions. C54_batch is the negative half of the sentence on force_portable. How fast the code runs is not modelled."
 },
 "C55": {
  "status": "proved",
  "note": "The fields of State and blake2sp::State as the model has them. Copies on the stack (the local variables of the functions, the leaves and the root that blake2sp finalize clones) and what the compiler or the allocator leaves behind are not modelled, nor is memory after a drop; the library has no Drop implementation that would erase anything. Calls that panic are not among the histories."
 },
 "C56": {
  "status": "proved",
  "note": "Threads are interleaved call by call: as safe Rust gives two threads no memory that one of them changes, and the library keeps none of its own besides the constants, steps inside two calls commute as well, but that is an argument about Rust and not part of the model. A panic is compared without its kind, since two calls that both panic would panic differently after a swap."
 },
 "C57": {
  "status": "proved",
  "note": "The fields bytes and len of Hash as the model has them. For hash4_exact and hash8_exact without a key, and for blake2sp without a key or with input that stays in the buffer, since otherwise another value than the specified one is computed (C19, C30)."
 },
 "C58": {
  "status": "proved",
  "note": "A reduction, like C37: that the compression function has no collisions is not provable and not assumed; a chaining value that equals a digest is turned into a collision. C58_shape, C58_counters and C58_prefix_free are about the list of compressions in SpecTrace.lean, which the digests of the code are connected with by C57_finalize and C02."
 },
 "C59": {
  "status": "proved",
  "note": "The standard library's part is written after its documentation (StdIo.lean) and belongs to the trusted base of this property only. Writers with errors are left out, since both write functions always return Ok. For a BufWriter around a keyed blake2sp state nothing is claimed about digests (C30)."
 },
 "C60": {
  "status": "proved",
  "note": "The caller (treeRun in Tree.lean) is not code of the crate. That the compression function has no collisions is not assumed; equal hashes are turned into a collision, as in C37. C60_blake2sp is about the specifications; C26 connects the code with them. All nodes have the same hash_length, which C60_collision and C60_message take to be 32."
 },
 "C61": {
  "status": "proved",
  "note": "A step is an entry of the trace of Model/Leak.lean; what happens between two entries is straight-line code, a copy within a buffer of at most 1024 bytes, one vector compression or a pass over at most 64 bytes. Time itself is not modelled."
 },
"C62": {"status": "proved", "note": "C62_blake2s is the general statement; C62_not_truncation is the case of a short digest and a longer one; C62_separation and C62_separation_keyed compare BLAKE2s with BLAKE2sp. A digest in the sense of as_bytes; the bytes a Hash holds beyond them are in C57 and C58."},
"C63": {"status": "proved", "note": "C63_bytes and C63_gig_bytes: bytes and blocks. C63_report and C63_gig: what is printed, given the times. The text of run #2 says 4-way, although hash_update8 works on eight inputs at once. Not modelled: clocks, floating point, b.bytes of the benchmarks of single compression functions (one call each), the test harness."},
"C64": {"status": "proved", "note": "C64_portable, C64_sse41, C64_many: the rounds of the code. C64_spec: those of the RFC. C64_schedule: the table. The compression function itself is not a permutation, because the working words are folded at the end; nothing is claimed of that."}
}
