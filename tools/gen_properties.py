#!/usr/bin/env python3
# Generates /verif/properties.jsonl from the table below.
import json, os
P = []
def p(title, statement, quantifier, why, anchors):
    P.append(dict(id="C%02d" % (len(P)+1), title=title, statement=statement,
                  quantifier=quantifier, why_tests_cant=why, anchors=anchors))

p("One-shot hash is BLAKE2s-256",
  "blake2s(input) returns the 32-byte digest that RFC 7693 defines for unkeyed BLAKE2s-256 of input, without panicking, whichever compression back end the platform selects.",
  "every byte string shorter than 2^64, every platform / back end, debug and release builds",
  "The KATs cover 256 inputs of at most 255 bytes; the claim is about every length and content.",
  ["src/lib.rs: blake2s, State::new, State::update, State::finalize", "src/portable.rs: compress", "src/sse41.rs: compress"])
p("Parameterised, keyed hashing matches the specification",
  "For any parameters that the Params setters accept (hash length, key, salt, personalisation and the tree parameters), params.to_state().update(m).finalize() returns the BLAKE2s digest of m under the parameter block built from exactly those values, with the zero-padded key block hashed first when the key is non-empty, truncated to hash_length bytes.",
  "every accepted parameter combination, every message, every platform",
  "One hand-made parameter combination is tested; the parameter space is about 2^600.",
  ["src/lib.rs: Params, Params::make_words, State::with_params, State::finalize"])
p("Splitting the input never changes the hash",
  "Feeding a message to one State through any sequence of update calls (any number, any sizes, including empty ones) yields the same digest and the same count as feeding the concatenation in one call.",
  "every list of chunks, every starting parameter set",
  "The number of ways to split is exponential in the length; tests use halves and single bytes of four inputs.",
  ["src/lib.rs: State::update, State::fill_buf, State::compress_buffer_if_possible"])
p("finalize is repeatable and does not disturb the stream",
  "finalize may be called at any moments between updates: it returns the digest of exactly the bytes fed so far, repeated calls return the same digest, and no later digest is affected by whether or when it was called.",
  "every history of update / finalize / set_last_node calls on one State",
  "Depends on stale buffer bytes and on every interleaving of the calls; tests use two fixed histories.",
  ["src/lib.rs: State::finalize"])
p("State::count reports the bytes fed",
  "State::count() equals the number of bytes the caller has passed to update since creation (documented as 'the total number of bytes input so far').",
  "every parameter set and every history with fewer than 2^64 bytes",
  "Must hold after every split and interleaving; only unkeyed states are tested.",
  ["src/lib.rs: State::count, State::with_params, State::fill_buf"])
p("set_last_node is equivalent to Params::last_node",
  "The last-node flag used by finalize is the last value set through Params::last_node or State::set_last_node; setting it at any time before finalize gives the digest that the same parameter set in Params would give, and it does not affect anything else.",
  "every history mixing update, set_last_node and finalize",
  "Quantifies over the position of the call in every history.",
  ["src/lib.rs: State::set_last_node, Params::last_node, State::finalize"])
p("SSE4.1 compression equals portable compression",
  "The SSE4.1 single-block compression function produces the same eight state words as the portable one for every state, block, counter and flag words.",
  "all 2^256 states x 2^512 blocks x 2^64 counters x 2^64 flag pairs",
  "One block is compared in the tests; ten rounds of hand-written shuffles are involved.",
  ["src/sse41.rs: compress, g1, g2, diagonalize, undiagonalize", "src/portable.rs: compress"])
p("AVX2 8-way compression equals eight portable compressions",
  "compress8 on AVX2 updates each of the eight states exactly as eight separate portable compressions with that lane's block, counter and flags; no lane influences another.",
  "all eight-tuples of states, blocks, counters and flags",
  "One 8-tuple with equal counters is tested; lane independence is a statement over all tuples.",
  ["src/avx2.rs: compress8, blake2s_round_8x, transpose_vecs, load_msg_vecs_interleave", "src/portable.rs: compress8"])
p("SSE4.1 4-way compression equals four portable compressions",
  "compress4_transposed (SSE4.1) updates the four transposed states as four separate portable compressions of the four blocks with that lane's counter and flags.",
  "all four-tuples of states, blocks, counters and flags",
  "Only reached through one hash4_exact test with equal counters.",
  ["src/sse41.rs: compress4_transposed, round_4, transpose_message_blocks, transpose_vecs"])
p("Vectorised state: transposition is its own inverse and compression commutes with it",
  "Applying vectorize_words8 twice restores the eight states, and for either implementation vectorize, any number of compress8_vectorized steps, vectorize equals that many separate compressions of each state.",
  "all eight-tuples of states, all sequences of blocks, counters and flags",
  "Tests use one transposition and one digest per implementation.",
  ["src/avx2.rs: vectorize_words8, compress8_vectorized, transpose_vecs", "src/portable.rs: vectorize_words8, compress8_vectorized"])
p("update8 equals eight separate updates",
  "After update8 on eight states and eight inputs, each state behaves (digest, count, all further operations) exactly as if its own input had been passed to update.",
  "every eight states in any reachable condition (different parameters, buffer fill, counts), eight inputs of any lengths",
  "Eight independent buffer fills times eight lengths; tests use multiples of the block size.",
  ["src/lib.rs: update8, State::compress_buffer_if_possible"])
p("finalize8 equals eight separate finalizes",
  "finalize8 returns, in order, exactly the eight digests that finalize would return, and leaves the eight states able to continue as if it had not been called.",
  "every eight reachable states",
  "Same combinatorial reason as update8.",
  ["src/lib.rs: finalize8"])
p("hash4_exact equals four separate hashes",
  "For unkeyed parameters and four inputs of equal, non-zero length that is a multiple of the block size, hash4_exact returns the four digests in order that params.to_state().update(input).finalize() would; for any other lengths it panics before hashing.",
  "all parameters, all input quadruples, both back ends",
  "One length and one parameter set is tested.",
  ["src/lib.rs: hash4_exact", "src/sse41.rs: hash4_exact, export_hashes", "src/portable.rs: hash4_exact"])
p("hash8_exact equals eight separate hashes",
  "For unkeyed parameters and eight inputs of equal, non-zero length that is a multiple of the block size, hash8_exact returns the eight digests in order; for any other lengths it panics before hashing.",
  "all parameters, all input octuples, both back ends",
  "One length and one parameter set is tested.",
  ["src/lib.rs: hash8_exact", "src/avx2.rs: hash8_exact, export_hashes", "src/portable.rs: hash8_exact"])
p("hash8 equals eight separate hashes",
  "For unkeyed parameters (each lane may have different ones) and eight inputs of any lengths, hash8 returns the eight digests in order; if any lane's parameters carry a key it panics.",
  "all octuples of parameters and inputs, both back ends",
  "The loop has a data-dependent exit and two completion paths; tests use two length patterns.",
  ["src/lib.rs: hash8"])
p("Bulk hashing never reads outside the inputs",
  "No execution of hash4_exact or hash8_exact through the public API reads a byte outside the slices it was given, for any slices and parameters.",
  "all slices (any lengths, equal or not), all parameters, all platforms",
  "The block pointers are formed by unchecked pointer casts; a test cannot show absence of an out-of-bounds read.",
  ["src/lib.rs: hash4_exact, hash8_exact", "src/avx2.rs: hash8_exact", "src/sse41.rs: hash4_exact"])
p("SIMD code only runs where the CPU supports it",
  "No history of API calls executes an SSE4.1 or AVX2 routine on a CPU lacking that feature (given that AVX2 CPUs have SSE4.1), in std, no_std, x86 and non-x86 builds.",
  "every platform and every history of API calls",
  "A test machine has one feature set.",
  ["src/lib.rs: default_compress_impl, State::with_params, update8, finalize8, hash8", "src/blake2sp.rs: State::with_params, State::compress8"])
p("Results do not depend on the platform",
  "The same history of API calls gives the same digests, counts and panics on any two platforms / feature sets and whether or not a state was forced to the portable implementation.",
  "every pair of platforms, every history of API calls",
  "Requires all back ends to agree on all inputs.",
  ["src/lib.rs: default_compress_impl, benchmarks::force_portable"])
p("hash4_exact and hash8_exact honour the key",
  "When the parameters carry a key, hash4_exact and hash8_exact return the keyed digests params.to_state().update(input).finalize() would return, on every platform (or refuse).",
  "all keyed parameters, all admissible inputs, all platforms",
  "No test passes a key to these functions.",
  ["src/lib.rs: hash4_exact, hash8_exact", "src/avx2.rs: hash8_exact", "src/sse41.rs: hash4_exact"])
p("Parameter setters accept exactly the documented ranges",
  "hash_length accepts exactly 1..=32, key at most 32 bytes, salt and personal at most 8 bytes, max_depth any value but 0, node_offset below 2^48, inner_hash_length at most 32, all other setters everything; any other argument panics and leaves the parameters unchanged; an accepted call changes only its own parameter. The same holds of hash_length and key of blake2sp::Params.",
  "all arguments and all previous parameter states",
  "Boundary tests check one rejected value per setter.",
  ["src/lib.rs: Params setters", "src/blake2sp.rs: Params setters"])
p("Setters: last write wins, order is irrelevant, short values are zero-padded",
  "Repeating a setter leaves exactly the effect of the last call (a shorter key, salt or personalisation fully replaces a longer one); calls of different setters commute; a salt or personalisation shorter than 8 bytes is equivalent to its zero-padded form. The same holds of the two setters of blake2sp::Params.",
  "all sequences of accepted setter calls",
  "Quantifies over histories of setter calls.",
  ["src/lib.rs: Params::key, Params::salt, Params::personal"])
p("Different parameters never share a starting point",
  "Two accepted parameter sets that differ in any parameter (other than the last-node flag, which is applied at finalisation, and key bytes, which are hashed as the first block) initialise the hash to different chaining values, and two different keys of one length yield different first blocks. The eight leaves and the root of BLAKE2sp start from nine different chaining values, which also determine hash_length and key length and differ from those of every blake2s state whose tree parameters are not exactly those of the node.",
  "all pairs of accepted parameter sets",
  "Injectivity over all pairs.",
  ["src/lib.rs: Params::make_words, State::with_params"])
p("Digest length",
  "Every Hash returned by any function exposes exactly hash_length bytes (always between 1 and 32), and as_bytes / to_hex never panic.",
  "every Hash obtainable through the API",
  "Every route to a Hash and every length.",
  ["src/lib.rs: Hash::as_bytes, Hash::to_hex, Params::hash_length"])
p("Hex encoding is faithful",
  "to_hex returns 2*len lower-case hexadecimal characters, most significant nibble first, from which the digest bytes can be recovered uniquely, and never exceeds the fixed-capacity string.",
  "every Hash",
  "Round-trip over all byte strings.",
  ["src/lib.rs: Hash::to_hex, bytes_to_hex"])
p("Hash equality",
  "Two Hash values (or a Hash and a byte slice) compare equal exactly when as_bytes are equal as byte strings, in particular never when their lengths differ; equality is reflexive, symmetric and transitive.",
  "all pairs and triples of Hash values and slices",
  "Universal over pairs of hashes.",
  ["src/lib.rs: impl PartialEq for Hash, impl PartialEq<[u8]> for Hash"])
p("One-shot BLAKE2sp is BLAKE2sp",
  "blake2sp(input) returns the 32-byte BLAKE2sp digest (eight interleaved leaves of 64-byte blocks, one root) of input, without panicking, on every platform.",
  "every byte string shorter than 2^64, every platform",
  "The KATs stop at 255 bytes; the reference test stops at 20 blocks.",
  ["src/blake2sp.rs: blake2sp, State::with_params, State::update, State::finalize"])
p("BLAKE2sp: splitting the input never changes the hash",
  "For unkeyed blake2sp::Params of any hash length, feeding a message through any sequence of update calls yields the BLAKE2sp digest of the concatenation.",
  "every list of chunks, every hash length",
  "The double buffer has five regimes; tests use one-byte-then-rest splits of whole blocks.",
  ["src/blake2sp.rs: State::update, State::fill_buf"])
p("BLAKE2sp: finalize is repeatable and does not disturb the stream",
  "blake2sp::State::finalize can be called at any time and repeatedly between updates without changing any later result.",
  "every history of update / finalize calls",
  "Every interleaving.",
  ["src/blake2sp.rs: State::finalize"])
p("BLAKE2sp: count reports the bytes fed",
  "blake2sp::State::count() equals the number of bytes passed to update.",
  "every parameter set and every history with fewer than 2^64 bytes",
  "Every split; only unkeyed states are tested.",
  ["src/blake2sp.rs: State::count"])
p("Keyed BLAKE2sp matches the specification for every length",
  "blake2sp::Params::new().key(k).to_state() fed with any message through any updates returns the keyed BLAKE2sp digest, and does not panic.",
  "every key of 1..=32 bytes, every message, every split",
  "Keyed KATs stop at 255 bytes, below the size at which leaves are compressed incrementally.",
  ["src/blake2sp.rs: State::with_params, State::compress8, State::update"])
p("io::Write is update",
  "write(buf) consumes all of buf, returns Ok(buf.len()) and has exactly the effect of update(buf); flush succeeds and changes nothing; hence writing any partition of a message through Write gives its hash. Holds for State and blake2sp::State.",
  "every sequence of write / flush / update calls",
  "Every history.",
  ["src/lib.rs: impl Write for State", "src/blake2sp.rs: impl Write for State"])
p("Debug output leaks no secrets",
  "The Debug text of State, blake2sp::State and blake2sp::Params is a function of byte counts, lengths and flags only: states that differ only in key bytes, message bytes or chaining words print identically.",
  "all pairs of states / parameters agreeing on the public fields",
  "Non-interference quantifies over pairs of executions.",
  ["src/lib.rs: impl Debug for State", "src/blake2sp.rs: impl Debug for State, impl Debug for Params"])
p("Objects are independent",
  "A clone of a State or Params continues independently: operations on one object never change the result of operations on any other object, over any history that creates, clones and uses many objects, including the eight-way functions.",
  "every history over any number of objects",
  "All interleavings of operations on many objects.",
  ["src/lib.rs: State (derive Clone), Params (derive Clone), update8, finalize8"])
p("Whole-API refinement",
  "Every history of API calls produces exactly the outputs of the abstract machine in which a Params is the tuple of values last set, a State is (parameters, bytes fed, last-node flag), and every hash is the mathematical BLAKE2s / BLAKE2sp of those.",
  "every finite history of API calls over any number of objects, every platform and build profile",
  "The state space of histories is infinite.",
  ["src/lib.rs: public API", "src/blake2sp.rs: public API"])
p("No panics beyond the documented assertions",
  "update, finalize, count, update8, finalize8, hash8 (unkeyed) and their BLAKE2sp counterparts (unkeyed) never panic, index out of range, overflow their u8/u16 buffer lengths or fail to terminate, as long as fewer than 2^64 bytes are fed (the key block of a keyed state counts as 64 of them); with overflow checks on, State::update panics exactly when the 2^64-th byte is reached. Over whole programs, release builds can only panic by an assert!, debug builds also by the overflow check or a debug assertion.",
  "every reachable state, every input, debug and release builds",
  "Absence of a panic over all histories, and behaviour at 2^64 bytes, is out of reach of tests.",
  ["src/lib.rs: State::update, State::fill_buf, update8, hash8", "src/blake2sp.rs: State::update, State::fill_buf, State::finalize"])
p("Digest depends only on bytes actually fed",
  "Bytes left over in internal buffers from earlier blocks (or earlier finalize calls) never influence a digest: two states that agree on parameters, last-node flag and bytes fed are indistinguishable by any further calls.",
  "all pairs of histories with equal concatenated input",
  "Observational equivalence over all continuations.",
  ["src/lib.rs: State::finalize, finalize8, State::fill_buf", "src/blake2sp.rs: State::update, State::finalize"])
p("A BLAKE2s collision is a compression-function collision",
  "If two different (parameters, key, last-node flag, message) tuples with hash_length 32 give equal 32-byte digests, then two different inputs of the compression function with equal output exist among the compressions performed; i.e. padding, counters, flags and parameters are encoded unambiguously. For digests of n < 32 bytes the other possibility is that the two last inputs differ and their outputs agree in the first n bytes.",
  "all pairs of inputs shorter than 2^64 bytes",
  "A reduction over all pairs of inputs.",
  ["src/lib.rs: State, Params::make_words", "src/portable.rs: compress"])
p("A BLAKE2sp collision is a compression-function collision",
  "If two different messages give equal 32-byte BLAKE2sp digests through the API, unkeyed or keyed with the same key, or if different keys (or a key and none) do, then two different inputs of the compression function with equal output exist. For keyed states this holds of what the code really returns, although that is not always the BLAKE2sp digest (C30). For digests of n < 32 bytes the other possibility is that the last inputs of the two roots differ and their outputs agree in the first n bytes.",
  "all pairs of histories feeding fewer than 2^64 bytes (the key block counts as 64)",
  "A reduction over all pairs of inputs.",
  ["src/blake2sp.rs: State"])
p("Equivalent constructors",
  "State::new(), State::default(), Params::new().to_state() and Params::default().to_state() behave identically, as do their BLAKE2sp counterparts; the defaults are 32-byte output, no key, fanout 1, depth 1.",
  "every subsequent history",
  "Behavioural equality over all continuations.",
  ["src/lib.rs: State::new, Default for State, Params::new, Default for Params", "src/blake2sp.rs: same"])
p("Control flow is independent of the data",
  "Which operations succeed or panic, the resulting counts and digest lengths depend only on parameter lengths, flags and input lengths, never on the contents of keys or messages.",
  "all pairs of histories with equal lengths",
  "Non-interference over pairs of executions.",
  ["src/lib.rs: State::update, update8, hash8", "src/blake2sp.rs: State::update"])
p("The in-tree reference implementation of BLAKE2sp agrees with the real one",
  "blake2sp_reference, the implementation in the crate's own tests that feeds eight tree-parameter blake2s states one block at a time, returns the same Hash as blake2sp(input), and as a blake2sp::State fed the input in any pieces, whose count is the length of the input.",
  "every input of fewer than 2^64 bytes, every split into pieces, every platform and build profile",
  "The crate's test_buffering compares the two on twenty inputs and one split each.",
  ["src/blake2sp.rs: test::blake2sp_reference, test::test_buffering"])
p("The build profile changes nothing but the run-time checks",
  "A program behaves the same with and without overflow checks and debug assertions, except that a build with a check may end it by the panic of that check: whenever the checked build completes, every output is identical.",
  "every program, every pair of profiles on the same platform",
  "Debug and release runs would have to be compared on every program.",
  ["src/lib.rs: public API", "src/blake2sp.rs: public API"])
p("The official vectors hold on every platform and build",
  "blake2s, blake2sp and their keyed forms, called as in tests/vector_tests.rs, return the digests of all 1024 BLAKE2s / BLAKE2sp entries of tests/blake2-kat.json, and the two all-parameters tests of src/test.rs return their published digests, whatever the platform, CPU features and build profile. So does the self-test of RFC 7693 (appendix E), written with the crate's interface, whose keys and digests have 16, 20, 28 and 32 bytes. The two tests of tests/vector_tests.rs, for any list of test cases, pass exactly if there are 512 cases for their function and every one of them states the digest of the specification (keyed BLAKE2sp inputs of at most 960 bytes, see C30).",
  "all 1024 vectors (the whole file), all lists of test cases, every platform and build profile",
  "A test run covers one platform and one build profile at a time.",
  ["tests/vector_tests.rs: blake2s_vectors, blake2sp_vectors", "src/test.rs: test_all_parameters, test_all_parameters_blake2sp"])
p("Catching panics is safe, and what a panic leaves behind is known",
  "A program may catch the panic of any call and go on using the objects: no later call does anything but return or panic by an assertion or a check of the build; up to the first panic nothing differs; a panic of any call other than update, write, update8 leaves every object as it was; a keyed blake2sp state whose update panics in a debug build holds the first 1024 bytes fed (nothing if it was empty) and hashes exactly these; what is observed does not depend on the platform (apart from C19), and which calls panic does not depend on message or key bytes.",
  "every program with every call wrapped in catch_unwind, every platform and build profile (exact contents: up to the first overflow of a 64-bit byte counter)",
  "Tests stop at the first panic or ignore the object afterwards; no finite set of them covers all interleavings of panics and later calls.",
  ["src/lib.rs: public API", "src/blake2sp.rs: State::update, State::compress8 debug_assert_eq"])
p("BLAKE2s and BLAKE2sp digests never coincide by construction",
  "If a 32-byte digest of a blake2s computation with any parameters equals a 32-byte digest of an unkeyed blake2sp computation, then the blake2s computation is the root node of that tree written out by hand (same tree parameters, last-node flag, fed the eight leaf digests), or two different inputs of the compression function with equal output exist among the compressions performed. In particular blake2s(a) and blake2sp(b) are different for all a and b short of a collision. For keyed blake2sp computations, whatever they return (C30), the first alternative needs a leaf digest of 32 zero bytes. For digests of n < 32 bytes the collision may be one of the first n bytes of the last compressions.",
  "all pairs of histories, all accepted parameters, every platform",
  "A reduction over all pairs of computations; tests compare a few fixed digests.",
  ["src/lib.rs: State, Params::make_words, blake2s", "src/blake2sp.rs: State, blake2sp"])
p("The crate's own tests, generalised, pass on every platform and build",
  "Every test of src/test.rs and of the test modules in src/avx2.rs, src/sse41.rs and src/blake2sp.rs, with its inputs and expected digests replaced by arguments, passes for all of them (expected digests being those of the specification, setter calls panicking exactly when out of range), and passes as it stands, with its own constants; test_vectors passes for no table with a wrong digest.",
  "all inputs of the generalised tests (fewer than 2^64 bytes if overflow checks are on; for keyed blake2sp at most 960 bytes), every platform and build profile",
  "A run of the tests covers their constants, on one machine and in one build profile.",
  ["src/test.rs", "src/avx2.rs: mod test", "src/sse41.rs: mod test", "src/blake2sp.rs: mod test"])
p("The benchmark programs measure what they claim, on supported CPUs only",
  "Each benchmark of benches/cargo_bench and each hashing routine of benches/benchmark_gig computes what its name says: the compression benchmarks apply the RFC 7693 function F to each state as often as they iterate, the hashing ones return the BLAKE2s or BLAKE2sp hashes of their buffers (hash_update8 of the eight consecutive eighths); the portable hashing benchmarks run portable code only on every platform and compress each block of their input once, and the other hashing benchmarks run vector code only wherever it can be used; and none of them executes instructions that the CPU does not have.",
  "all inputs (fewer than 2^64 bytes if overflow checks are on), any number of iterations, every platform and build profile",
  "Benchmarks discard what they compute and are run on the developer's own CPU.",
  ["benches/cargo_bench/src/lib.rs", "benches/benchmark_gig/src/main.rs", "src/lib.rs: mod benchmarks"])
p("Secrets do not influence branches or addresses",
  "Two programs that make the same calls with byte strings of the same lengths (messages, keys, salts, personalisations, strings compared with digests) go through the same branch outcomes, the same memory positions, the same function pointers and the same printed numbers, up to their end or up to the same panic; in particular comparing a digest with a slice or another Hash does not depend on where they differ.",
  "all pairs of programs of the same shape, every platform and build profile",
  "Timing tests are statistical and cover few inputs; the claim compares all pairs of executions.",
  ["src/lib.rs: PartialEq for Hash (constant-time equality)", "src/lib.rs: State, update8, finalize8, hash4_exact, hash8_exact, hash8, Hash::to_hex", "src/portable.rs", "src/blake2sp.rs"])
p("The unsafe code accesses only the memory of its arguments",
  "Wherever its arguments are in memory, each function of src/sse41.rs and src/avx2.rs that uses raw pointers accesses only bytes that the pointer in question may be used for, forms no misaligned reference, gives the state that the safe portable function gives (hash4_exact and hash8_exact: the digests of the slices), and changes no byte outside the states it is to change and its own local variables. hash4_exact and hash8_exact need slices of one length, a positive multiple of 64, as their comments say, and the safe functions of that name in src/lib.rs panic on exactly the other slices, so that no safe call makes a wrong access; vectorize_words8 and compress8_vectorized need states aligned to 32 bytes, as AlignedWords8 is.",
  "all memory contents, all addresses (states not overlapping), all counters, flags, parameters and slice lengths",
  "An access out of range or through a pointer that does not allow it usually goes unnoticed in a run; alignment and placement vary with the caller.",
  ["src/sse41.rs: loadu, storeu, compress, transpose_message_blocks, compress4_transposed_inline, export_hashes, hash4_exact", "src/avx2.rs: loadu, load_2x256, load_msg_vecs_interleave, compress8, vectorize_words8, compress8_vectorized, hash8_exact", "src/lib.rs: AlignedWords8, hash4_exact, hash8_exact"])
p("The amount of work is determined by the lengths",
  "Counting calls of the compression function block by block: a state that is fed n bytes (its key block included) compresses, in all its update calls together and however the input is cut, all blocks but the last, and each finalize call compresses exactly one; blake2s of n bytes compresses ceil(n/64) blocks, or one if n = 0. update8, finalize8, hash8 and, without a key, hash4_exact and hash8_exact compress exactly the blocks that separate calls would, so that no input of a batch costs anything for being batched with longer ones. BLAKE2sp compresses the blocks of its eight leaves and four blocks of the root, however the input is cut. A whole program compresses exactly the sum of what its calls compress, each being determined by the bytes fed so far to the objects it uses, their keys and, for BLAKE2sp, the rows passed on; bytes of messages and keys have no influence on the number.",
  "all histories, all parameters, all input lengths (fewer than 2^64 bytes if overflow checks are on), every platform and build profile",
  "Tests look at digests; a block compressed in vain, twice, or by a slow path changes none of them.",
  ["src/lib.rs: State::update, State::finalize, update8, finalize8, hash8, hash4_exact, hash8_exact, blake2s", "src/blake2sp.rs: State::update, State::finalize, blake2sp", "src/portable.rs", "src/sse41.rs: hash4_exact", "src/avx2.rs: hash8_exact"])
p("Panics say what is wrong and nothing secret",
  "A program that ends normally prints no panic message; one that panics prints exactly one, as the last thing it does. An out-of-range argument of a setter is reported by name together with its length or value, and by nothing else; unequal, empty or incomplete inputs of hash4_exact and hash8_exact by the text \"invalid hash8_exact inputs\"; a key given to hash8 by the key length of the first keyed parameter set; overflows and failed debug assertions by the standard texts with the two unequal lengths. Two programs that differ only in the bytes of messages, keys, salts, personalisations and compared strings print the same messages, even if they print digests before.",
  "all programs (histories of API calls) and pairs of programs of the same shape, every argument of every setter, every platform and build profile",
  "Tests use should_panic, which ignores the message, and cannot compare messages under all pairs of secrets.",
  ["src/lib.rs: Params::hash_length, key, salt, personal, max_depth, node_offset, inner_hash_length", "src/lib.rs: hash4_exact, hash8_exact, hash8", "src/blake2sp.rs: Params::hash_length, Params::key"])
p("No usize arithmetic overflows, whatever the pointer width",
  "On a machine whose usize has w bits, w at least 16, where no slice is longer than isize::MAX = 2^(w-1) - 1 bytes: in every program that uses the crate, the exact results of all additions and subtractions of usize in the library (buffer positions, offsets of blocks, remaining lengths) are between 0 and 2^w - 1, and no position used to access memory is larger than isize::MAX. So nothing wraps around on 16-bit and 32-bit machines either, and results do not depend on the pointer width.",
  "all programs (histories of API calls) with slices of at most 2^(w-1) - 1 bytes, all w >= 16, every platform and build profile",
  "Tests run on 64-bit machines, with inputs far shorter than what a usize can count.",
  ["src/lib.rs: State::fill_buf, hash8", "src/blake2sp.rs: State::fill_buf, State::finalize", "src/sse41.rs: hash4_exact", "src/avx2.rs: hash8_exact"])
p("What of BLAKE2sp the public BLAKE2s interface can express",
  "A source comment says that the parallel hash cannot be built from the sequential one's public interface except for the default digest length without a key. This is so: a client that builds the eight leaves and the root with the public Params setters, to_state, update and finalize gets the BLAKE2sp digest of every message if the digest length is 32 and there is no key. A leaf of digest length d comes out cut to d bytes, so complete if and only if d is 32, keyed or not; the unkeyed root is right for every digest length; any state that starts from the chaining value of a leaf with digest length d only ever returns d bytes; any state that starts from the chaining value of a keyed root has a 64-byte block in front of what it is fed. With digest length 16, or with a key, the client's digest of the empty message is not BLAKE2sp's.",
  "all messages of fewer than 2^63 bytes (of any length in release builds), all digest lengths 1 to 32, all keys of at most 32 bytes, all setter sequences and histories of calls, every platform and build profile",
  "That no sequence of public calls can do something is out of reach of tests; the crate's test covers the default case on twenty inputs.",
  ["src/blake2sp.rs: State::with_params (comment at lines 98-103)", "src/lib.rs: Params, State::with_params, State::finalize"])
p("The fast code runs wherever it can, eight blocks at a time",
  "On x86 with std and AVX2, every call of a public function runs vector code only, and on all other platforms portable code only; benchmarks::force_portable and force_portable_blake2sp are obeyed by every method of the State they are applied to, though not by update8 and finalize8. update8 compresses blocks eight at once for as long as every input has more than a block left after filling its state's buffer; hash8 likewise, and the last blocks too if all inputs have the same length, a multiple of 64; hash4_exact and hash8_exact compress all blocks four and eight at once where vector code is used; BLAKE2sp compresses all of a message but its last 1024 bytes at most eight blocks at once, however it is cut into update calls.",
  "every program of calls on any number of objects, every environment, all lengths and contents of the inputs, every way to cut a message",
  "Portable and vector code return the same digests, so no test on outputs can tell which one ran, or whether blocks were compressed one by one.",
  ["src/lib.rs: default_compress_impl, State::with_params, update8, finalize8, hash8, hash4_exact, hash8_exact, benchmarks", "src/blake2sp.rs: State::with_params, State::update, force_portable", "src/sse41.rs, src/avx2.rs, src/portable.rs"])
p("What stays in memory of keys and input",
  "The 64-byte buffer of a State is known exactly after every history of calls: it holds the bytes that wait to be compressed and, behind them, remains of the key and of earlier input, never anything else, and each byte at its place in its block. finalize overwrites the remains: afterwards the buffer holds the last block and zeros, so the key is gone if anything was fed. Without finalize the key stays: one update call, however long its input, overwrites only as many bytes of the key as wait in the buffer afterwards; input in pieces of at most 64 bytes overwrites it after 64 bytes. update8 and finalize8 leave eight states exactly as separate calls do, remains included. A blake2sp State holds nine copies of its key, in the buffers of its leaves and its root, as long as it lives; nothing overwrites them, finalize included; its own 1024-byte buffer holds only zeros and bytes that were fed, each at its place of a row of 512.",
  "all histories of calls, all keys, all inputs and all ways to cut them, every platform and build profile",
  "The remains are private and influence no output; tests on digests cannot see them.",
  ["src/lib.rs: State::with_params, State::fill_buf, State::compress_buffer_if_possible, State::update, State::finalize, update8, finalize8", "src/blake2sp.rs: State::with_params, State::fill_buf, State::update, State::finalize"])
p("Programs can be rearranged",
  "Two calls of which neither changes a variable that the other uses (in Rust: calls that the borrow checker lets two threads make at the same time) can be swapped anywhere in a program. Two threads whose calls are pairwise of this kind return, however their calls are interleaved, what they return one after the other and what each returns when the other does not exist; together they panic exactly if one of them panics on its own. Moreover, in any program and at any place: two updates of a State are one update with the concatenation; update8 and finalize8 are eight updates and eight finalizes; blake2s and blake2sp are a new state, update and finalize; finalizing again is copying the first hash; finalizing a clone is finalizing the original; flush and force_portable can be left out. Where they do not panic, hash8, and hash4_exact and hash8_exact after erasing the key, are hashing the inputs one after the other. A keyed hash8 panics where separate hashing does not, two updates of the same State cannot be swapped, and two updates of a blake2sp state are not in every respect one (the Debug text differs).",
  "all environments, all surrounding programs, all calls, all pairs of threads and all interleavings, all inputs below the slice limit",
  "There are as many contexts and interleavings as programs; a test tries a few of them, and a difference that shows only in a later call of a long program escapes it.",
  ["src/lib.rs: State::update, State::finalize, update8, finalize8, hash4_exact, hash8_exact, blake2s, impl Clone for State", "src/blake2sp.rs: State::update, State::finalize, blake2sp"])
p("What a Hash holds and what it shows",
  "A Hash returned by any function holds all 32 bytes of the last chaining value, also when hash_length is smaller; these bytes determine the chaining value completely. The first hash_length bytes are the digest. The other bytes are held but nothing lets them be seen: two Hashes with the same length and the same shown bytes give the same results, and the same branches and memory addresses, in as_bytes, to_hex, Debug and both comparisons; they compare equal although they hold different bytes.",
  "all parameters, keys, histories and inputs; all Hash values",
  "The bytes behind the digest are private; a test sees only those of the digest, on the inputs it tries.",
  ["src/lib.rs: struct Hash, Hash::as_bytes, Hash::to_hex, impl PartialEq for Hash, impl Debug for Hash, State::finalize, finalize8, hash4_exact, hash8_exact, hash8", "src/blake2sp.rs: State::finalize"])
p("Digests cannot be extended",
  "In the computation of a hash every compression but the last hands its output on to the next and is not marked as final; the last is, and yields the digest. The counters of the compressions increase. What the compressions are given for one key and message is never a beginning of what they are given for another. Consequently a Hash returned by State::finalize or blake2sp::State::finalize, including the bytes it does not show, is never a chaining value on the way to another hash, with whatever parameters, key and message, of BLAKE2s or of a node of BLAKE2sp, unless the two computations contain two different inputs of the compression function with the same output. (For blake2sp without a key, or with a key while everything fits into the buffer; see C30.)",
  "all parameters, keys and messages below 2^64 bytes; for the last statement messages of any length; every platform and build profile",
  "The statement quantifies over all other messages; an extension attack is not something a test of digests looks for, and no test can exclude it.",
  ["src/lib.rs: State::compress_buffer_if_possible, State::update, State::finalize", "src/portable.rs: compress", "src/blake2sp.rs: State::finalize"])
p("Writing through the standard library",
  "State and blake2sp::State work as targets of the standard library's writers. write_all and write! are updates with the pieces that are not empty and never return an error; write_vectored takes the first buffer that is not empty and says so; io::copy returns the number of bytes read, or the reader's error, and the state has then been fed exactly what the reader delivered before, whatever the sizes of the pieces and the interruptions. Through a BufWriter of any capacity no call returns an error; at any time the state has been fed all bytes but the last few (at most the capacity), and flushing or dropping the BufWriter feeds it these. (Digests of blake2sp without a key, or with a key while everything fits into the buffer; see C30.)",
  "all states and inputs for the calls made; all reachable states and total lengths that do not overflow the counter for the digests; all readers, capacities and sequences of calls; every platform and build profile",
  "The crate tests one write_all. How the generic code behaves depends on the count that write returns, for every way the input can be cut, and on readers that fail or are interrupted.",
  ["src/lib.rs: impl Write for State", "src/blake2sp.rs: impl Write for State", "src/test.rs: test_write"])
p("Trees hashed through the public parameters",
  "A caller who hashes a tree by setting node_offset, node_depth and last_node for each node, on top of any common parameters and key, and feeding each inner node the digests of its children, gets the hash of the tree as the BLAKE2 paper defines it, without panics. Two different trees of any shape, or equal trees with different common parameters or keys, have different 32-byte hashes unless the two computations contain two different inputs of the compression function with the same output; so do different messages however they are cut into trees. For shorter hashes the two inputs may also be final ones whose outputs agree in the bytes shown. This needs inner nodes to have a node_depth other than 0: with depth 0 an inner node has the hash of a leaf. BLAKE2sp with the default digest length and no key is one of these trees.",
  "all common parameters, keys, trees (of any shape, with any offsets, depths and flags) and data below 2^63 bytes per node; every platform and build profile",
  "The crate has no test of the tree parameters except through BLAKE2sp and the vectors have none; the collision statement quantifies over all pairs of trees.",
  ["src/lib.rs: Params::fanout, Params::max_depth, Params::max_leaf_length, Params::node_offset, Params::node_depth, Params::inner_hash_length, Params::last_node, Params::make_words, State::update, State::finalize"])
p("The number of steps is linear",
  "Whatever calls a program makes, in whatever order and with whatever contents, the library takes at most a fixed number of steps for each call and three for each byte passed to it. Steps are the tests, computed memory positions, usize additions and subtractions, calls of compression functions (with every table lookup of the portable one) and printed numbers. The bound for a call depends on what it is passed and not on what happened before: finalizing has the same bound however much was hashed, and the inputs of a batch have that of their bytes together. Hashing n bytes takes at least n/64 steps.",
  "all programs, and all single calls on all contents of all variables, reachable or not; every platform and build profile; whether the program ends normally or by a panic",
  "A slow case shows only with the input that triggers it; a bound on all inputs and orders of calls is not a matter of examples.",
  ["src/lib.rs: State::update, State::finalize, update8, finalize8, hash4_exact, hash8_exact, hash8, Hash::to_hex, impl PartialEq for Hash", "src/blake2sp.rs: State::update, State::finalize, State::count", "src/portable.rs: compress, compress8, compress8_vectorized", "src/sse41.rs: hash4_exact", "src/avx2.rs: hash8_exact"])
p("Digests compared only in part",
  "If two digests agree in their first n bytes, whether they are equally long or not, although parameters (hash_length included), key, last-node flag or message differ, then the two computations contain two different inputs of the compression function with the same output, or their last inputs differ and have outputs that agree in the first n bytes. So truncating digests or MACs to n bytes costs no more than the missing bytes, and a digest of hash_length n is not the beginning of a longer digest of the same or another message. The same holds for blake2sp, with a key (for what the code really returns, see C30), without, and between the two. A BLAKE2s digest and a BLAKE2sp digest agree in their first n bytes only for such reasons, or because the BLAKE2s computation is the root node of the BLAKE2sp tree done by hand (C45; with a key, the root can be done by hand only if a leaf gives 32 zero bytes).",
  "all parameters, keys, histories and inputs below 2^64 bytes, all n up to the shorter of the two lengths; every pair of platforms and build profiles",
  "Tests compare single digests; that no pair of short and long digests is related by construction is a statement about all of them.",
  ["src/lib.rs: Params::hash_length, Params::make_words, State::finalize, Hash::as_bytes", "src/blake2sp.rs: Params::hash_length, State::finalize"])
p("The figures that the benchmarks report",
  "The number of bytes from which the rate of each hashing benchmark of cargo_bench and benchmark_gig is computed is 64 times the number of blocks that one iteration compresses, on every platform (for BLAKE2sp without the four blocks of the root), and no iteration panics. benchmark_gig executes hash_portable, hash_update8 and hash_blake2sp ten times each, in this order and nothing else, and prints for each the ten times, then the average of all but the first, rounded down, and the least of all but the first.",
  "every platform and build profile; all measured times that add up to less than 2^64 nanoseconds",
  "Benchmarks have no tests; a wrong byte count, or a statistic that includes the warm-up run, shows only as a wrong rate.",
  ["benches/cargo_bench/src/lib.rs", "benches/benchmark_gig/src/main.rs: print, run, main"])

p("The rounds lose nothing",
  "For every choice of message words, each round of the compression function is a permutation of the sixteen working words: there is a function that leads back from its result to its argument, and every vector is a result. This holds of the rounds of RFC 7693 (one by one and all ten together), of the portable round, of the ten rounds written out in the SSE4.1 code, and of the four-way and eight-way rounds. Every round takes each message word exactly once.",
  "all working vectors, all message words, all rounds, all four implementations",
  "A round has 2^512 arguments; that no two of them lead to the same result cannot be sampled.",
  ["src/portable.rs: g, round", "src/sse41.rs: compress, round_4", "src/avx2.rs: blake2s_round_8x", "src/lib.rs: SIGMA"])

with open(os.path.join(os.path.dirname(__file__), "..", "properties.jsonl"), "w") as f:
    for x in P: f.write(json.dumps(x) + "\n")
print(len(P))
