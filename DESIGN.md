# Formal model of blake2s_simd in Lean 4 — design

## Layout

Read by someone checking the claims:

* `lean/Verif/Spec.lean` — independent specification: BLAKE2s from RFC 7693 / the BLAKE2 paper (parameter block, G, F,
  block splitting) and BLAKE2sp. Uses nothing of the model. It reproduces all 1024 official vectors
  (`Vectors/*.lean`, C43). `lean/Verif/SpecTrace.lean` — the list of all
  compression-function inputs of a hash (for the collision reductions).
* `lean/Verif/Model/*.lean` — the model, function by function; each definition cites file and lines.
  `Prelude` (machine integers, faults, `Env`, slices), `Portable`, `X86` (intrinsics), `Sse41`, `Avx2`, `Params`, `State`
  (lib.rs `State`, `Hash`, `hash4_exact`, `hash8_exact`, dispatch), `Many` (`update8`, `finalize8`, `hash8`), `Blake2sp`,
  `Reference` (the reference BLAKE2sp in the crate's tests), `Unwind` (what a caught panic leaves behind),
  `Tests` (the crate's own tests), `Bench` (the benchmarks), `Leak` (everything once more with the trace of branches and
  addresses), `Mem` (the functions with raw pointers once more, on a memory of bytes).
* `lean/Verif/Vocab.lean` — words the statements use: accepted parameters, histories of calls on one object, the digests the
  specification assigns to a history. `lean/Verif/Machine.lean` — client programs: a store of objects and every public call.
  `lean/Verif/Abstract.lean` — an abstract machine whose states are byte strings, with the
  cases where the code departs from its documentation left open. `lean/Verif/Exact.lean` — the same machine with nothing left
  open; `lean/Verif/ExactUnwind.lean` — what it does after a caught panic. `lean/Verif/Lives.lean` — the life of one
  object inside a program. `lean/Verif/PublicSp.lean` — a client of the BLAKE2s interface (C53). `lean/Verif/Work.lean` — counting compressions in a trace. `lean/Verif/Used.lean` — which code runs, and on how many blocks at once (C54). `lean/Verif/Kept.lean` — what the buffer of a state holds (C55). `lean/Verif/Rearrange.lean` — variables a call uses, interleavings, and replacing pieces of programs (C56). `lean/Verif/Hidden.lean` — the digest before it is cut (C57). `lean/Verif/Extension.lean` — chaining values handed on (C58). `lean/Verif/StdIo.lean` — `write_all`, `io::copy`, `BufWriter` of the standard library (C59). `lean/Verif/Tree.lean` — trees, and a caller that hashes them (C60). `lean/Verif/WorkExact.lean` —
  what each call compresses, in terms of the exact machine.
* `lean/Verif/Props/*.lean` — the property theorems (named `C01_…` …), each followed by an `example` that applies it to a concrete case (theorems about constants, and the `_false` theorems, are such cases themselves). For the 32-byte collision theorems of C37, C38 and C45 the example has everything but the equal digests, which nobody knows; those for shorter digests have real collisions of one byte. `Props/Cases.lean` holds the concrete inputs that the examples share.

Not needed to read the claims: `lean/Verif/Proofs/*.lean` — helper lemmas.

`properties.jsonl` is written by `tools/gen_properties.py`, `MANIFEST.json` by `tools/gen_manifest.py` (from the theorem names and
`tools/manifest_notes.json`), `AXIOMS.md` by `tools/axioms.py`. `seeded/LOG.jsonl` records wrong programs tried.
`tools/check_transcription.py` compares the straight-line code of the model (IV, SIGMA, the rounds, rotations and transposes of the portable,
SSE4.1 and AVX2 implementations) token by token with /repo; `tools/check_citations.py` checks that the lines cited by the model's
comments contain the function they name; `tools/check_intrinsics.py` compares every intrinsic of `Model/X86.lean` with the CPU on random
registers and all immediates (nothing of /repo is run); `tools/check_spec.py` compares `Spec.lean` with Python's `hashlib.blake2s` on random
parameters, among them the salt, personalization and tree parameters that the official vectors do not have. All are aids for the reader, not
part of any proof.

## Modelling decisions

* `u8/u16/u32/u64` are `BitVec 8/16/32/64`; Rust arrays are `Vector`; slices are `List (BitVec 8)`; `usize` is `Nat`. Slices in
  programs are shorter than 2^63 bytes (`isize::MAX`), which Rust guarantees; the theorems about single objects need no such bound. That no `usize` arithmetic of the
  crate can overflow, on machines of any pointer width, is a theorem (C52).
* Everything that can panic, or be undefined behaviour, returns `R α = Except Fault α`: assertion failure, `debug_assert`,
  arithmetic overflow (when overflow checks are on; wrapping otherwise), slice index out of range, capacity of `ArrayString`,
  out-of-bounds raw pointer read, illegal instruction (SIMD routine on a CPU without the feature), fuel exhaustion of a loop.
  In the main model a panic ends the program. `Model/Unwind.lean` is a second model of every function that takes `&mut`,
  statement by statement, with the object as a panic leaves it, for programs that use `catch_unwind` (C44); it is proved to
  agree with the main model (`Proofs/Unwind.lean`).
* `Env` carries the build profile (overflow checks, debug assertions) and the platform (x86?, `std` feature?, CPU has AVX2?,
  SSE4.1?). The theorems quantify over `Env`; `Env.WF` says that a CPU with AVX2 has SSE4.1.
* Function pointers (`CompressFn` …) are tags of a small enumeration plus an interpreter (`call`), i.e. defunctionalised.
* `&mut` becomes returning the new value. Loops become fuel recursion with an explicit `nonTermination` fault, shown unreachable.
* x86 intrinsics: `__m128i`/`__m256i` are `BitVec 128`/`BitVec 256`; each intrinsic used is defined from
  Intel's pseudo-code, lane by lane (`Model/X86.lean`).
* The eight fields `leaf0` … `leaf7` of `blake2sp::State` are one vector.

## Properties: what is modelled and how it is proved

| id | model | proof |
|---|---|---|
| C01–C06 | lib.rs `State`, `Params` | representation invariant "`s` has absorbed `data`", preserved by every call; `finalize` computes the `Spec` digest; induction over histories |
| C07–C10 | sse41.rs, avx2.rs, portable.rs | lane projection is a homomorphism from vector code to the scalar round; message-schedule shuffles checked lane by lane; induction over rounds |
| C11–C15 | `update8`, `finalize8`, `hash4_exact`, `hash8_exact`, `hash8` | loop invariants on top of the per-lane results |
| C16, C17 | `Fault.outOfBoundsRead`, `illegalInstruction`, `nonTermination` | shown unreachable for every program |
| C18 | two `Env`s | relation between two runs of one program, preserved by every call |
| C19, C30 | same model | FALSE of the code: proved counterexamples plus exact partial theorems |
| C20–C22, C39 | `Params`, `blake2sp::Params` | case analysis, bit-level injectivity of `make_words` |
| C23–C25 | `Hash` | list/bit-vector lemmas |
| C26–C29 | blake2sp.rs | invariant: leaves have absorbed the first `n` groups of 8 blocks, the rest is buffered |
| C31, C32, C40 | `Write`, `Debug`, all outputs | direct / two-run non-interference |
| C33 | `Lives.lean` | an object replayed alone gives what it gives in the program |
| C34 | `Abstract.lean`, `Exact.lean` | refinement by induction over programs; equality with the exact machine |
| C35 | whole programs, histories | corollaries of the invariants |
| C36 | histories on one state, on eight states with batch calls (`Op8`), on a BLAKE2sp state | states with the same abstract content stay so and give the same outputs; for BLAKE2sp the content includes the rows passed on |
| C37, C38, C45 | spec-level Merkle–Damgård reduction lifted to the API (`SpecTrace.lean`, `KeyedTrace.lean`) | backwards induction over blocks, traces |
| C41 | `Model/Reference.lean` | the eight leaves hold what the specification deals to them, by induction over the blocks |
| C42 | `Exact.lean` | the exact machine does the same with fewer checks, call by call |
| C43 | `Vectors/Data.lean` (written from the crate's blake2-kat.json by `tools/gen_vectors.py`), `Model/VectorTests.lean` | C34 reduces each program to the specification, which the kernel evaluates (`Proofs/Fast.lean`, `Proofs/VectorEval.lean`, `Vectors/*.lean`). `Props/SelfTest.lean`: the self-test of RFC 7693 |
| C44 | `Model/Unwind.lean`, `ExactUnwind.lean` | the second model agrees with the first; two-run relation that also relates what panics leave; simulation of the exact machine extended by its state after a panic |
| C46 | `Model/Tests.lean` | from the theorems on the API; constants by kernel evaluation of the specification |
| C47 | `Model/Bench.lean`, `Model/BenchLeak.lean` (the same with traces) | from the theorems on the API and on the compression functions; induction over the iterations; which code runs as in C54 |
| C48 | `Model/Leak.lean` (every function once more, with the trace of its branches and addresses) | the traced model computes what the model computes; two runs on data of the same lengths are related step by step |
| C49 | `Model/Mem.lean` (the functions with raw pointers once more, on a memory of bytes; each pointer carries the range it may be used for; and the two safe functions that check slice lengths for them) | each function is run symbolically and compared with its model on values, for which C07–C10, C13 and C14 hold |
| C50 | `Model/Leak.lean` (traces), `Work.lean` (counting the compressions in a trace), `WorkExact.lean` (the work of each call of a program) | what each function adds to the count is computed from the lengths of buffer and input; invariant: the buffer holds what is left after all complete blocks but the last; for programs, this follows from the simulation of C34 |
| C51 | `Model/Leak.lean` (the event `panic`), `Messages.lean` (messages of a trace, complaints of setters) | per function, by a calculus: no message without a panic, one message of the right form at the end of the trace with one; for secrets, the relational calculus of C48 reduced to messages |
| C52 | `Model/Leak.lean` (the event `usize`: exact results of `usize` additions and subtractions), `Usize.lean` (what fits into `w` bits) | per function, by a calculus with bounds on results: buffer lengths stay within 64 and 1024, loop counters within the slices read so far |
| C53 | `PublicSp.lean` (a client that builds BLAKE2sp from the public BLAKE2s calls) | C02 for each node, injectivity of the starting value (C22), C23; witnesses by kernel evaluation |
| C54 | `Model/Leak.lean` (traces), `Used.lean` (the kind of code of an event, blocks compressed at once) | per function, by a calculus: all events are of a kind; invariant: every object uses the functions of the platform, or the portable ones once told so; the counts follow from those of C50, because a step compresses one block or eight, never both |
| C55 | the buffers of `State` and `blake2sp::State`; `Kept.lean` (each place of the buffer as a function of the history) | per function, by a calculus for calls that do not panic; `Rep` gives the fill level; `update8` and `update` lead to states with the same invariant and the same buffer, hence equal |
| C56 | client programs (`Machine.lean`); `Rearrange.lean` (variables read and written, interleavings, interchangeable pieces) | the model equals the exact machine (`Exact.program_eq`); there a call changes only the variables it writes and depends only on those it reads, so calls apart commute; each law is checked in an arbitrary world of the exact machine |
| C57 | `Hash` with its 32 bytes and its length; the traces of `Model/Leak.lean`; `Hidden.lean` | the lemmas behind C02, C12-C15 and C30 are about all 32 bytes; every function on a `Hash` goes through `as_bytes` |
| C58 | `SpecTrace.lean` (the compressions of a hash), `Extension.lean` | the last compression is final and the others are not, so equal outputs are a collision; prefix-freeness by recursion over the blocks, using that the last block's counter gives the length |
| C59 | `StdIo.lean`: the provided methods of `Write`, `io::copy`, `BufWriter`, for a `write` that may take part of its input | for a `write` that takes everything they are sequences of `update`s, by induction; C02–C03 give the digests |
| C60 | `Tree.lean`: trees with any shape and positions, their hash, and a caller that computes it with `Params` and `State` | each node by C02; the collision reduction by induction over both trees, node by node with the lemma behind C37; leaf and inner node are told apart by the depth |
| C61 | the traces of `Model/Leak.lean`, as lists whose length is the number of steps | `Proofs/Steps.lean`, `Proofs/StepsWorld.lean`: a bound for each function, added up along its statements; loops by induction, the cost of a round being paid by the bytes it consumes; for update8 and hash8 with what is left over for the updates after the loop |
| C62 | `Verif/SpecTrace.lean`: `CollideTo` | as C37 and C38, on the first bytes of the last outputs (`Proofs/Prefix.lean`) |
| C63 | `Model/BenchReport.lean` | blocks of the traces as in C50; induction over the runs (`Proofs/BenchReport.lean`) |
| C64 | `Verif/Undo.lean` | each assignment in `g` has an inverse; lanes and rows of the vector code are such words (`Proofs/Undo.lean`) |

## The code disagrees with its documentation

* C05, C29 — `count` "bytes the state has absorbed so far" includes the key block (64; eight of them, 512, in `blake2sp`).
* C19 — `hash4_exact` / `hash8_exact` ignore the key bytes on AVX2 machines; the portable back end honours them.
* C30 — keyed `blake2sp` states are wrong beyond the buffer: the key block stays in each leaf's buffer while message rows are
  compressed directly. Debug builds panic, release builds return a digest that depends on how the input is cut.
* C36 — a keyed BLAKE2sp state is not determined by the bytes fed (through C30); its `Debug` text shows how the input was cut, also
  without a key.
* C18 — platform independence fails, only through C19.
* C47 — the benchmark `bench_blake2s_sse41_compress` runs SSE4.1 code without asking the CPU; the crate benches/count_cycles calls
  `benchmarks::compress8_transposed_avx2`, which does not exist.
* C48 — `Hash` compares in constant time, but `to_hex` and `Debug` of `Hash` index a table by the nibbles of the digest, so their
  addresses reveal it.
* C51 — `hash4_exact` reports bad inputs as "invalid hash8_exact inputs" (lib.rs:787).
* C49 — `sse41::compress` and `sse41::export_hashes` make raw pointers from references to one array element (`&h[0]`, `&IV[0]`,
  `&mut bytes0[0]`) and access 16 bytes through them. Under the rule that such a pointer is good for that element only, every call is
  undefined behaviour; the AVX2 code uses `as_ptr()` and is not affected.
* C44 — a caught debug panic of a keyed `blake2sp` `update` leaves a usable state that has silently dropped input (`C44_truncates`).

Each is a theorem with a concrete witness, and the remaining part is a theorem named `_partial`.

Not a disagreement with the documentation, but worth knowing (C55): key bytes stay in the buffer of a `State` until they are
overwritten or `finalize` is called, and a keyed `blake2sp::State` keeps nine copies of its key even then. A `Hash` always holds
all 32 bytes of the last chaining value, also when the digest is shorter, but does not show them (C57).

## Trusted base

* Lean's kernel (including its arithmetic on `Nat` literals), and the axioms `propext`, `Classical.choice`, `Quot.sound` (per theorem: `AXIOMS.md`). No other axioms, no
  `native_decide`, no `bv_decide`.
* That the model says what the Rust source says (it was read, not run), including `Model/X86.lean` as the meaning of the intrinsics (compared with a CPU by `tools/check_intrinsics.py`).
* The contracts of the external crates `arrayref`, `arrayvec`, `byteorder`, `constant_time_eq`, and of `write!` with `{}` for integers
  and `bool`s; for C59, `StdIo.lean` as what the standard library does; `is_x86_feature_detected!` reporting true CPU features.
* `Spec.lean` as the meaning of "BLAKE2s" and "BLAKE2sp" (it agrees with the 1024 official vectors, a theorem, and with `hashlib` on samples).

## Exactly what is modelled

All non-test code of `/repo/src`: lib.rs (`Params`, `State`, `Hash`, `blake2s`, `finalize8`, `update8`, `hash8_exact`,
`hash4_exact`, `hash8`, `default_compress_impl`, `benchmarks::force_portable`…), portable.rs, sse41.rs, avx2.rs, blake2sp.rs;
and the tests in `/repo/src` (`Model/Tests.lean`, C46) and `/repo/tests` (`Model/VectorTests.lean`, C43; the hex crate by its documentation), except the parsing of the vector
file; and the benchmarks of `/repo/benches/cargo_bench` and `/repo/benches/benchmark_gig` (`Model/Bench.lean`, C47; their
figures in `Model/BenchReport.lean`, C63), except clocks, floating point and the test harness.

Branches and addresses are modelled at source level (`Model/Leak.lean`, C48): outcomes of tests, computed positions, function
pointers, printed numbers, panic messages (C51; the texts of the standard library are those of Rust 1.31). Not in the trace: positions that are literals in the source, among them every access of the vector
code (which has no branches, so a vector compression is one event); what the compiler makes of the source; the body of
`constant_time_eq`, which is taken to be one pass over the length without tests of bytes.

Memory is modelled for the functions that use raw pointers (`Model/Mem.lean`, C49): bytes at addresses, pointers with the range they
may be used for, alignment of references to vectors. In this model objects are where the arguments say; that the arguments of safe
callers point to live objects, and that `AlignedWords8` objects are at multiples of 32 (`align(32)`, lib.rs:142), is what Rust
guarantees for references. Not in it: the aliasing rules for references, other than the parameter `Rule`.

Byte order: outside the x86 modules every conversion between words and bytes goes through `byteorder::LittleEndian`, so the model
of the portable code is that of a machine of either byte order.

Not modelled: time itself, memory outside C49 (`AlignedWords8` is its contents, its `Deref`/`DerefMut` (lib.rs:145-157) the identity;
the wrappers `loadu`/`storeu` of sse41.rs:9-27 and avx2.rs:18-27 are their intrinsics), `Copy`/auto traits, locations in panic messages,
benches/count_cycles (does not compile against this crate) and benches/bench_libsodium.c.
