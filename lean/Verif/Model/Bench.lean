import Verif.Model.Many
import Verif.Model.Blake2sp
/-!
# Model of the benchmark programs

The crates benches/cargo_bench and benches/benchmark_gig. Fixed inputs are arguments here. Time measurement,
printing and `black_box` are left out. `b.iter(f)` calls `f` some number of times, which is the argument `n`;
closures that do not change anything outside themselves are modelled by one call. Values that the programs
drop (the hashes, the state words) are returned.

The crate benches/count_cycles is not modelled: it calls `benchmarks::compress8_transposed_avx2`
(benches/count_cycles/src/main.rs:81), which src/lib.rs:1061-1084 does not define, so it does not compile.
-/

namespace Blake2s.Bench

open X86

/-- `n` calls of a closure that changes a captured variable. E.g. benches/cargo_bench/src/lib.rs:17. -/
def iter {α : Type} (body : α → R α) : Nat → α → R α
  | 0, a => pure a
  | n + 1, a => do
    let a ← body a
    iter body n a

/-! ## benches/cargo_bench: compression functions -/

/-- benches/cargo_bench/src/lib.rs:13-18 `bench_blake2s_sse41_compress`. There is no run-time check. -/
def sse41Compress (E : Env) (n : Nat) (h : StateWords) (block : Block) : R StateWords :=
  iter (fun h => CompressFn.sse41.call E h block 0 0 0) n h

/-- benches/cargo_bench/src/lib.rs:20-50 `bench_blake2s_avx2_compress8`. -/
def avx2Compress8 (E : Env) (n : Nat) (h : Vector StateWords 8) (block : Vector Block 8) :
    R (Vector StateWords 8) :=
  if !(E.x86 && E.avx2) then pure h
  else iter (fun h => Compress8Fn.avx2.call E h block (Vector.replicate 8 0) (Vector.replicate 8 0)
    (Vector.replicate 8 0)) n h

/-- `benchmarks::compress4_transposed_sse41`, src/lib.rs:1067-1068. -/
def compress4TransposedCall (E : Env) (h_vecs : Vector M128 8) (msg : Vector Block 4)
    (count_low count_high lastblock lastnode : M128) : R (Vector M128 8) :=
  if E.x86 && E.sse41 then
    pure (Sse41.compress4Transposed h_vecs msg count_low count_high lastblock lastnode)
  else throw .illegalInstruction

/-- benches/cargo_bench/src/lib.rs:52-84 `bench_blake2s_sse41_compress4_transposed`. `mem::zeroed()` is
the zero vector. -/
def sse41Compress4Transposed (E : Env) (n : Nat) (h_vecs : Vector M128 8) (msg : Vector Block 4) :
    R (Vector M128 8) :=
  if !(E.x86 && E.sse41) then pure h_vecs
  else iter (fun h => compress4TransposedCall E h msg 0 0 0 0) n h_vecs

/-- benches/cargo_bench/src/lib.rs:86-126 `bench_blake2s_avx2_compress8_vectorized`. -/
def avx2Compress8Vectorized (E : Env) (n : Nat) (h_vecs : Vector StateWords 8) (msg : Vector Block 8) :
    R (Vector StateWords 8) :=
  if !(E.x86 && E.avx2) then pure h_vecs
  else iter (fun h => Compress8VectorizedFn.avx2.call E h msg (Vector.replicate 8 0)
    (Vector.replicate 8 0) (Vector.replicate 8 0) (Vector.replicate 8 0)) n h_vecs

/-- `benchmarks::compress8_transposed_all_avx2`, src/lib.rs:1072-1073. -/
def compress8TransposedCall (E : Env) (h_vecs : Vector M256 8) (msg_vecs : Vector M256 16)
    (count_low count_high lastblock lastnode : M256) : R (Vector M256 8) :=
  if E.x86 && E.avx2 then
    pure (Avx2.compress8Transposed h_vecs msg_vecs count_low count_high lastblock lastnode)
  else throw .illegalInstruction

/-- benches/cargo_bench/src/lib.rs:128-154 `bench_blake2s_avx2_compress8_transposed_all`. -/
def avx2Compress8TransposedAll (E : Env) (n : Nat) (h_vecs : Vector M256 8) (msg_vecs : Vector M256 16)
    (count_low count_high lastblock lastnode : M256) : R (Vector M256 8) :=
  if !(E.x86 && E.avx2) then pure h_vecs
  else iter (fun h => compress8TransposedCall E h msg_vecs count_low count_high lastblock lastnode) n h_vecs

/-- benches/cargo_bench/src/lib.rs:156-161 `bench_blake2s_portable_compress`. -/
def portableCompress (E : Env) (n : Nat) (h : StateWords) (block : Block) : R StateWords :=
  iter (fun h => CompressFn.portable.call E h block 0 0 0) n h

/-- benches/cargo_bench/src/lib.rs:163-181 `bench_blake2s_portable_compress8`, with eight blocks. -/
def portableCompress8 (E : Env) (n : Nat) (h : Vector StateWords 8) (block : Vector Block 8) :
    R (Vector StateWords 8) :=
  iter (fun h => Compress8Fn.portable.call E h block (Vector.replicate 8 0) (Vector.replicate 8 0)
    (Vector.replicate 8 0)) n h

/-! ## benches/cargo_bench: hashing -/

/-- The closures of benches/cargo_bench/src/lib.rs:183-203 `bench_blake2s_portable_one_block` and
`bench_blake2s_portable_one_mb`; also benches/benchmark_gig/src/main.rs:55-60 `hash_portable`. -/
def hashPortable (E : Env) (input : List U8) : R Hash := do
  let state ← State.new E
  let state := state.forcePortable
  let state ← state.update E input
  let (_, hash) ← state.finalize E
  return hash

/-- The closure of benches/cargo_bench/src/lib.rs:205-209 `bench_blake2sp_one_mb`; also
benches/benchmark_gig/src/main.rs:110-112 `hash_blake2sp`. -/
def hashBlake2sp (E : Env) (input : List U8) : R Hash := blake2sp E input

/-- benches/cargo_bench/src/lib.rs:211-248 `do_update8`, with eight inputs. -/
def doUpdate8 (E : Env) (input : Vector (List U8) 8) : R (Vector Hash 8) := do
  let state0 ← State.new E
  let state1 ← State.new E
  let state2 ← State.new E
  let state3 ← State.new E
  let state4 ← State.new E
  let state5 ← State.new E
  let state6 ← State.new E
  let state7 ← State.new E
  let states ← update8 E #v[state0, state1, state2, state3, state4, state5, state6, state7] input
  let (_, hashes) ← finalize8 E states
  return hashes

/-- The closures of benches/cargo_bench/src/lib.rs:262-281 `bench_blake2s_hash4_one_block`,
`bench_blake2s_hash4_4096`, `bench_blake2s_hash4_one_mb`. -/
def hash4 (E : Env) (buf : List U8) : R (Vector Hash 4) :=
  hash4Exact E Params.new (Vector.replicate 4 buf)

/-- The closures of benches/cargo_bench/src/lib.rs:283-338 `bench_blake2s_hash8_exact_one_block` etc. -/
def hash8Exact (E : Env) (buf : List U8) : R (Vector Hash 8) :=
  Blake2s.hash8Exact E Params.new (Vector.replicate 8 buf)

/-- The closures of benches/cargo_bench/src/lib.rs:340-416 `bench_blake2s_hash8_inexact_one_block` etc. -/
def hash8Inexact (E : Env) (buf : List U8) : R (Vector Hash 8) :=
  hash8 E (Vector.replicate 8 Params.new) (Vector.replicate 8 buf)

/-! ## benches/benchmark_gig -/

/-- `&input[i * eighth..][..eighth]`, benches/benchmark_gig/src/main.rs:72-79. -/
def eighthOf (input : List U8) (eighth i : Nat) : R (List U8) := do
  sliceTo (← sliceFrom input (i * eighth)) eighth

/-- benches/benchmark_gig/src/main.rs:62-108 `hash_update8`. -/
def hashUpdate8 (E : Env) (input : List U8) : R (Vector Hash 8) := do
  let state0 ← State.new E
  let state1 ← State.new E
  let state2 ← State.new E
  let state3 ← State.new E
  let state4 ← State.new E
  let state5 ← State.new E
  let state6 ← State.new E
  let state7 ← State.new E
  let eighth := input.length / 8
  let input0 ← eighthOf input eighth 0
  let input1 ← eighthOf input eighth 1
  let input2 ← eighthOf input eighth 2
  let input3 ← eighthOf input eighth 3
  let input4 ← eighthOf input eighth 4
  let input5 ← eighthOf input eighth 5
  let input6 ← eighthOf input eighth 6
  let input7 ← eighthOf input eighth 7
  let states ← update8 E #v[state0, state1, state2, state3, state4, state5, state6, state7]
    #v[input0, input1, input2, input3, input4, input5, input6, input7]
  let (_, hashes) ← finalize8 E states
  return hashes

end Blake2s.Bench
