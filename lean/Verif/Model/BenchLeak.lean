import Verif.Model.Bench
import Verif.Model.Leak
/-!
# The hashing benchmarks, with their traces

The same functions as in Verif/Model/Bench.lean, in terms of the functions with traces of Verif/Model/Leak.lean.
-/

namespace Blake2s.Bench

open Blake2s.Tr

/-- The closures of benches/cargo_bench/src/lib.rs:183-203 `bench_blake2s_portable_one_block` and
`bench_blake2s_portable_one_mb`; also benches/benchmark_gig/src/main.rs:55-60 `hash_portable`. -/
def hashPortableT (E : Env) (input : List U8) : Tr Hash := do
  let state ← State.newT E
  let state := state.forcePortable
  let state ← state.updateT E input
  let (_, hash) ← state.finalizeT E
  return hash

/-- The closure of benches/cargo_bench/src/lib.rs:205-209 `bench_blake2sp_one_mb`; also
benches/benchmark_gig/src/main.rs:110-112 `hash_blake2sp`. -/
def hashBlake2spT (E : Env) (input : List U8) : Tr Hash := blake2spT E input

/-- benches/cargo_bench/src/lib.rs:211-248 `do_update8`, with eight inputs. -/
def doUpdate8T (E : Env) (input : Vector (List U8) 8) : Tr (Vector Hash 8) := do
  let state0 ← State.newT E
  let state1 ← State.newT E
  let state2 ← State.newT E
  let state3 ← State.newT E
  let state4 ← State.newT E
  let state5 ← State.newT E
  let state6 ← State.newT E
  let state7 ← State.newT E
  let states ← update8T E #v[state0, state1, state2, state3, state4, state5, state6, state7] input
  let (_, hashes) ← finalize8T E states
  return hashes

/-- The closures of benches/cargo_bench/src/lib.rs:262-281 `bench_blake2s_hash4_one_block`,
`bench_blake2s_hash4_4096`, `bench_blake2s_hash4_one_mb`. -/
def hash4T (E : Env) (buf : List U8) : Tr (Vector Hash 4) :=
  hash4ExactT E Params.new (Vector.replicate 4 buf)

/-- The closures of benches/cargo_bench/src/lib.rs:283-338 `bench_blake2s_hash8_exact_one_block` etc. -/
def hash8ExactT (E : Env) (buf : List U8) : Tr (Vector Hash 8) :=
  Blake2s.hash8ExactT E Params.new (Vector.replicate 8 buf)

/-- The closures of benches/cargo_bench/src/lib.rs:340-416 `bench_blake2s_hash8_inexact_one_block` etc. -/
def hash8InexactT (E : Env) (buf : List U8) : Tr (Vector Hash 8) :=
  hash8T E (Vector.replicate 8 Params.new) (Vector.replicate 8 buf)

/-- `&input[i * eighth..][..eighth]`, benches/benchmark_gig/src/main.rs:72-79. -/
def eighthOfT (input : List U8) (eighth i : Nat) : Tr (List U8) := do
  sliceToT (← sliceFromT input (i * eighth)) eighth

/-- benches/benchmark_gig/src/main.rs:62-108 `hash_update8`. -/
def hashUpdate8T (E : Env) (input : List U8) : Tr (Vector Hash 8) := do
  let state0 ← State.newT E
  let state1 ← State.newT E
  let state2 ← State.newT E
  let state3 ← State.newT E
  let state4 ← State.newT E
  let state5 ← State.newT E
  let state6 ← State.newT E
  let state7 ← State.newT E
  let eighth := input.length / 8
  let input0 ← eighthOfT input eighth 0
  let input1 ← eighthOfT input eighth 1
  let input2 ← eighthOfT input eighth 2
  let input3 ← eighthOfT input eighth 3
  let input4 ← eighthOfT input eighth 4
  let input5 ← eighthOfT input eighth 5
  let input6 ← eighthOfT input eighth 6
  let input7 ← eighthOfT input eighth 7
  let states ← update8T E #v[state0, state1, state2, state3, state4, state5, state6, state7]
    #v[input0, input1, input2, input3, input4, input5, input6, input7]
  let (_, hashes) ← finalize8T E states
  return hashes

end Blake2s.Bench
