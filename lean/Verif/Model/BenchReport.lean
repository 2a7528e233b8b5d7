import Verif.Model.BenchLeak
/-!
# Model of what the benchmark programs report

benches/cargo_bench: the hashing benchmarks with their inputs and the number of bytes (`b.bytes`) from which the test
harness computes a rate. benches/benchmark_gig: the three runs and the figures that are printed. The times that are
measured are arguments. A `Duration` is a number of nanoseconds, and dividing one by an integer rounds down; both are
part of the Rust standard library. The floating-point numbers of benches/benchmark_gig/src/main.rs:23-26, which are
computed from the number of nanoseconds and `INPUT_LEN`, are left out, as is the end of line.
-/

namespace Blake2s.Bench

open Blake2s.Tr

/-! ## benches/cargo_bench -/

/-- benches/cargo_bench/src/lib.rs:10. -/
def BLOCK : List U8 := List.replicate BLOCKBYTES 0

/-- benches/cargo_bench/src/lib.rs:11. -/
def MB : List U8 := List.replicate 1000000 0

/-- A benchmark: `b.bytes`, and one call of the closure passed to `b.iter`. E.g.
benches/cargo_bench/src/lib.rs:183-192. -/
structure Benchmark where
  bytes : Nat
  iteration : Env → Tr Unit

/-- Dropping the result of a closure. E.g. benches/cargo_bench/src/lib.rs:259. -/
def dropped {α : Type} (m : Tr α) : Tr Unit := do
  let _ ← m
  return ()

/-- benches/cargo_bench/src/lib.rs:183-192 `bench_blake2s_portable_one_block`. -/
def portableOneBlock : Benchmark := ⟨BLOCK.length, fun E => dropped (hashPortableT E BLOCK)⟩

/-- benches/cargo_bench/src/lib.rs:194-203 `bench_blake2s_portable_one_mb`. -/
def portableOneMb : Benchmark := ⟨MB.length, fun E => dropped (hashPortableT E MB)⟩

/-- benches/cargo_bench/src/lib.rs:205-209 `bench_blake2sp_one_mb`. -/
def blake2spOneMb : Benchmark := ⟨MB.length, fun E => dropped (hashBlake2spT E MB)⟩

/-- benches/cargo_bench/src/lib.rs:250-254 `bench_blake2s_update8_one_block`. -/
def update8OneBlock : Benchmark := ⟨8 * BLOCK.length, fun E => dropped (doUpdate8T E (Vector.replicate 8 BLOCK))⟩

/-- benches/cargo_bench/src/lib.rs:256-260 `bench_blake2s_update8_one_mb`. -/
def update8OneMb : Benchmark := ⟨8 * MB.length, fun E => dropped (doUpdate8T E (Vector.replicate 8 MB))⟩

/-- benches/cargo_bench/src/lib.rs:262-267 `bench_blake2s_hash4_one_block`. -/
def hash4OneBlock : Benchmark := ⟨4 * BLOCKBYTES, fun E => dropped (hash4T E (List.replicate BLOCKBYTES 1))⟩

/-- benches/cargo_bench/src/lib.rs:269-274 `bench_blake2s_hash4_4096`. -/
def hash4Page : Benchmark := ⟨4 * 4096, fun E => dropped (hash4T E (List.replicate 4096 1))⟩

/-- benches/cargo_bench/src/lib.rs:276-281 `bench_blake2s_hash4_one_mb`. -/
def hash4OneMb : Benchmark := ⟨4 * 2 ^ 20, fun E => dropped (hash4T E (List.replicate (2 ^ 20) 1))⟩

/-- benches/cargo_bench/src/lib.rs:283-300 `bench_blake2s_hash8_exact_one_block`. -/
def hash8ExactOneBlock : Benchmark := ⟨8 * BLOCKBYTES, fun E => dropped (hash8ExactT E (List.replicate BLOCKBYTES 1))⟩

/-- benches/cargo_bench/src/lib.rs:302-319 `bench_blake2s_hash8_exact_4096`. -/
def hash8ExactPage : Benchmark := ⟨8 * 4096, fun E => dropped (hash8ExactT E (List.replicate 4096 1))⟩

/-- benches/cargo_bench/src/lib.rs:321-338 `bench_blake2s_hash8_exact_one_mb`. -/
def hash8ExactOneMb : Benchmark := ⟨8 * 2 ^ 20, fun E => dropped (hash8ExactT E (List.replicate (2 ^ 20) 1))⟩

/-- benches/cargo_bench/src/lib.rs:340-364 `bench_blake2s_hash8_inexact_one_block`. -/
def hash8InexactOneBlock : Benchmark :=
  ⟨8 * BLOCKBYTES, fun E => dropped (hash8InexactT E (List.replicate BLOCKBYTES 1))⟩

/-- benches/cargo_bench/src/lib.rs:366-390 `bench_blake2s_hash8_inexact_4096`. -/
def hash8InexactPage : Benchmark := ⟨8 * 4096, fun E => dropped (hash8InexactT E (List.replicate 4096 1))⟩

/-- benches/cargo_bench/src/lib.rs:392-416 `bench_blake2s_hash8_inexact_one_mb`. -/
def hash8InexactOneMb : Benchmark := ⟨8 * 2 ^ 20, fun E => dropped (hash8InexactT E (List.replicate (2 ^ 20) 1))⟩

/-! ## benches/benchmark_gig -/

/-- benches/benchmark_gig/src/main.rs:16. -/
def INPUT_LEN : Nat := 1000000000

/-- benches/benchmark_gig/src/main.rs:17. -/
def RUNS : Nat := 10

/-- A line that is printed. E.g. benches/benchmark_gig/src/main.rs:26, 49, 118. -/
inductive Line where
  | figures (nanos : U64) (message : String)
  | text (s : String)
  deriving DecidableEq

/-- benches/benchmark_gig/src/main.rs:21-27 `print`. The number of nanoseconds is computed in 64 bits. -/
def printed (E : Env) (d : Nat) (message : String) : R Line :=
  if d < 2 ^ 64 ∨ E.overflowChecks = false then pure (.figures (BitVec.ofNat 64 d) message) else throw .overflow

/-- Adding durations, benches/benchmark_gig/src/main.rs:42: a panic if there are too many seconds. -/
def addDurations (a b : Nat) : R Nat :=
  if a + b < 2 ^ 64 * 1000000000 then pure (a + b) else throw .overflow

/-- The loop of benches/benchmark_gig/src/main.rs:32-47 from run `i` on: `times` are the times of the remaining
runs. The trace is that of the calls of `hash_fn`. -/
def runLoop (E : Env) (hashFn : Tr Unit) (i fastest total : Nat) (out : List Line) :
    List Nat → Tr (Nat × Nat × List Line)
  | [] => pure (fastest, total, out)
  | diff :: times => do
    hashFn
    if i = 0 then
      let line ← lift (printed E diff "(ignored)")
      runLoop E hashFn (i + 1) fastest total (out ++ [line]) times
    else
      let line ← lift (printed E diff "")
      let total ← lift (addDurations total diff)
      runLoop E hashFn (i + 1) (if diff < fastest then diff else fastest) total (out ++ [line]) times

/-- benches/benchmark_gig/src/main.rs:29-53 `run`, of `hash_fn` on the input; `times` are the ten times measured. -/
def run (E : Env) (hashFn : Tr Unit) (times : Vector Nat 10) : Tr (List Line) := do
  let (fastest, total, out) ← runLoop E hashFn 0 ((2 ^ 64 - 1) * 1000000000) 0 [] times.toList
  let average := total / (RUNS - 1)
  let a ← lift (printed E average "average")
  let f ← lift (printed E fastest "fastest")
  return out ++ [.text "-----", a, f, .text "-----"]

/-- benches/benchmark_gig/src/main.rs:55-60 `hash_portable`, on the input of line 115. -/
def gigPortable : Benchmark := ⟨INPUT_LEN, fun E => dropped (hashPortableT E (List.replicate INPUT_LEN 0))⟩

/-- benches/benchmark_gig/src/main.rs:62-108 `hash_update8`, on the input of line 115. -/
def gigUpdate8 : Benchmark := ⟨INPUT_LEN, fun E => dropped (hashUpdate8T E (List.replicate INPUT_LEN 0))⟩

/-- benches/benchmark_gig/src/main.rs:110-112 `hash_blake2sp`, on the input of line 115. -/
def gigBlake2sp : Benchmark := ⟨INPUT_LEN, fun E => dropped (hashBlake2spT E (List.replicate INPUT_LEN 0))⟩

/-- benches/benchmark_gig/src/main.rs:114-128 `main`; `t1`, `t2` and `t3` are the times measured. -/
def gigMain (E : Env) (t1 t2 t3 : Vector Nat 10) : Tr (List Line) := do
  let a ← run E (gigPortable.iteration E) t1
  let b ← run E (gigUpdate8.iteration E) t2
  let c ← run E (gigBlake2sp.iteration E) t3
  return [.text "run #1, the portable implementation"] ++ a ++ [.text "run #2, the 4-way AVX2 implementation"] ++ b ++
    [.text "run #3, blake2sp"] ++ c

end Blake2s.Bench
