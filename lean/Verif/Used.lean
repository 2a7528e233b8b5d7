import Verif.Work
/-!
# Which code runs

Read off a trace (Verif/Model/Leak.lean): whether portable or vector code runs, and how many blocks it compresses
at once.
-/

namespace Blake2s

/-- The two kinds of code in /repo/src: `portable` (portable.rs), and `vector` (sse41.rs, avx2.rs). -/
inductive Code where
  | portable
  | vector
deriving DecidableEq

/-- The kind of code that an event runs, if it is a call through a function pointer (src/lib.rs:63-135), or a step
of a SIMD `hash4_exact` (src/sse41.rs:734-765) or `hash8_exact` (src/avx2.rs:730-763). -/
def Event.code : Event → Option Code
  | .compress .portable => some .portable
  | .compress .sse41 => some .vector
  | .compress8 .portable => some .portable
  | .compress8 .avx2 => some .vector
  | .vectorize8 .portable => some .portable
  | .vectorize8 .avx2 => some .vector
  | .compress8Vectorized .portable => some .portable
  | .compress8Vectorized .avx2 => some .vector
  | .hash4Exact .portable => some .portable
  | .hash4Exact .sse41 => some .vector
  | .hash8Exact .portable => some .portable
  | .hash8Exact .avx2 => some .vector
  | .compressTransposed _ => some .vector
  | _ => none

/-- How often `n` blocks are compressed at once in the course of a trace: 1 stands for `compress`
(src/lib.rs:63), 8 for `compress8` and `compress8_vectorized` (src/lib.rs:64-105, 121-135) and for the steps of a SIMD
`hash8_exact`, 4 for those of a SIMD `hash4_exact`. -/
def atOnce (n : Nat) (t : List Event) : Nat := (t.filter fun e => e.blocks == n).length

/-- The two calls that change which code an object uses: `benchmarks::force_portable` and
`benchmarks::force_portable_blake2sp` (src/lib.rs:1077-1083). -/
def Call.forces : Call → Bool
  | .forcePortable _ | .spForcePortable _ => true
  | _ => false

/-- A sequence of calls on one `blake2sp::State`, with its trace. The calls are src/blake2sp.rs:255-328 (`update`),
406-409 (`write`), 411-413 (`flush`), 332-388 (`finalize`) and 438-449 (`force_portable`); without the trace it is
`Sp.State.run`. -/
def Sp.State.runT (E : Env) : Sp.State → List Sp.Op → Tr (Sp.State × List Hash)
  | s, [] => pure (s, [])
  | s, .update input :: ops => do
    let s ← s.updateT E input
    Sp.State.runT E s ops
  | s, .write input :: ops => do
    let (s, _) ← s.writeT E input
    Sp.State.runT E s ops
  | s, .flush :: ops => Sp.State.runT E s.flush ops
  | s, .finalize :: ops => do
    let (s, h) ← s.finalizeT E
    let (s, hs) ← Sp.State.runT E s ops
    return (s, h :: hs)
  | s, .forcePortable :: ops => Sp.State.runT E s.forcePortable ops

end Blake2s
