import Verif.Model.Leak
/-!
# Counting compressions

The amount of work of an execution, read off its trace (Verif/Model/Leak.lean): how many 64-byte blocks the
compression function is applied to.
-/

namespace Blake2s

/-- The number of blocks compressed at one event: one for a call of `compress` (src/lib.rs:104), eight for a
call of `compress8` or `compress8_vectorized` (src/lib.rs:105, 121-135), and for one step of the loop of a SIMD
`hash4_exact` (src/sse41.rs:734-765) or `hash8_exact` (src/avx2.rs:730-763) as many as it has lanes. -/
def Event.blocks : Event → Nat
  | .compress _ => 1
  | .compress8 _ => 8
  | .compress8Vectorized _ => 8
  | .compressTransposed lanes => lanes
  | _ => 0

/-- The number of blocks compressed in the course of a trace. For src/lib.rs and src/blake2sp.rs as a whole. -/
def blocks (t : List Event) : Nat := (t.map Event.blocks).sum

/-- How many blocks of 64 bytes it takes to hold `n` bytes: at least one, for BLAKE2 also compresses a block if
there is no input (src/lib.rs:389-402). -/
def blocksFor (n : Nat) : Nat := max 1 ((n + 63) / 64)

/-- A sequence of calls on one `State`, with its trace. The calls are src/lib.rs:363-385 (`update`), 441-444
(`write`), 446-448 (`flush`), 389-402 (`finalize`), 412-415 (`set_last_node`) and 1078-1080
(`benchmarks::force_portable`); without the trace it is `State.run`. -/
def State.runT (E : Env) : State → List Op → Tr (State × List Hash)
  | s, [] => pure (s, [])
  | s, .update input :: ops => do
    let s ← s.updateT E input
    State.runT E s ops
  | s, .write input :: ops => do
    let (s, _) ← s.writeT E input
    State.runT E s ops
  | s, .flush :: ops => State.runT E s.flush ops
  | s, .finalize :: ops => do
    let (s, h) ← s.finalizeT E
    let (s, hs) ← State.runT E s ops
    return (s, h :: hs)
  | s, .setLastNode b :: ops => State.runT E (s.setLastNode b) ops
  | s, .forcePortable :: ops => State.runT E s.forcePortable ops

/-- Creating a state (src/lib.rs:206-208) and calling its methods, with the trace. -/
def historyT (E : Env) (p : Params) (ops : List Op) : Tr (State × List Hash) := do
  let s ← p.toStateT E
  s.runT E ops

/-- The number of `finalize` calls (src/lib.rs:389-402) in a history. -/
def finalizeCalls (ops : List Op) : Nat := (ops.filter fun o => decide (o = .finalize)).length

/-- Feeding a list of inputs to a `blake2sp::State`, one `update` (src/blake2sp.rs:255-328) each, with the
trace. -/
def Sp.State.updatesT (E : Env) : Sp.State → List (List U8) → Tr Sp.State
  | s, [] => pure s
  | s, c :: cs => do
    let s ← s.updateT E c
    Sp.State.updatesT E s cs

/-- `to_state`, `update` any number of times, `finalize` (src/blake2sp.rs:30-32, 255-388), with the trace. -/
def Sp.chunksT (E : Env) (p : Sp.Params) (chunks : List (List U8)) : Tr Hash := do
  let s ← p.toStateT E
  let s ← s.updatesT E chunks
  let (_, h) ← s.finalizeT E
  return h

end Blake2s
