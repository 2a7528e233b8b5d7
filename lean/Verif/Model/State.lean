import Verif.Model.Portable
import Verif.Model.Sse41
import Verif.Model.Avx2
/-!
# Model of src/lib.rs: dispatch, `State`

`&mut self` methods return the new state. When a method panics the model returns only the fault; the
half-updated object observed after `catch_unwind` is the subject of `Model/Unwind.lean`. All `Debug`
implementations of the crate write their text with `write!`, so `{:?}` and `{:#?}` print the same.
-/

namespace Blake2s

/-- The values of `CompressFn` (src/lib.rs:63) that occur in the crate. -/
inductive CompressFn where
  | portable
  | sse41
deriving DecidableEq, Repr

/-- Calling a `CompressFn`. Executing SSE4.1 code on a CPU without SSE4.1 (or a non-x86 CPU) is a
fault. E.g. src/lib.rs:372. -/
def CompressFn.call (E : Env) (f : CompressFn) (h : StateWords) (msg : Block) (count : U64)
    (lastblock lastnode : U32) : R StateWords :=
  match f with
  | .portable => pure (Portable.compress h msg count lastblock lastnode)
  | .sse41 =>
    if E.x86 && E.sse41 then pure (Sse41.compress h msg count lastblock lastnode)
    else throw .illegalInstruction

/-- The values of `Compress8Fn` (src/lib.rs:64-105). -/
inductive Compress8Fn where
  | portable
  | avx2
deriving DecidableEq, Repr

/-- Calling a `Compress8Fn`. E.g. src/lib.rs:571. -/
def Compress8Fn.call (E : Env) (f : Compress8Fn) (h : Vector StateWords 8) (msg : Vector Block 8)
    (count : Vector U64 8) (lastblock lastnode : Vector U32 8) : R (Vector StateWords 8) :=
  match f with
  | .portable => pure (Portable.compress8 h msg count lastblock lastnode)
  | .avx2 =>
    if E.x86 && E.avx2 then pure (Avx2.compress8 h msg count lastblock lastnode)
    else throw .illegalInstruction

/-- The values of `Vectorize8Fn` (src/lib.rs:120). -/
inductive Vectorize8Fn where
  | portable
  | avx2
deriving DecidableEq, Repr

/-- Calling a `Vectorize8Fn`. The type is src/lib.rs:120. -/
def Vectorize8Fn.call (E : Env) (f : Vectorize8Fn) (w : Vector StateWords 8) :
    R (Vector StateWords 8) :=
  match f with
  | .portable => pure (Portable.vectorizeWords8 w)
  | .avx2 =>
    if E.x86 && E.avx2 then pure (Avx2.vectorizeWords8 w) else throw .illegalInstruction

/-- The values of `Compress8VectorizedFn` (src/lib.rs:121-135). -/
inductive Compress8VectorizedFn where
  | portable
  | avx2
deriving DecidableEq, Repr

/-- Calling a `Compress8VectorizedFn`. The type is src/lib.rs:121-135. -/
def Compress8VectorizedFn.call (E : Env) (f : Compress8VectorizedFn) (w : Vector StateWords 8)
    (msg : Vector Block 8) (countLow countHigh lastblock lastnode : Vector U32 8) :
    R (Vector StateWords 8) :=
  match f with
  | .portable => Portable.compress8Vectorized E w msg countLow countHigh lastblock lastnode
  | .avx2 =>
    if E.x86 && E.avx2 then
      pure (Avx2.compress8Vectorized w msg countLow countHigh lastblock lastnode)
    else throw .illegalInstruction

/-- The values of `Hash4ExactFn` (src/lib.rs:106-108). -/
inductive Hash4ExactFn where
  | portable
  | sse41
deriving DecidableEq, Repr

/-- The values of `Hash8ExactFn` (src/lib.rs:109-119). -/
inductive Hash8ExactFn where
  | portable
  | avx2
deriving DecidableEq, Repr

/-- The result tuple of `default_compress_impl` (src/lib.rs:1024-1031). -/
structure Impl where
  compress : CompressFn
  compress8 : Compress8Fn
  hash8Exact : Hash8ExactFn
  hash4Exact : Hash4ExactFn
  vectorize8 : Vectorize8Fn
  compress8Vectorized : Compress8VectorizedFn
deriving DecidableEq, Repr

/-- src/lib.rs:1021-1057 `default_compress_impl`. -/
def defaultCompressImpl (E : Env) : Impl :=
  if E.x86 && E.std && E.avx2 then
    { compress := .sse41
      compress8 := .avx2
      hash8Exact := .avx2
      hash4Exact := .sse41
      vectorize8 := .avx2
      compress8Vectorized := .avx2 }
  else
    { compress := .portable
      compress8 := .portable
      hash8Exact := .portable
      hash4Exact := .portable
      vectorize8 := .portable
      compress8Vectorized := .portable }

/-- src/lib.rs:305-314 `struct State`. -/
structure State where
  h : StateWords
  buf : Block
  buflen : U8
  count : U64
  compressFn : CompressFn
  lastNode : Bool
  hashLength : U8
deriving DecidableEq

namespace State

/-- src/lib.rs:339-345 `State::fill_buf`; the second component is the rest of the input. -/
def fillBuf (E : Env) (s : State) (input : List U8) : R (State × List U8) := do
  let take := min (← usizeSub BLOCKBYTES s.buflen.toNat) input.length
  let buf ← copyFromSlice s.buf s.buflen.toNat (s.buflen.toNat + take) (← sliceTo input take)
  let buflen ← addChk E s.buflen (BitVec.ofNat 8 take)
  let count ← addChk E s.count (BitVec.ofNat 64 take)
  let input ← sliceFrom input take
  return ({ s with buf := buf, buflen := buflen, count := count }, input)

/-- src/lib.rs:350-360 `State::compress_buffer_if_possible`. -/
def compressBufferIfPossible (E : Env) (s : State) (input : List U8) : R (State × List U8) := do
  if s.buflen.toNat > 0 then
    let (s, input) ← s.fillBuf E input
    if !input.isEmpty then
      let h ← s.compressFn.call E s.h s.buf s.count 0 0
      return ({ s with h := h, buflen := 0 }, input)
    else
      return (s, input)
  else
    return (s, input)

/-- The `while` loop of src/lib.rs:368-375, with fuel. -/
def updateLoop (E : Env) : Nat → State → List U8 → R (State × List U8)
  | 0, _, _ => throw .nonTermination
  | fuel + 1, s, input =>
    if input.length > BLOCKBYTES then do
      let count ← addChk E s.count (BitVec.ofNat 64 BLOCKBYTES)
      let block ← arrayRef input 0 BLOCKBYTES
      let h ← s.compressFn.call E s.h block count 0 0
      let input ← sliceFrom input BLOCKBYTES
      updateLoop E fuel { s with h := h, count := count } input
    else
      pure (s, input)

/-- src/lib.rs:363-385 `State::update`. -/
def update (E : Env) (s : State) (input : List U8) : R State := do
  let (s, input) ← s.compressBufferIfPossible E input
  let (s, input) ← updateLoop E (input.length + 1) s input
  let (s, _) ← s.fillBuf E input
  return s

/-- src/lib.rs:321-337 `State::with_params`. -/
def withParams (E : Env) (params : Params) : R State := do
  let state : State :=
    { h := params.makeWords
      compressFn := (defaultCompressImpl E).compress
      buf := Vector.replicate 64 0
      buflen := 0
      count := 0
      lastNode := params.lastNode
      hashLength := params.hashLength }
  if params.keyLength.toNat > 0 then
    let keyBlock ← copyFromSlice (Vector.replicate 64 0) 0 KEYBYTES params.key.toList
    state.update E keyBlock.toList
  else
    return state

/-- src/lib.rs:317-319 `State::new`. -/
def new (E : Env) : R State := withParams E Params.default

/-- src/lib.rs:462-466 `impl Default for State`. -/
def default (E : Env) : R State := withParams E Params.default

/-- The loop `for i in self.buflen as usize..BLOCKBYTES { self.buf[i] = 0; }` of src/lib.rs:390-392,
as one step. -/
def zeroTail (buf : Block) (buflen : U8) : Block :=
  Vector.ofFn fun i : Fin 64 => if buflen.toNat ≤ i.val then 0 else buf[i]

/-- The flag word `if self.last_node { !0 } else { 0 }` of src/lib.rs:393 etc. -/
def flagWord (b : Bool) : U32 := if b then ~~~ 0 else 0

/-- src/lib.rs:389-402 `State::finalize`. -/
def finalize (E : Env) (s : State) : R (State × Hash) := do
  let s := { s with buf := zeroTail s.buf s.buflen }
  let lastNode := flagWord s.lastNode
  let hCopy ← s.compressFn.call E s.h s.buf s.count (~~~ 0) lastNode
  return (s, { bytes := stateWordsToBytes hCopy, len := s.hashLength })

/-- src/lib.rs:412-415 `State::set_last_node`. -/
def setLastNode (s : State) (lastNode : Bool) : State := { s with lastNode := lastNode }

/-- src/lib.rs:418-420 `State::count`. -/
def getCount (s : State) : U64 := s.count

/-- src/lib.rs:441-444 `impl Write for State`: `write` (always `Ok`). -/
def write (E : Env) (s : State) (buf : List U8) : R (State × Nat) := do
  let s ← s.update E buf
  return (s, buf.length)

/-- src/lib.rs:446-448 `impl Write for State`: `flush` (always `Ok`). -/
def flush (s : State) : State := s

/-- Decimal rendering of an unsigned machine integer by `{}`. Used by src/lib.rs:454-460. -/
def dec {w : Nat} (x : BitVec w) : String := toString x.toNat

/-- Rendering of a `bool` by `{}`. Used by src/lib.rs:454-460. -/
def decBool (b : Bool) : String := if b then "true" else "false"

/-- src/lib.rs:451-460 `impl Debug for State`. -/
def debug (s : State) : String :=
  "State { count: " ++ dec s.count ++ ", hash_length: " ++ dec s.hashLength ++
    ", last_node: " ++ decBool s.lastNode ++ " }"

/-- src/lib.rs:1078-1080 `benchmarks::force_portable`. -/
def forcePortable (s : State) : State := { s with compressFn := .portable }

end State

/-- src/lib.rs:206-208 `Params::to_state`. -/
def Params.toState (E : Env) (p : Params) : R State := State.withParams E p

/-- src/lib.rs:159-161 `blake2s`. -/
def blake2s (E : Env) (input : List U8) : R Hash := do
  let s ← State.new E
  let s ← s.update E input
  let (_, h) ← s.finalize E
  return h

/-- The expression `params.to_state().update(input).finalize()` of src/portable.rs:168 etc. -/
def hashOne (E : Env) (params : Params) (input : List U8) : R Hash := do
  let s ← params.toState E
  let s ← s.update E input
  let (_, h) ← s.finalize E
  return h

/-- src/portable.rs:160-173 `hash4_exact`. -/
def Portable.hash4Exact (E : Env) (params : Params) (input : Vector (List U8) 4) :
    R (Vector Hash 4) := do
  let h0 ← hashOne E params input[0]
  let h1 ← hashOne E params input[1]
  let h2 ← hashOne E params input[2]
  let h3 ← hashOne E params input[3]
  return #v[h0, h1, h2, h3]

/-- src/portable.rs:175-196 `hash8_exact`. -/
def Portable.hash8Exact (E : Env) (params : Params) (input : Vector (List U8) 8) :
    R (Vector Hash 8) := do
  let h0 ← hashOne E params input[0]
  let h1 ← hashOne E params input[1]
  let h2 ← hashOne E params input[2]
  let h3 ← hashOne E params input[3]
  let h4 ← hashOne E params input[4]
  let h5 ← hashOne E params input[5]
  let h6 ← hashOne E params input[6]
  let h7 ← hashOne E params input[7]
  return #v[h0, h1, h2, h3, h4, h5, h6, h7]

/-- Calling a `Hash4ExactFn`. The type is src/lib.rs:106-108. -/
def Hash4ExactFn.call (E : Env) (f : Hash4ExactFn) (params : Params) (input : Vector (List U8) 4) :
    R (Vector Hash 4) :=
  match f with
  | .portable => Portable.hash4Exact E params input
  | .sse41 =>
    if E.x86 && E.sse41 then Sse41.hash4Exact params input else throw .illegalInstruction

/-- Calling a `Hash8ExactFn`. The type is src/lib.rs:109-119. -/
def Hash8ExactFn.call (E : Env) (f : Hash8ExactFn) (params : Params) (input : Vector (List U8) 8) :
    R (Vector Hash 8) :=
  match f with
  | .portable => Portable.hash8Exact E params input
  | .avx2 =>
    if E.x86 && E.avx2 then Avx2.hash8Exact params input else throw .illegalInstruction

end Blake2s
