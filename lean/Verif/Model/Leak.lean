import Verif.Machine
/-!
# What an execution does, apart from its result: branches and addresses

Every function is modelled once more, statement by statement, with the trace of what it does that takes
observable time or touches an observable place: the outcome of every test (`if`, `while`, `assert!`,
`&&`, range and overflow checks), every computed position used to read or write memory (indices, slice
bounds, lengths of copies and loops, pointer offsets), which implementation a function pointer leads to, every
number printed, and the message of a panic. This is the usual source-level leakage model ("program counter and addresses") in which
code is called constant-time if secrets do not influence the trace.

Not in the trace: positions that are literals in the source (`h[3]`, `array_ref!(buf, 0, 512)`, the
registers and shuffles of the vector code), because they are the same in every execution. The vector
compression functions of src/sse41.rs and src/avx2.rs consist of such accesses only, without branches, and
are single events here. What a compiler makes of the source is outside the model.
-/

namespace Blake2s

/-- What can be observed of one step. For src/lib.rs, src/blake2sp.rs and src/portable.rs as a whole. -/
inductive Event where
  /-- a test came out this way -/
  | branch (b : Bool)
  /-- this position (index, offset, bound, length) was used to access memory -/
  | address (n : Nat)
  /-- an addition or subtraction of `usize` has this exact result -/
  | usize (n : Int)
  /-- this number was printed in decimal -/
  | number (n : Nat)
  | compress (f : CompressFn)
  | compress8 (f : Compress8Fn)
  | vectorize8 (f : Vectorize8Fn)
  | compress8Vectorized (f : Compress8VectorizedFn)
  | hash4Exact (f : Hash4ExactFn)
  | hash8Exact (f : Hash8ExactFn)
  /-- one step of the loop of a SIMD `hash4_exact` (four lanes) or `hash8_exact` (eight) -/
  | compressTransposed (lanes : Nat)
  /-- a panic, with its message -/
  | panic (message : String)
deriving DecidableEq

/-- A computation with its trace: the result or the fault, and the events up to its end.
For src/lib.rs, src/blake2sp.rs and src/portable.rs as a whole. -/
def Tr (α : Type) : Type := R α × List Event

namespace Tr

variable {α β : Type}

/-- One computation after the other: the traces follow each other; a fault ends the trace.
For src/lib.rs and src/blake2sp.rs as a whole. -/
def andThen (m : Tr α) (f : α → Tr β) : Tr β :=
  match m with
  | (.ok a, t) => ((f a).1, t ++ (f a).2)
  | (.error e, t) => (.error e, t)

instance : Monad Tr where
  pure a := (.ok a, [])
  bind := andThen

/-- Something that leaves no trace of its own.
For src/lib.rs and src/blake2sp.rs as a whole. -/
def lift (r : R α) : Tr α := (r, [])

/-- Leaving a trace.
For src/lib.rs and src/blake2sp.rs as a whole. -/
def emit (e : Event) : Tr Unit := (.ok (), [e])

/-- Something that panics with this message if it fails. For src/lib.rs and src/blake2sp.rs as a whole. -/
def orPanic (r : R α) (message : String) : Tr α :=
  (r, match r with
    | .ok _ => []
    | .error _ => [.panic message])

end Tr

open Tr (lift emit orPanic)

/-! ### Panic messages

Those of assertions in /repo are quoted from there. Those of the standard library and of the crates arrayref and
arrayvec are given in the wording of Rust 1.31 (the edition is 2015/2018-era, Cargo.toml); other versions put
the same numbers into other words. -/

/-- The message of a failed `assert_eq!(a, b)`. E.g. src/lib.rs:849. -/
def notEqualMessage (a b : Nat) : String :=
  "assertion failed: `(left == right)`\n  left: `" ++ toString a ++ "`,\n right: `" ++ toString b ++ "`"

/-- The message of a slice index that is too large. E.g. src/lib.rs:341. -/
def outOfRangeMessage (index len : Nat) : String :=
  "index " ++ toString index ++ " out of range for slice of length " ++ toString len

/-- The message of `dst[a..b].copy_from_slice(src)`, if it fails: a range that is not in order, or too large, or
slices of different lengths. E.g. src/lib.rs:341. -/
def copyMessage (a b n len : Nat) : String :=
  if b < a then "slice index starts at " ++ toString a ++ " but ends at " ++ toString b
  else if n < b then outOfRangeMessage b n
  else "assertion failed: `(left == right)`\n  left: `" ++ toString (b - a) ++ "`,\n right: `" ++ toString len ++
    "`: destination and source slices have different lengths"

/-- Testing a condition: `if c`, `while c`. E.g. src/lib.rs:351. -/
def test (c : Bool) : Tr Bool := do
  emit (.branch c)
  return c

/-- The short-circuiting `c1 && c2 && …`. E.g. src/lib.rs:552-559. -/
def testAll : List Bool → Tr Bool
  | [] => pure true
  | c :: cs => do if ← test c then testAll cs else return false

/-- Rust `a + b`: with overflow checks, a test. E.g. src/lib.rs:342. -/
def addChkT {w : Nat} (E : Env) (a b : BitVec w) : Tr (BitVec w) := do
  if E.overflowChecks then emit (.branch (decide (2 ^ w ≤ a.toNat + b.toNat)))
  orPanic (addChk E a b) "attempt to add with overflow"

/-- Rust `a - b`: with overflow checks, a test. E.g. src/blake2sp.rs:278. -/
def subChkT {w : Nat} (E : Env) (a b : BitVec w) : Tr (BitVec w) := do
  if E.overflowChecks then emit (.branch (decide (a.toNat < b.toNat)))
  orPanic (subChk E a b) "attempt to subtract with overflow"

/-- Rust `a - b` on `usize`, as a test in every profile. E.g. src/lib.rs:340. -/
def usizeSubT (a b : Nat) : Tr Nat := do
  emit (.usize ((a : Int) - b))
  emit (.branch (decide (b ≤ a)))
  orPanic (usizeSub a b) "attempt to subtract with overflow"

/-- Rust `a + b` on `usize`. The result is exact; the model has no bound on `usize`, and the trace says what
would have to fit. E.g. src/lib.rs:341. -/
def usizeAddT (a b : Nat) : Tr Nat := do
  emit (.usize ((a : Int) + b))
  return a + b

/-- `cmp::min(a, b)`. E.g. src/lib.rs:340. -/
def minT (a b : Nat) : Tr Nat := do
  emit (.branch (decide (a ≤ b)))
  return min a b

/-- `&s[..n]`: a range check and a position. E.g. src/lib.rs:341. -/
def sliceToT (s : List U8) (n : Nat) : Tr (List U8) := do
  emit (.branch (decide (n ≤ s.length)))
  emit (.address n)
  orPanic (sliceTo s n) (outOfRangeMessage n s.length)

/-- `&s[n..]`: a range check and a position. E.g. src/lib.rs:344. -/
def sliceFromT (s : List U8) (n : Nat) : Tr (List U8) := do
  emit (.branch (decide (n ≤ s.length)))
  emit (.address n)
  orPanic (sliceFrom s n) (outOfRangeMessage n s.length)

/-- `array[a..b].copy_from_slice(src)`: checks, and the positions written. E.g. src/lib.rs:341. -/
def copyFromSliceT {n : Nat} (dst : Vector U8 n) (a b : Nat) (src : List U8) : Tr (Vector U8 n) := do
  emit (.branch (decide (a ≤ b)))
  emit (.branch (decide (b ≤ n)))
  emit (.branch (decide (src.length = b - a)))
  emit (.address a)
  emit (.address b)
  orPanic (copyFromSlice dst a b src) (copyMessage a b n src.length)

/-- `array_ref!(s, off, n)`, i.e. `&s[off..off + n]`: a range check and a position. E.g. src/lib.rs:370. -/
def arrayRefT (s : List U8) (off n : Nat) : Tr (Vector U8 n) := do
  emit (.usize ((off : Int) + n))
  emit (.branch (decide (off + n ≤ s.length)))
  emit (.address off)
  orPanic (arrayRef s off n) (outOfRangeMessage (off + n) s.length)

/-- `&*(s.as_ptr().add(off) as *const Block)`: a position; there is no check. E.g. src/sse41.rs:738. -/
def readBlockPtrT (s : List U8) (off : Nat) : Tr Block := do
  emit (.address off)
  lift (readBlockPtr s off)

/-- `assert!(c, message)`. E.g. src/lib.rs:221. -/
def assertT (c : Bool) (message : String) : Tr Unit := do
  emit (.branch c)
  orPanic (assert c) message

/-- `debug_assert!(c, message)`: a test if debug assertions are on. E.g. src/blake2sp.rs:181-195. -/
def debugAssertT (E : Env) (c : Bool) (message : String) : Tr Unit := do
  if E.debugAssertions then emit (.branch c)
  orPanic (debugAssert E c) message

/-! ## src/portable.rs -/

namespace Portable

/-- `m[SIGMA[r][i] as usize]` (src/portable.rs:29-38): a position taken from the table. -/
def wordT (m : Vector U32 16) (r : Fin 12) (i : Fin 16) : Tr U32 := do
  emit (.address SIGMA[r][i].val)
  return m[SIGMA[r][i]]

/-- src/portable.rs:24-39 `round`. -/
def roundT (r : Fin 12) (m : Vector U32 16) (v : Vector U32 16) : Tr (Vector U32 16) := do
  let v := g v 0 4 8 12 (← wordT m r 0) (← wordT m r 1)
  let v := g v 1 5 9 13 (← wordT m r 2) (← wordT m r 3)
  let v := g v 2 6 10 14 (← wordT m r 4) (← wordT m r 5)
  let v := g v 3 7 11 15 (← wordT m r 6) (← wordT m r 7)
  let v := g v 0 5 10 15 (← wordT m r 8) (← wordT m r 9)
  let v := g v 1 6 11 12 (← wordT m r 10) (← wordT m r 11)
  let v := g v 2 7 8 13 (← wordT m r 12) (← wordT m r 13)
  let v := g v 3 4 9 14 (← wordT m r 14) (← wordT m r 15)
  return v

/-- src/portable.rs:45-106 `compress`. -/
def compressT (h : StateWords) (msg : Block) (count : U64) (lastblock lastnode : U32) :
    Tr StateWords := do
  let v : Vector U32 16 :=
    #v[h[0], h[1], h[2], h[3], h[4], h[5], h[6], h[7],
       IV[0], IV[1], IV[2], IV[3],
       IV[4] ^^^ count.setWidth 32,
       IV[5] ^^^ (count >>> 32).setWidth 32,
       IV[6] ^^^ lastblock,
       IV[7] ^^^ lastnode]
  let m := msgWords msg
  let v ← roundT 0 m v
  let v ← roundT 1 m v
  let v ← roundT 2 m v
  let v ← roundT 3 m v
  let v ← roundT 4 m v
  let v ← roundT 5 m v
  let v ← roundT 6 m v
  let v ← roundT 7 m v
  let v ← roundT 8 m v
  let v ← roundT 9 m v
  return #v[h[0] ^^^ (v[0] ^^^ v[8]),
            h[1] ^^^ (v[1] ^^^ v[9]),
            h[2] ^^^ (v[2] ^^^ v[10]),
            h[3] ^^^ (v[3] ^^^ v[11]),
            h[4] ^^^ (v[4] ^^^ v[12]),
            h[5] ^^^ (v[5] ^^^ v[13]),
            h[6] ^^^ (v[6] ^^^ v[14]),
            h[7] ^^^ (v[7] ^^^ v[15])]

/-- src/portable.rs:108-158 `compress8`. -/
def compress8T (h : Vector StateWords 8) (msg : Vector Block 8) (count : Vector U64 8)
    (lastblock lastnode : Vector U32 8) : Tr (Vector StateWords 8) := do
  let h0 ← compressT h[0] msg[0] count[0] lastblock[0] lastnode[0]
  let h1 ← compressT h[1] msg[1] count[1] lastblock[1] lastnode[1]
  let h2 ← compressT h[2] msg[2] count[2] lastblock[2] lastnode[2]
  let h3 ← compressT h[3] msg[3] count[3] lastblock[3] lastnode[3]
  let h4 ← compressT h[4] msg[4] count[4] lastblock[4] lastnode[4]
  let h5 ← compressT h[5] msg[5] count[5] lastblock[5] lastnode[5]
  let h6 ← compressT h[6] msg[6] count[6] lastblock[6] lastnode[6]
  let h7 ← compressT h[7] msg[7] count[7] lastblock[7] lastnode[7]
  return #v[h0, h1, h2, h3, h4, h5, h6, h7]

/-- The counter expression of src/portable.rs:223 etc. -/
def joinCountT (E : Env) (lo hi : U32) : Tr U64 :=
  addChkT E (lo.setWidth 64) (hi.setWidth 64 <<< 32)

/-- src/portable.rs:203-276 `compress8_vectorized`. -/
def compress8VectorizedT (E : Env) (w : Vector StateWords 8) (msg : Vector Block 8)
    (countLow countHigh lastblock lastnode : Vector U32 8) : Tr (Vector StateWords 8) := do
  let c ← joinCountT E countLow[0] countHigh[0]
  let w0 ← compressT w[0] msg[0] c lastblock[0] lastnode[0]
  let c ← joinCountT E countLow[1] countHigh[1]
  let w1 ← compressT w[1] msg[1] c lastblock[1] lastnode[1]
  let c ← joinCountT E countLow[2] countHigh[2]
  let w2 ← compressT w[2] msg[2] c lastblock[2] lastnode[2]
  let c ← joinCountT E countLow[3] countHigh[3]
  let w3 ← compressT w[3] msg[3] c lastblock[3] lastnode[3]
  let c ← joinCountT E countLow[4] countHigh[4]
  let w4 ← compressT w[4] msg[4] c lastblock[4] lastnode[4]
  let c ← joinCountT E countLow[5] countHigh[5]
  let w5 ← compressT w[5] msg[5] c lastblock[5] lastnode[5]
  let c ← joinCountT E countLow[6] countHigh[6]
  let w6 ← compressT w[6] msg[6] c lastblock[6] lastnode[6]
  let c ← joinCountT E countLow[7] countHigh[7]
  let w7 ← compressT w[7] msg[7] c lastblock[7] lastnode[7]
  return #v[w0, w1, w2, w3, w4, w5, w6, w7]

end Portable

/-! ## Function pointers -/

/-- Calling a `CompressFn`. E.g. src/lib.rs:372. -/
def CompressFn.callT (E : Env) (f : CompressFn) (h : StateWords) (msg : Block) (count : U64)
    (lastblock lastnode : U32) : Tr StateWords := do
  emit (.compress f)
  match f with
  | .portable => Portable.compressT h msg count lastblock lastnode
  | .sse41 => lift (CompressFn.sse41.call E h msg count lastblock lastnode)

/-- Calling a `Compress8Fn`. E.g. src/lib.rs:571. -/
def Compress8Fn.callT (E : Env) (f : Compress8Fn) (h : Vector StateWords 8) (msg : Vector Block 8)
    (count : Vector U64 8) (lastblock lastnode : Vector U32 8) : Tr (Vector StateWords 8) := do
  emit (.compress8 f)
  match f with
  | .portable => Portable.compress8T h msg count lastblock lastnode
  | .avx2 => lift (Compress8Fn.avx2.call E h msg count lastblock lastnode)

/-- Calling a `Vectorize8Fn`. The type is src/lib.rs:120. -/
def Vectorize8Fn.callT (E : Env) (f : Vectorize8Fn) (w : Vector StateWords 8) :
    Tr (Vector StateWords 8) := do
  emit (.vectorize8 f)
  lift (f.call E w)

/-- Calling a `Compress8VectorizedFn`. The type is src/lib.rs:121-135. -/
def Compress8VectorizedFn.callT (E : Env) (f : Compress8VectorizedFn) (w : Vector StateWords 8)
    (msg : Vector Block 8) (countLow countHigh lastblock lastnode : Vector U32 8) :
    Tr (Vector StateWords 8) := do
  emit (.compress8Vectorized f)
  match f with
  | .portable => Portable.compress8VectorizedT E w msg countLow countHigh lastblock lastnode
  | .avx2 => lift (Compress8VectorizedFn.avx2.call E w msg countLow countHigh lastblock lastnode)

/-! ## src/lib.rs: `Params` -/

namespace Params

/-- src/lib.rs:210-218 `Params::hash_length`. -/
def setHashLengthT (p : Params) (length : Nat) : Tr Params := do
  assertT (← testAll [decide (1 ≤ length), decide (length ≤ OUTBYTES)])
    ("Bad hash length: " ++ toString length)
  return { p with hashLength := BitVec.ofNat 8 length }

/-- src/lib.rs:220-226 `Params::key`. -/
def setKeyT (p : Params) (key : List U8) : Tr Params := do
  assertT (decide (key.length ≤ KEYBYTES)) ("Bad key length: " ++ toString key.length)
  let buf ← copyFromSliceT (Vector.replicate 32 0) 0 key.length key
  return { p with keyLength := BitVec.ofNat 8 key.length, key := buf }

/-- src/lib.rs:228-233 `Params::salt`. -/
def setSaltT (p : Params) (salt : List U8) : Tr Params := do
  assertT (decide (salt.length ≤ SALTBYTES)) ("Bad salt length: " ++ toString salt.length)
  let buf ← copyFromSliceT (Vector.replicate 8 0) 0 salt.length salt
  return { p with salt := buf }

/-- src/lib.rs:235-244 `Params::personal`. -/
def setPersonalT (p : Params) (personalization : List U8) : Tr Params := do
  assertT (decide (personalization.length ≤ PERSONALBYTES))
    ("Bad personalization length: " ++ toString personalization.length)
  let buf ← copyFromSliceT (Vector.replicate 8 0) 0 personalization.length personalization
  return { p with personal := buf }

/-- src/lib.rs:251-255 `Params::max_depth`. -/
def setMaxDepthT (p : Params) (depth : U8) : Tr Params := do
  assertT (decide (depth ≠ 0)) ("Bad max depth: " ++ toString depth.toNat)
  return { p with maxDepth := depth }

/-- src/lib.rs:262-266 `Params::node_offset`. -/
def setNodeOffsetT (p : Params) (offset : U64) : Tr Params := do
  assertT (decide (offset.toNat < 2 ^ 48)) ("Bad node offset: " ++ toString offset.toNat)
  return { p with nodeOffset := offset }

/-- src/lib.rs:273-277 `Params::inner_hash_length`. -/
def setInnerHashLengthT (p : Params) (length : Nat) : Tr Params := do
  assertT (decide (length ≤ OUTBYTES)) ("Bad inner hash length: " ++ toString length)
  return { p with innerHashLength := BitVec.ofNat 8 length }

/-- The setters, src/lib.rs:210-282. -/
def setT (p : Params) : Setter → Tr Params
  | .hashLength n => p.setHashLengthT n
  | .key k => p.setKeyT k
  | .salt s => p.setSaltT s
  | .personal s => p.setPersonalT s
  | .fanout n => pure (p.setFanout n)
  | .maxDepth n => p.setMaxDepthT n
  | .maxLeafLength n => pure (p.setMaxLeafLength n)
  | .nodeOffset n => p.setNodeOffsetT n
  | .nodeDepth n => pure (p.setNodeDepth n)
  | .innerHashLength n => p.setInnerHashLengthT n
  | .lastNode b => pure (p.setLastNode b)

end Params

/-! ## src/lib.rs: `Hash` -/

/-- The external crate `constant_time_eq` 0.1.3: a test of the lengths, a loop over the length, and no test
of the bytes. Called at src/lib.rs:498, 505. -/
def constantTimeEqT (a b : List U8) : Tr Bool := do
  if ← test (a.length == b.length) then
    emit (.address a.length)
    return constantTimeEq a b
  else return false

/-- `ArrayString::push`: a test for room, and the position written. Called at src/lib.rs:489-490. -/
def arrayStringPushT (cap : Nat) (s : List Char) (c : Char) : Tr (List Char) := do
  emit (.branch (decide (s.length < cap)))
  emit (.address s.length)
  orPanic (arrayStringPush cap s c) "insufficient capacity"

/-- src/lib.rs:487-490: `table[i]`, a position. -/
def hexTableT (i : Nat) : Tr Char := do
  emit (.address i)
  orPanic (hexTable i)
    ("index out of bounds: the len is 16 but the index is " ++ toString i)

/-- The loop of src/lib.rs:488-491. -/
def bytesToHexLoopT : List U8 → List Char → Tr (List Char)
  | [], s => do
    emit (.branch false)
    return s
  | b :: bs, s => do
    emit (.branch true)
    let s ← arrayStringPushT (2 * OUTBYTES) s (← hexTableT (b >>> 4).toNat)
    let s ← arrayStringPushT (2 * OUTBYTES) s (← hexTableT (b &&& 0xf).toNat)
    bytesToHexLoopT bs s

namespace Hash

/-- src/lib.rs:476-478 `Hash::as_bytes`. -/
def asBytesT (h : Hash) : Tr (List U8) := sliceToT h.bytes.toList h.len.toNat

/-- src/lib.rs:480-482 `Hash::to_hex`, with src/lib.rs:485-493 `bytes_to_hex`. -/
def toHexT (h : Hash) : Tr (List Char) := do bytesToHexLoopT (← h.asBytesT) []

/-- src/lib.rs:496-500 `impl PartialEq for Hash`. -/
def eqHashT (a b : Hash) : Tr Bool := do
  constantTimeEqT (← a.asBytesT) (← b.asBytesT)

/-- src/lib.rs:503-507 `impl PartialEq<[u8]> for Hash`. -/
def eqSliceT (a : Hash) (b : List U8) : Tr Bool := do
  constantTimeEqT (← a.asBytesT) b

/-- src/lib.rs:517-521 `impl Debug for Hash`. -/
def debugT (h : Hash) : Tr (List Char) := do
  return "Hash(0x".toList ++ (← h.toHexT) ++ ")".toList

end Hash

/-! ## src/lib.rs: `State` -/

namespace State

/-- src/lib.rs:339-345 `State::fill_buf`. -/
def fillBufT (E : Env) (s : State) (input : List U8) : Tr (State × List U8) := do
  let take ← minT (← usizeSubT BLOCKBYTES s.buflen.toNat) input.length
  let stop ← usizeAddT s.buflen.toNat take
  let part ← sliceToT input take
  let buf ← copyFromSliceT s.buf s.buflen.toNat stop part
  let buflen ← addChkT E s.buflen (BitVec.ofNat 8 take)
  let count ← addChkT E s.count (BitVec.ofNat 64 take)
  let input ← sliceFromT input take
  return ({ s with buf := buf, buflen := buflen, count := count }, input)

/-- src/lib.rs:350-360 `State::compress_buffer_if_possible`. -/
def compressBufferIfPossibleT (E : Env) (s : State) (input : List U8) : Tr (State × List U8) := do
  if ← test (decide (s.buflen.toNat > 0)) then
    let (s, input) ← s.fillBufT E input
    if ← test (!input.isEmpty) then
      let h ← s.compressFn.callT E s.h s.buf s.count 0 0
      return ({ s with h := h, buflen := 0 }, input)
    else
      return (s, input)
  else
    return (s, input)

/-- The `while` loop of src/lib.rs:368-375, with fuel. -/
def updateLoopT (E : Env) : Nat → State → List U8 → Tr (State × List U8)
  | 0, _, _ => lift (throw .nonTermination)
  | fuel + 1, s, input => do
    if ← test (decide (input.length > BLOCKBYTES)) then
      let count ← addChkT E s.count (BitVec.ofNat 64 BLOCKBYTES)
      let block ← arrayRefT input 0 BLOCKBYTES
      let h ← s.compressFn.callT E s.h block count 0 0
      let input ← sliceFromT input BLOCKBYTES
      updateLoopT E fuel { s with h := h, count := count } input
    else
      return (s, input)

/-- src/lib.rs:363-385 `State::update`. -/
def updateT (E : Env) (s : State) (input : List U8) : Tr State := do
  let (s, input) ← s.compressBufferIfPossibleT E input
  let (s, input) ← updateLoopT E (input.length + 1) s input
  let (s, _) ← s.fillBufT E input
  return s

/-- src/lib.rs:321-337 `State::with_params`. -/
def withParamsT (E : Env) (params : Params) : Tr State := do
  let state : State :=
    { h := params.makeWords
      compressFn := (defaultCompressImpl E).compress
      buf := Vector.replicate 64 0
      buflen := 0
      count := 0
      lastNode := params.lastNode
      hashLength := params.hashLength }
  if ← test (decide (params.keyLength.toNat > 0)) then
    let keyBlock ← copyFromSliceT (Vector.replicate 64 0) 0 KEYBYTES params.key.toList
    state.updateT E keyBlock.toList
  else
    return state

/-- src/lib.rs:317-319 `State::new`. -/
def newT (E : Env) : Tr State := withParamsT E Params.default

/-- The loop `for i in self.buflen as usize..BLOCKBYTES { self.buf[i] = 0; }` of src/lib.rs:390-392. -/
def zeroTailT (buf : Block) (buflen : U8) : Tr Block := do
  emit (.address buflen.toNat)
  return zeroTail buf buflen

/-- The flag word `if self.last_node { !0 } else { 0 }` of src/lib.rs:393 etc. -/
def flagWordT (b : Bool) : Tr U32 := do
  if ← test b then return ~~~ 0 else return 0

/-- src/lib.rs:389-402 `State::finalize`. -/
def finalizeT (E : Env) (s : State) : Tr (State × Hash) := do
  let buf ← zeroTailT s.buf s.buflen
  let s := { s with buf := buf }
  let lastNode ← flagWordT s.lastNode
  let hCopy ← s.compressFn.callT E s.h s.buf s.count (~~~ 0) lastNode
  return (s, { bytes := stateWordsToBytes hCopy, len := s.hashLength })

/-- src/lib.rs:441-444 `impl Write for State`: `write`. -/
def writeT (E : Env) (s : State) (buf : List U8) : Tr (State × Nat) := do
  let s ← s.updateT E buf
  return (s, buf.length)

/-- src/lib.rs:451-460 `impl Debug for State`. -/
def debugT (s : State) : Tr String := do
  emit (.number s.count.toNat)
  emit (.number s.hashLength.toNat)
  emit (.branch s.lastNode)
  return s.debug

end State

/-- src/lib.rs:206-208 `Params::to_state`. -/
def Params.toStateT (E : Env) (p : Params) : Tr State := State.withParamsT E p

/-- src/lib.rs:159-161 `blake2s`. -/
def blake2sT (E : Env) (input : List U8) : Tr Hash := do
  let s ← State.newT E
  let s ← s.updateT E input
  let (_, h) ← s.finalizeT E
  return h

/-! ## `hash4_exact`, `hash8_exact` -/

/-- The expression `params.to_state().update(input).finalize()` of src/portable.rs:168 etc. -/
def hashOneT (E : Env) (params : Params) (input : List U8) : Tr Hash := do
  let s ← params.toStateT E
  let s ← s.updateT E input
  let (_, h) ← s.finalizeT E
  return h

/-- src/portable.rs:160-173 `hash4_exact`. -/
def Portable.hash4ExactT (E : Env) (params : Params) (input : Vector (List U8) 4) :
    Tr (Vector Hash 4) := do
  let h0 ← hashOneT E params input[0]
  let h1 ← hashOneT E params input[1]
  let h2 ← hashOneT E params input[2]
  let h3 ← hashOneT E params input[3]
  return #v[h0, h1, h2, h3]

/-- src/portable.rs:175-196 `hash8_exact`. -/
def Portable.hash8ExactT (E : Env) (params : Params) (input : Vector (List U8) 8) :
    Tr (Vector Hash 8) := do
  let h0 ← hashOneT E params input[0]
  let h1 ← hashOneT E params input[1]
  let h2 ← hashOneT E params input[2]
  let h3 ← hashOneT E params input[3]
  let h4 ← hashOneT E params input[4]
  let h5 ← hashOneT E params input[5]
  let h6 ← hashOneT E params input[6]
  let h7 ← hashOneT E params input[7]
  return #v[h0, h1, h2, h3, h4, h5, h6, h7]

/-- The flag `if params.last_node && count == len { !0 } else { 0 }` of src/sse41.rs:746-750 and
src/avx2.rs:746-750. -/
def exactLastNodeT (params : Params) (count len : Nat) : Tr U32 := do
  if ← testAll [params.lastNode, decide (count = len)] then return ~~~ 0 else return 0

/-- The `loop` of src/sse41.rs:734-765, with fuel. -/
def Sse41.hash4ExactLoopT (params : Params) (input : Vector (List U8) 4) (len : Nat) :
    Nat → Vector X86.M128 8 → Nat → Tr (Vector Hash 4)
  | 0, _, _ => lift (throw .nonTermination)
  | fuel + 1, h_vecs, count => do
    let msg0 ← readBlockPtrT input[0] count
    let msg1 ← readBlockPtrT input[1] count
    let msg2 ← readBlockPtrT input[2] count
    let msg3 ← readBlockPtrT input[3] count
    let count ← usizeAddT count BLOCKBYTES
    let count_low := set1 ((BitVec.ofNat 64 count).setWidth 32)
    let count_high := set1 ((BitVec.ofNat 64 count >>> 32).setWidth 32)
    let lastblock := set1 (← State.flagWordT (decide (count = len)))
    let lastnode := set1 (← exactLastNodeT params count len)
    emit (.compressTransposed 4)
    let h_vecs := compress4Transposed h_vecs #v[msg0, msg1, msg2, msg3]
      count_low count_high lastblock lastnode
    if ← test (decide (count = len)) then
      return exportHashes h_vecs params.hashLength
    else
      hash4ExactLoopT params input len fuel h_vecs count

/-- src/sse41.rs:707-766 `hash4_exact`. -/
def Sse41.hash4ExactT (params : Params) (input : Vector (List U8) 4) : Tr (Vector Hash 4) :=
  let w := params.makeWords
  let h_vecs : Vector X86.M128 8 :=
    #v[set1 w[0], set1 w[1], set1 w[2], set1 w[3], set1 w[4], set1 w[5], set1 w[6], set1 w[7]]
  let len := input[0].length
  hash4ExactLoopT params input len (len + 1) h_vecs 0

/-- The `loop` of src/avx2.rs:730-763, with fuel. -/
def Avx2.hash8ExactLoopT (params : Params) (input : Vector (List U8) 8) (len : Nat) :
    Nat → Vector X86.M256 8 → Nat → Tr (Vector Hash 8)
  | 0, _, _ => lift (throw .nonTermination)
  | fuel + 1, h_vecs, count => do
    let msg0 ← readBlockPtrT input[0] count
    let msg1 ← readBlockPtrT input[1] count
    let msg2 ← readBlockPtrT input[2] count
    let msg3 ← readBlockPtrT input[3] count
    let msg4 ← readBlockPtrT input[4] count
    let msg5 ← readBlockPtrT input[5] count
    let msg6 ← readBlockPtrT input[6] count
    let msg7 ← readBlockPtrT input[7] count
    let count ← usizeAddT count BLOCKBYTES
    let count_low := load256FromU32 ((BitVec.ofNat 64 count).setWidth 32)
    let count_high := load256FromU32 ((BitVec.ofNat 64 count >>> 32).setWidth 32)
    let lastblock := load256FromU32 (← State.flagWordT (decide (count = len)))
    let lastnode := load256FromU32 (← exactLastNodeT params count len)
    let msg_vecs := loadMsgVecsInterleave #v[msg0, msg1, msg2, msg3, msg4, msg5, msg6, msg7]
    emit (.compressTransposed 8)
    let h_vecs := compress8Transposed h_vecs msg_vecs count_low count_high lastblock lastnode
    if ← test (decide (count = len)) then
      return exportHashes h_vecs params.hashLength
    else
      hash8ExactLoopT params input len fuel h_vecs count

/-- src/avx2.rs:698-764 `hash8_exact`. -/
def Avx2.hash8ExactT (params : Params) (input : Vector (List U8) 8) : Tr (Vector Hash 8) :=
  let w := params.makeWords
  let h_vecs : Vector X86.M256 8 :=
    #v[load256FromU32 w[0], load256FromU32 w[1], load256FromU32 w[2], load256FromU32 w[3],
       load256FromU32 w[4], load256FromU32 w[5], load256FromU32 w[6], load256FromU32 w[7]]
  let len := input[0].length
  hash8ExactLoopT params input len (len + 1) h_vecs 0

/-- Calling a `Hash4ExactFn`. The type is src/lib.rs:106-108. -/
def Hash4ExactFn.callT (E : Env) (f : Hash4ExactFn) (params : Params) (input : Vector (List U8) 4) :
    Tr (Vector Hash 4) := do
  emit (.hash4Exact f)
  match f with
  | .portable => Portable.hash4ExactT E params input
  | .sse41 =>
    if E.x86 && E.sse41 then Sse41.hash4ExactT params input else lift (throw .illegalInstruction)

/-- Calling a `Hash8ExactFn`. The type is src/lib.rs:109-119. -/
def Hash8ExactFn.callT (E : Env) (f : Hash8ExactFn) (params : Params) (input : Vector (List U8) 8) :
    Tr (Vector Hash 8) := do
  emit (.hash8Exact f)
  match f with
  | .portable => Portable.hash8ExactT E params input
  | .avx2 =>
    if E.x86 && E.avx2 then Avx2.hash8ExactT params input else lift (throw .illegalInstruction)

/-- src/lib.rs:772-792 `hash4_exact`. -/
def hash4ExactT (E : Env) (params : Params) (input : Vector (List U8) 4) : Tr (Vector Hash 4) := do
  let len := input[0].length
  let sameLength ← testAll [input[1].length == len, input[2].length == len, input[3].length == len]
  let evenLength := len % BLOCKBYTES == 0
  let nonempty := len != 0
  assertT (← testAll [sameLength, evenLength, nonempty]) "invalid hash8_exact inputs"
  (defaultCompressImpl E).hash4Exact.callT E params input

/-- src/lib.rs:794-828 `hash8_exact`. -/
def hash8ExactT (E : Env) (params : Params) (input : Vector (List U8) 8) : Tr (Vector Hash 8) := do
  let len := input[0].length
  let sameLength ← testAll [input[1].length == len, input[2].length == len, input[3].length == len,
    input[4].length == len, input[5].length == len, input[6].length == len, input[7].length == len]
  let evenLength := len % BLOCKBYTES == 0
  let nonempty := len != 0
  assertT (← testAll [sameLength, evenLength, nonempty]) "invalid hash8_exact inputs"
  (defaultCompressImpl E).hash8Exact.callT E params input

/-! ## `update8`, `finalize8`, `hash8` -/

/-- The `while` loop of src/lib.rs:552-622, with fuel. -/
def update8LoopT (E : Env) (fn : Compress8Fn) : Nat → Vector State 8 → Vector (List U8) 8 →
    Tr (Vector State 8 × Vector (List U8) 8)
  | 0, _, _ => lift (throw .nonTermination)
  | fuel + 1, st, input => do
    if ← testAll [
        decide (input[0].length > BLOCKBYTES),
        decide (input[1].length > BLOCKBYTES),
        decide (input[2].length > BLOCKBYTES),
        decide (input[3].length > BLOCKBYTES),
        decide (input[4].length > BLOCKBYTES),
        decide (input[5].length > BLOCKBYTES),
        decide (input[6].length > BLOCKBYTES),
        decide (input[7].length > BLOCKBYTES)] then
      let c0 ← addChkT E st[0].count (BitVec.ofNat 64 BLOCKBYTES)
      let c1 ← addChkT E st[1].count (BitVec.ofNat 64 BLOCKBYTES)
      let c2 ← addChkT E st[2].count (BitVec.ofNat 64 BLOCKBYTES)
      let c3 ← addChkT E st[3].count (BitVec.ofNat 64 BLOCKBYTES)
      let c4 ← addChkT E st[4].count (BitVec.ofNat 64 BLOCKBYTES)
      let c5 ← addChkT E st[5].count (BitVec.ofNat 64 BLOCKBYTES)
      let c6 ← addChkT E st[6].count (BitVec.ofNat 64 BLOCKBYTES)
      let c7 ← addChkT E st[7].count (BitVec.ofNat 64 BLOCKBYTES)
      let m0 ← arrayRefT input[0] 0 BLOCKBYTES
      let m1 ← arrayRefT input[1] 0 BLOCKBYTES
      let m2 ← arrayRefT input[2] 0 BLOCKBYTES
      let m3 ← arrayRefT input[3] 0 BLOCKBYTES
      let m4 ← arrayRefT input[4] 0 BLOCKBYTES
      let m5 ← arrayRefT input[5] 0 BLOCKBYTES
      let m6 ← arrayRefT input[6] 0 BLOCKBYTES
      let m7 ← arrayRefT input[7] 0 BLOCKBYTES
      let h ← fn.callT E
        #v[st[0].h, st[1].h, st[2].h, st[3].h, st[4].h, st[5].h, st[6].h, st[7].h]
        #v[m0, m1, m2, m3, m4, m5, m6, m7]
        #v[c0, c1, c2, c3, c4, c5, c6, c7]
        #v[0, 0, 0, 0, 0, 0, 0, 0]
        #v[0, 0, 0, 0, 0, 0, 0, 0]
      let i0 ← sliceFromT input[0] BLOCKBYTES
      let i1 ← sliceFromT input[1] BLOCKBYTES
      let i2 ← sliceFromT input[2] BLOCKBYTES
      let i3 ← sliceFromT input[3] BLOCKBYTES
      let i4 ← sliceFromT input[4] BLOCKBYTES
      let i5 ← sliceFromT input[5] BLOCKBYTES
      let i6 ← sliceFromT input[6] BLOCKBYTES
      let i7 ← sliceFromT input[7] BLOCKBYTES
      update8LoopT E fn fuel
        #v[{ st[0] with count := c0, h := h[0] }, { st[1] with count := c1, h := h[1] },
           { st[2] with count := c2, h := h[2] }, { st[3] with count := c3, h := h[3] },
           { st[4] with count := c4, h := h[4] }, { st[5] with count := c5, h := h[5] },
           { st[6] with count := c6, h := h[6] }, { st[7] with count := c7, h := h[7] }]
        #v[i0, i1, i2, i3, i4, i5, i6, i7]
    else
      return (st, input)

/-- src/lib.rs:523-634 `update8`. -/
def update8T (E : Env) (st : Vector State 8) (input : Vector (List U8) 8) : Tr (Vector State 8) := do
  let (s0, i0) ← st[0].compressBufferIfPossibleT E input[0]
  let (s1, i1) ← st[1].compressBufferIfPossibleT E input[1]
  let (s2, i2) ← st[2].compressBufferIfPossibleT E input[2]
  let (s3, i3) ← st[3].compressBufferIfPossibleT E input[3]
  let (s4, i4) ← st[4].compressBufferIfPossibleT E input[4]
  let (s5, i5) ← st[5].compressBufferIfPossibleT E input[5]
  let (s6, i6) ← st[6].compressBufferIfPossibleT E input[6]
  let (s7, i7) ← st[7].compressBufferIfPossibleT E input[7]
  let (st, input) ← update8LoopT E (defaultCompressImpl E).compress8 (i0.length + 1)
    #v[s0, s1, s2, s3, s4, s5, s6, s7] #v[i0, i1, i2, i3, i4, i5, i6, i7]
  let s0 ← st[0].updateT E input[0]
  let s1 ← st[1].updateT E input[1]
  let s2 ← st[2].updateT E input[2]
  let s3 ← st[3].updateT E input[3]
  let s4 ← st[4].updateT E input[4]
  let s5 ← st[5].updateT E input[5]
  let s6 ← st[6].updateT E input[6]
  let s7 ← st[7].updateT E input[7]
  return #v[s0, s1, s2, s3, s4, s5, s6, s7]

/-- src/lib.rs:636-770 `finalize8`. -/
def finalize8T (E : Env) (st : Vector State 8) : Tr (Vector State 8 × Vector Hash 8) := do
  let b0 ← State.zeroTailT st[0].buf st[0].buflen
  let b1 ← State.zeroTailT st[1].buf st[1].buflen
  let b2 ← State.zeroTailT st[2].buf st[2].buflen
  let b3 ← State.zeroTailT st[3].buf st[3].buflen
  let b4 ← State.zeroTailT st[4].buf st[4].buflen
  let b5 ← State.zeroTailT st[5].buf st[5].buflen
  let b6 ← State.zeroTailT st[6].buf st[6].buflen
  let b7 ← State.zeroTailT st[7].buf st[7].buflen
  let n0 ← State.flagWordT st[0].lastNode
  let n1 ← State.flagWordT st[1].lastNode
  let n2 ← State.flagWordT st[2].lastNode
  let n3 ← State.flagWordT st[3].lastNode
  let n4 ← State.flagWordT st[4].lastNode
  let n5 ← State.flagWordT st[5].lastNode
  let n6 ← State.flagWordT st[6].lastNode
  let n7 ← State.flagWordT st[7].lastNode
  let s0 := { st[0] with buf := b0 }
  let s1 := { st[1] with buf := b1 }
  let s2 := { st[2] with buf := b2 }
  let s3 := { st[3] with buf := b3 }
  let s4 := { st[4] with buf := b4 }
  let s5 := { st[5] with buf := b5 }
  let s6 := { st[6] with buf := b6 }
  let s7 := { st[7] with buf := b7 }
  let h ← (defaultCompressImpl E).compress8.callT E
    #v[s0.h, s1.h, s2.h, s3.h, s4.h, s5.h, s6.h, s7.h]
    #v[s0.buf, s1.buf, s2.buf, s3.buf, s4.buf, s5.buf, s6.buf, s7.buf]
    #v[s0.count, s1.count, s2.count, s3.count, s4.count, s5.count, s6.count, s7.count]
    #v[~~~ 0, ~~~ 0, ~~~ 0, ~~~ 0, ~~~ 0, ~~~ 0, ~~~ 0, ~~~ 0]
    #v[n0, n1, n2, n3, n4, n5, n6, n7]
  return (#v[s0, s1, s2, s3, s4, s5, s6, s7],
    #v[{ bytes := stateWordsToBytes h[0], len := s0.hashLength },
       { bytes := stateWordsToBytes h[1], len := s1.hashLength },
       { bytes := stateWordsToBytes h[2], len := s2.hashLength },
       { bytes := stateWordsToBytes h[3], len := s3.hashLength },
       { bytes := stateWordsToBytes h[4], len := s4.hashLength },
       { bytes := stateWordsToBytes h[5], len := s5.hashLength },
       { bytes := stateWordsToBytes h[6], len := s6.hashLength },
       { bytes := stateWordsToBytes h[7], len := s7.hashLength }])

/-- The short-circuiting conjunctions of src/lib.rs:888-903. -/
def allRemainingT (p : Nat → Bool) (count : Nat) : List (List U8) → Tr Bool
  | [] => pure true
  | i :: is => do
    if ← test (p (← usizeSubT i.length count)) then allRemainingT p count is else return false

/-- The flags of src/lib.rs:913-930. -/
def hash8FlagsT (params : Vector Params 8) (finalizeAll : Bool) :
    Tr (Vector U32 8 × Vector U32 8) := do
  if ← test finalizeAll then
    let n0 ← State.flagWordT params[0].lastNode
    let n1 ← State.flagWordT params[1].lastNode
    let n2 ← State.flagWordT params[2].lastNode
    let n3 ← State.flagWordT params[3].lastNode
    let n4 ← State.flagWordT params[4].lastNode
    let n5 ← State.flagWordT params[5].lastNode
    let n6 ← State.flagWordT params[6].lastNode
    let n7 ← State.flagWordT params[7].lastNode
    return (Vector.replicate 8 (~~~ 0), #v[n0, n1, n2, n3, n4, n5, n6, n7])
  else
    return (Vector.replicate 8 0, Vector.replicate 8 0)

/-- The `loop` of src/lib.rs:886-976, with fuel. -/
def hash8LoopT (E : Env) (impl : Impl) (params : Vector Params 8) (input : Vector (List U8) 8) :
    Nat → Vector StateWords 8 → Nat → Tr Hash8Exit
  | 0, _, _ => lift (throw .nonTermination)
  | fuel + 1, words, count => do
    let updateAll ← allRemainingT (fun n => decide (n > BLOCKBYTES)) count
      [input[0], input[1], input[2], input[3], input[4], input[5], input[6], input[7]]
    let finalizeAll ← allRemainingT (fun n => decide (n = BLOCKBYTES)) count
      [input[0], input[1], input[2], input[3], input[4], input[5], input[6], input[7]]
    if ← testAll [!updateAll, !finalizeAll] then
      return .brk words count
    else
      let block0 ← arrayRefT input[0] count BLOCKBYTES
      let block1 ← arrayRefT input[1] count BLOCKBYTES
      let block2 ← arrayRefT input[2] count BLOCKBYTES
      let block3 ← arrayRefT input[3] count BLOCKBYTES
      let block4 ← arrayRefT input[4] count BLOCKBYTES
      let block5 ← arrayRefT input[5] count BLOCKBYTES
      let block6 ← arrayRefT input[6] count BLOCKBYTES
      let block7 ← arrayRefT input[7] count BLOCKBYTES
      let count ← usizeAddT count BLOCKBYTES
      let countLow : U32 := (BitVec.ofNat 64 count).setWidth 32
      let countHigh : U32 := (BitVec.ofNat 64 count >>> 32).setWidth 32
      let (lastblock, lastnode) ← hash8FlagsT params finalizeAll
      let words ← impl.compress8Vectorized.callT E words
        #v[block0, block1, block2, block3, block4, block5, block6, block7]
        (Vector.replicate 8 countLow) (Vector.replicate 8 countHigh) lastblock lastnode
      if ← test finalizeAll then
        let words ← impl.vectorize8.callT E words
        return .ret
          #v[{ bytes := stateWordsToBytes words[0], len := params[0].hashLength },
             { bytes := stateWordsToBytes words[1], len := params[1].hashLength },
             { bytes := stateWordsToBytes words[2], len := params[2].hashLength },
             { bytes := stateWordsToBytes words[3], len := params[3].hashLength },
             { bytes := stateWordsToBytes words[4], len := params[4].hashLength },
             { bytes := stateWordsToBytes words[5], len := params[5].hashLength },
             { bytes := stateWordsToBytes words[6], len := params[6].hashLength },
             { bytes := stateWordsToBytes words[7], len := params[7].hashLength }]
      else
        hash8LoopT E impl params input fuel words count

/-- The closure `finish` of src/lib.rs:991-1003. -/
def hash8FinishT (E : Env) (impl : Impl) (count : Nat) (params : Params) (words : StateWords)
    (input : List U8) : Tr Hash := do
  let state : State :=
    { h := words
      buf := Vector.replicate 64 0
      buflen := 0
      count := BitVec.ofNat 64 count
      compressFn := impl.compress
      lastNode := params.lastNode
      hashLength := params.hashLength }
  let rest ← sliceFromT input count
  let state ← state.updateT E rest
  let (_, hash) ← state.finalizeT E
  return hash

/-- src/lib.rs:830-1019 `hash8`. -/
def hash8T (E : Env) (params : Vector Params 8) (input : Vector (List U8) 8) : Tr (Vector Hash 8) := do
  assertT (decide (params[0].keyLength = 0)) (notEqualMessage 0 params[0].keyLength.toNat)
  assertT (decide (params[1].keyLength = 0)) (notEqualMessage 0 params[1].keyLength.toNat)
  assertT (decide (params[2].keyLength = 0)) (notEqualMessage 0 params[2].keyLength.toNat)
  assertT (decide (params[3].keyLength = 0)) (notEqualMessage 0 params[3].keyLength.toNat)
  assertT (decide (params[4].keyLength = 0)) (notEqualMessage 0 params[4].keyLength.toNat)
  assertT (decide (params[5].keyLength = 0)) (notEqualMessage 0 params[5].keyLength.toNat)
  assertT (decide (params[6].keyLength = 0)) (notEqualMessage 0 params[6].keyLength.toNat)
  assertT (decide (params[7].keyLength = 0)) (notEqualMessage 0 params[7].keyLength.toNat)
  let impl := defaultCompressImpl E
  let words : Vector StateWords 8 :=
    #v[params[0].makeWords, params[1].makeWords, params[2].makeWords, params[3].makeWords,
       params[4].makeWords, params[5].makeWords, params[6].makeWords, params[7].makeWords]
  let words ← impl.vectorize8.callT E words
  let exit ← hash8LoopT E impl params input (input[0].length + 1) words 0
  match exit with
  | .ret hashes => return hashes
  | .brk words count =>
    let words ← impl.vectorize8.callT E words
    let h0 ← hash8FinishT E impl count params[0] words[0] input[0]
    let h1 ← hash8FinishT E impl count params[1] words[1] input[1]
    let h2 ← hash8FinishT E impl count params[2] words[2] input[2]
    let h3 ← hash8FinishT E impl count params[3] words[3] input[3]
    let h4 ← hash8FinishT E impl count params[4] words[4] input[4]
    let h5 ← hash8FinishT E impl count params[5] words[5] input[5]
    let h6 ← hash8FinishT E impl count params[6] words[6] input[6]
    let h7 ← hash8FinishT E impl count params[7] words[7] input[7]
    return #v[h0, h1, h2, h3, h4, h5, h6, h7]

/-! ## src/blake2sp.rs -/

namespace Sp

namespace Params

/-- src/blake2sp.rs:34-42 `Params::hash_length`. -/
def setHashLengthT (p : Params) (length : Nat) : Tr Params := do
  assertT (← testAll [decide (1 ≤ length), decide (length ≤ OUTBYTES)])
    ("Bad hash length: " ++ toString length)
  return { p with hashLength := BitVec.ofNat 8 length }

/-- src/blake2sp.rs:44-50 `Params::key`. -/
def setKeyT (p : Params) (key : List U8) : Tr Params := do
  assertT (decide (key.length ≤ KEYBYTES)) ("Bad key length: " ++ toString key.length)
  let buf ← copyFromSliceT (Vector.replicate 32 0) 0 key.length key
  return { p with keyLength := BitVec.ofNat 8 key.length, key := buf }

/-- The setters, src/blake2sp.rs:34-50. -/
def setT (p : Params) : Setter → Tr Params
  | .hashLength n => p.setHashLengthT n
  | .key k => p.setKeyT k

/-- src/blake2sp.rs:63-73 `impl Debug for Params`. -/
def debugT (p : Params) : Tr String := do
  emit (.number p.hashLength.toNat)
  emit (.number p.keyLength.toNat)
  return p.debug

end Params

namespace State

/-- The `base_params` of src/blake2sp.rs:105-117. -/
def baseParamsT (params : Params) : Tr Blake2s.Params := do
  let p ← Blake2s.Params.new.setHashLengthT params.hashLength.toNat
  let p ← p.setKeyT (← sliceToT params.key.toList params.keyLength.toNat)
  let p := p.setFanout 8
  let p ← p.setMaxDepthT 2
  let p := p.setMaxLeafLength 0
  p.setInnerHashLengthT OUTBYTES

/-- The closure `leaf_state` of src/blake2sp.rs:118-130. -/
def leafStateT (E : Env) (base : Blake2s.Params) (workerIndex : U64) : Tr Blake2s.State := do
  let p ← base.setNodeOffsetT workerIndex
  let p := p.setNodeDepth 0
  let p := p.setLastNode (decide (workerIndex = 7))
  let state ← p.toStateT E
  return { state with hashLength := BitVec.ofNat 8 OUTBYTES }

/-- src/blake2sp.rs:104-157 `State::with_params`. -/
def withParamsT (E : Env) (params : Params) : Tr State := do
  let base ← baseParamsT params
  let rp ← base.setNodeOffsetT 0
  let rp := rp.setNodeDepth 1
  let rp := rp.setLastNode true
  let root ← rp.toStateT E
  let root := { root with buflen := 0, count := 0 }
  let l0 ← leafStateT E base 0
  let l1 ← leafStateT E base 1
  let l2 ← leafStateT E base 2
  let l3 ← leafStateT E base 3
  let l4 ← leafStateT E base 4
  let l5 ← leafStateT E base 5
  let l6 ← leafStateT E base 6
  let l7 ← leafStateT E base 7
  return { leaves := #v[l0, l1, l2, l3, l4, l5, l6, l7]
           root := root
           buf := Vector.replicate 1024 0
           buflen := 0
           compress8Fn := (defaultCompressImpl E).compress8 }

/-- src/blake2sp.rs:94-96 `State::new`. -/
def newT (E : Env) : Tr State := withParamsT E Params.default

/-- src/blake2sp.rs:159-164 `State::fill_buf`. -/
def fillBufT (E : Env) (s : State) (input : List U8) : Tr (State × List U8) := do
  let take ← minT (← usizeSubT 1024 s.buflen.toNat) input.length
  let stop ← usizeAddT s.buflen.toNat take
  let part ← sliceToT input take
  let buf ← copyFromSliceT s.buf s.buflen.toNat stop part
  let buflen ← addChkT E s.buflen (BitVec.ofNat 16 take)
  let input ← sliceFromT input take
  return ({ s with buf := buf, buflen := buflen }, input)

/-- src/blake2sp.rs:166-252 `State::compress8`. -/
def compress8T (E : Env) (input : Vector U8 512) (lf : Vector Blake2s.State 8) (fn : Compress8Fn) :
    Tr (Vector Blake2s.State 8) := do
  debugAssertT E (decide (0 = lf[0].buflen)) (notEqualMessage 0 lf[0].buflen.toNat)
  debugAssertT E (decide (0 = lf[1].buflen)) (notEqualMessage 0 lf[1].buflen.toNat)
  debugAssertT E (decide (0 = lf[2].buflen)) (notEqualMessage 0 lf[2].buflen.toNat)
  debugAssertT E (decide (0 = lf[3].buflen)) (notEqualMessage 0 lf[3].buflen.toNat)
  debugAssertT E (decide (0 = lf[4].buflen)) (notEqualMessage 0 lf[4].buflen.toNat)
  debugAssertT E (decide (0 = lf[5].buflen)) (notEqualMessage 0 lf[5].buflen.toNat)
  debugAssertT E (decide (0 = lf[6].buflen)) (notEqualMessage 0 lf[6].buflen.toNat)
  debugAssertT E (decide (0 = lf[7].buflen)) (notEqualMessage 0 lf[7].buflen.toNat)
  debugAssertT E (decide (lf[0].count = lf[1].count))
    (notEqualMessage lf[0].count.toNat lf[1].count.toNat)
  debugAssertT E (decide (lf[0].count = lf[2].count))
    (notEqualMessage lf[0].count.toNat lf[2].count.toNat)
  debugAssertT E (decide (lf[0].count = lf[3].count))
    (notEqualMessage lf[0].count.toNat lf[3].count.toNat)
  debugAssertT E (decide (lf[0].count = lf[4].count))
    (notEqualMessage lf[0].count.toNat lf[4].count.toNat)
  debugAssertT E (decide (lf[0].count = lf[5].count))
    (notEqualMessage lf[0].count.toNat lf[5].count.toNat)
  debugAssertT E (decide (lf[0].count = lf[6].count))
    (notEqualMessage lf[0].count.toNat lf[6].count.toNat)
  debugAssertT E (decide (lf[0].count = lf[7].count))
    (notEqualMessage lf[0].count.toNat lf[7].count.toNat)
  let c0 ← addChkT E lf[0].count (BitVec.ofNat 64 BLOCKBYTES)
  let c1 ← addChkT E lf[1].count (BitVec.ofNat 64 BLOCKBYTES)
  let c2 ← addChkT E lf[2].count (BitVec.ofNat 64 BLOCKBYTES)
  let c3 ← addChkT E lf[3].count (BitVec.ofNat 64 BLOCKBYTES)
  let c4 ← addChkT E lf[4].count (BitVec.ofNat 64 BLOCKBYTES)
  let c5 ← addChkT E lf[5].count (BitVec.ofNat 64 BLOCKBYTES)
  let c6 ← addChkT E lf[6].count (BitVec.ofNat 64 BLOCKBYTES)
  let c7 ← addChkT E lf[7].count (BitVec.ofNat 64 BLOCKBYTES)
  let h ← fn.callT E
    #v[lf[0].h, lf[1].h, lf[2].h, lf[3].h, lf[4].h, lf[5].h, lf[6].h, lf[7].h]
    #v[subArray input 0 64, subArray input 64 64, subArray input 128 64, subArray input 192 64,
       subArray input 256 64, subArray input 320 64, subArray input 384 64, subArray input 448 64]
    #v[c0, c1, c2, c3, c4, c5, c6, c7]
    #v[0, 0, 0, 0, 0, 0, 0, 0]
    #v[0, 0, 0, 0, 0, 0, 0, 0]
  return #v[{ lf[0] with count := c0, h := h[0] }, { lf[1] with count := c1, h := h[1] },
            { lf[2] with count := c2, h := h[2] }, { lf[3] with count := c3, h := h[3] },
            { lf[4] with count := c4, h := h[4] }, { lf[5] with count := c5, h := h[5] },
            { lf[6] with count := c6, h := h[6] }, { lf[7] with count := c7, h := h[7] }]

/-- The buffer-completing part of `update`, src/blake2sp.rs:260-302. -/
def updateBufferedT (E : Env) (s : State) (input : List U8) : Tr (State × List U8) := do
  if ← test (decide (s.buflen.toNat > 0)) then
    let (s, input) ← s.fillBufT E input
    if ← test (!input.isEmpty) then
      let leaves ← compress8T E (subArray s.buf 0 512) s.leaves s.compress8Fn
      let buflen ← subChkT E s.buflen (8 * BitVec.ofNat 16 BLOCKBYTES)
      let s := { s with leaves := leaves, buflen := buflen }
      if ← test (decide (input.length > 7 * BLOCKBYTES)) then
        let leaves ← compress8T E (subArray s.buf 512 512) s.leaves s.compress8Fn
        return ({ s with leaves := leaves, buflen := 0 }, input)
      else
        let right : Vector U8 512 := subArray s.buf 512 512
        let part ← sliceToT right.toList s.buflen.toNat
        let left ← copyFromSliceT (subArray s.buf 0 512) 0 s.buflen.toNat part
        return ({ s with buf := left ++ right }, input)
    else
      return (s, input)
  else
    return (s, input)

/-- The `while` loop of src/blake2sp.rs:307-322, with fuel. -/
def updateLoopT (E : Env) (fn : Compress8Fn) : Nat → Vector Blake2s.State 8 → List U8 →
    Tr (Vector Blake2s.State 8 × List U8)
  | 0, _, _ => lift (throw .nonTermination)
  | fuel + 1, leaves, input => do
    if ← test (decide (input.length > 15 * BLOCKBYTES)) then
      let block ← arrayRefT input 0 512
      let leaves ← compress8T E block leaves fn
      let input ← sliceFromT input (8 * BLOCKBYTES)
      updateLoopT E fn fuel leaves input
    else
      return (leaves, input)

/-- src/blake2sp.rs:255-328 `State::update`. -/
def updateT (E : Env) (s : State) (input : List U8) : Tr State := do
  let (s, input) ← s.updateBufferedT E input
  let (leaves, input) ← updateLoopT E s.compress8Fn (input.length + 1) s.leaves input
  let (s, input) ← ({ s with leaves := leaves } : State).fillBufT E input
  debugAssertT E (decide (0 = input.length)) (notEqualMessage 0 input.length)
  return s

/-- One step `leaf.update(&chunk[..cmp::min(buflen, BLOCKBYTES)])` of src/blake2sp.rs:347-377. -/
def updateChunkT (E : Env) (leaf : Blake2s.State) (buf : Vector U8 1024) (k : Fin 16) (buflen : Nat) :
    Tr Blake2s.State := do
  let chunk : Vector U8 64 := subArray buf (64 * k.val) 64
  let part ← sliceToT chunk.toList (← minT buflen BLOCKBYTES)
  leaf.updateT E part

/-- One step `buflen = buflen.saturating_sub(BLOCKBYTES)` of src/blake2sp.rs:347-377. -/
def saturatingSubT (buflen : Nat) : Tr Nat := do
  emit (.branch (decide (buflen < BLOCKBYTES)))
  return buflen - BLOCKBYTES

/-- src/blake2sp.rs:332-388 `State::finalize`. -/
def finalizeT (E : Env) (s : State) : Tr (State × Hash) := do
  let leaf0 := s.leaves[0]
  let leaf1 := s.leaves[1]
  let leaf2 := s.leaves[2]
  let leaf3 := s.leaves[3]
  let leaf4 := s.leaves[4]
  let leaf5 := s.leaves[5]
  let leaf6 := s.leaves[6]
  let leaf7 := s.leaves[7]
  let buflen := s.buflen.toNat
  let leaf0 ← updateChunkT E leaf0 s.buf 0 buflen
  let buflen ← saturatingSubT buflen
  let leaf1 ← updateChunkT E leaf1 s.buf 1 buflen
  let buflen ← saturatingSubT buflen
  let leaf2 ← updateChunkT E leaf2 s.buf 2 buflen
  let buflen ← saturatingSubT buflen
  let leaf3 ← updateChunkT E leaf3 s.buf 3 buflen
  let buflen ← saturatingSubT buflen
  let leaf4 ← updateChunkT E leaf4 s.buf 4 buflen
  let buflen ← saturatingSubT buflen
  let leaf5 ← updateChunkT E leaf5 s.buf 5 buflen
  let buflen ← saturatingSubT buflen
  let leaf6 ← updateChunkT E leaf6 s.buf 6 buflen
  let buflen ← saturatingSubT buflen
  let leaf7 ← updateChunkT E leaf7 s.buf 7 buflen
  let buflen ← saturatingSubT buflen
  let leaf0 ← updateChunkT E leaf0 s.buf 8 buflen
  let buflen ← saturatingSubT buflen
  let leaf1 ← updateChunkT E leaf1 s.buf 9 buflen
  let buflen ← saturatingSubT buflen
  let leaf2 ← updateChunkT E leaf2 s.buf 10 buflen
  let buflen ← saturatingSubT buflen
  let leaf3 ← updateChunkT E leaf3 s.buf 11 buflen
  let buflen ← saturatingSubT buflen
  let leaf4 ← updateChunkT E leaf4 s.buf 12 buflen
  let buflen ← saturatingSubT buflen
  let leaf5 ← updateChunkT E leaf5 s.buf 13 buflen
  let buflen ← saturatingSubT buflen
  let leaf6 ← updateChunkT E leaf6 s.buf 14 buflen
  let buflen ← saturatingSubT buflen
  let leaf7 ← updateChunkT E leaf7 s.buf 15 buflen
  let root := s.root
  let (_, h0) ← leaf0.finalizeT E
  let root ← root.updateT E (← h0.asBytesT)
  let (_, h1) ← leaf1.finalizeT E
  let root ← root.updateT E (← h1.asBytesT)
  let (_, h2) ← leaf2.finalizeT E
  let root ← root.updateT E (← h2.asBytesT)
  let (_, h3) ← leaf3.finalizeT E
  let root ← root.updateT E (← h3.asBytesT)
  let (_, h4) ← leaf4.finalizeT E
  let root ← root.updateT E (← h4.asBytesT)
  let (_, h5) ← leaf5.finalizeT E
  let root ← root.updateT E (← h5.asBytesT)
  let (_, h6) ← leaf6.finalizeT E
  let root ← root.updateT E (← h6.asBytesT)
  let (_, h7) ← leaf7.finalizeT E
  let root ← root.updateT E (← h7.asBytesT)
  let (_, hash) ← root.finalizeT E
  return (s, hash)

/-- src/blake2sp.rs:391-401 `State::count`. -/
def getCountT (E : Env) (s : State) : Tr U64 := do
  let c ← addChkT E s.leaves[0].getCount s.leaves[1].getCount
  let c ← addChkT E c s.leaves[2].getCount
  let c ← addChkT E c s.leaves[3].getCount
  let c ← addChkT E c s.leaves[4].getCount
  let c ← addChkT E c s.leaves[5].getCount
  let c ← addChkT E c s.leaves[6].getCount
  let c ← addChkT E c s.leaves[7].getCount
  addChkT E c (s.buflen.setWidth 64)

/-- src/blake2sp.rs:406-409 `impl Write for State`: `write`. -/
def writeT (E : Env) (s : State) (buf : List U8) : Tr (State × Nat) := do
  let s ← s.updateT E buf
  return (s, buf.length)

/-- src/blake2sp.rs:416-430 `impl Debug for State`. -/
def debugT (E : Env) (s : State) : Tr String := do
  let c ← s.getCountT E
  emit (.number c.toNat)
  let root ← s.root.debugT
  let leaf0 ← s.leaves[0].debugT
  let leaf1 ← s.leaves[1].debugT
  let leaf2 ← s.leaves[2].debugT
  let leaf3 ← s.leaves[3].debugT
  return "State { count: " ++ Blake2s.State.dec c ++ ", root: " ++ root ++
    ", leaf0: " ++ leaf0 ++ ", leaf1: " ++ leaf1 ++
    ", leaf2: " ++ leaf2 ++ ", leaf3: " ++ leaf3 ++ " }"

end State

/-- src/blake2sp.rs:30-32 `Params::to_state`. -/
def Params.toStateT (E : Env) (p : Params) : Tr State := State.withParamsT E p

end Sp

/-- src/blake2sp.rs:14-16 `blake2sp`. -/
def blake2spT (E : Env) (input : List U8) : Tr Hash := do
  let s ← Sp.State.newT E
  let s ← s.updateT E input
  let (_, hash) ← s.finalizeT E
  return hash

/-! ## Programs -/

/-- The variables at the start (`World.init`). For src/lib.rs and src/blake2sp.rs as a whole. -/
def World.initT (E : Env) : Tr World := do
  let s ← State.newT E
  let h ← blake2sT E []
  let t ← Sp.State.newT E
  return { params := fun _ => Params.new
           state := fun _ => s
           hash := fun _ => h
           spParams := fun _ => Sp.Params.new
           spState := fun _ => t }

/-- Running one call (`World.call`). For src/lib.rs and src/blake2sp.rs as a whole. -/
def World.callT (E : Env) (w : World) : Call → Tr (World × Out)
  | .newParams p => pure ({ w with params := Blake2s.assign w.params p Params.new }, .unit)
  | .cloneParams dst src =>
    pure ({ w with params := Blake2s.assign w.params dst (w.params src) }, .unit)
  | .set p c => do
    let x ← (w.params p).setT c
    return ({ w with params := Blake2s.assign w.params p x }, .unit)
  | .newState s => do
    let x ← State.newT E
    return ({ w with state := Blake2s.assign w.state s x }, .unit)
  | .toState s p => do
    let x ← (w.params p).toStateT E
    return ({ w with state := Blake2s.assign w.state s x }, .unit)
  | .cloneState dst src =>
    pure ({ w with state := Blake2s.assign w.state dst (w.state src) }, .unit)
  | .update s input => do
    let x ← (w.state s).updateT E input
    return ({ w with state := Blake2s.assign w.state s x }, .unit)
  | .write s input => do
    let (x, n) ← (w.state s).writeT E input
    return ({ w with state := Blake2s.assign w.state s x }, .length n)
  | .flush s => pure ({ w with state := Blake2s.assign w.state s (w.state s).flush }, .unit)
  | .setLastNode s b =>
    pure ({ w with state := Blake2s.assign w.state s ((w.state s).setLastNode b) }, .unit)
  | .finalize s h => do
    let (x, d) ← (w.state s).finalizeT E
    return ({ w with state := Blake2s.assign w.state s x
                     hash := Blake2s.assign w.hash h d }, .unit)
  | .count s => pure (w, .count (w.state s).getCount)
  | .debugState s => do return (w, .text (← (w.state s).debugT).toList)
  | .forcePortable s =>
    pure ({ w with state := Blake2s.assign w.state s (w.state s).forcePortable }, .unit)
  | .blake2s input h => do
    let d ← blake2sT E input
    return ({ w with hash := Blake2s.assign w.hash h d }, .unit)
  | .update8 s input => do
    let xs ← update8T E (s.map w.state) input
    return ({ w with state := assignAll w.state s xs }, .unit)
  | .finalize8 s h => do
    let (xs, ds) ← finalize8T E (s.map w.state)
    return ({ w with state := assignAll w.state s xs
                     hash := assignAll w.hash h ds }, .unit)
  | .hash4Exact p input h => do
    let ds ← hash4ExactT E (w.params p) input
    return ({ w with hash := assignAll w.hash h ds }, .unit)
  | .hash8Exact p input h => do
    let ds ← hash8ExactT E (w.params p) input
    return ({ w with hash := assignAll w.hash h ds }, .unit)
  | .hash8 p input h => do
    let ds ← hash8T E (p.map w.params) input
    return ({ w with hash := assignAll w.hash h ds }, .unit)
  | .cloneHash dst src => pure ({ w with hash := Blake2s.assign w.hash dst (w.hash src) }, .unit)
  | .asBytes h => do return (w, .bytes (← (w.hash h).asBytesT))
  | .toHex h => do return (w, .hex (← (w.hash h).toHexT))
  | .debugHash h => do return (w, .hex (← (w.hash h).debugT))
  | .eqHash a b => do return (w, .bool (← (w.hash a).eqHashT (w.hash b)))
  | .eqSlice h b => do return (w, .bool (← (w.hash h).eqSliceT b))
  | .blake2sp input h => do
    let d ← blake2spT E input
    return ({ w with hash := Blake2s.assign w.hash h d }, .unit)
  | .spNewParams p => pure ({ w with spParams := Blake2s.assign w.spParams p Sp.Params.new }, .unit)
  | .spCloneParams dst src =>
    pure ({ w with spParams := Blake2s.assign w.spParams dst (w.spParams src) }, .unit)
  | .spSet p c => do
    let x ← (w.spParams p).setT c
    return ({ w with spParams := Blake2s.assign w.spParams p x }, .unit)
  | .spDebugParams p => do return (w, .text (← (w.spParams p).debugT).toList)
  | .spNewState s => do
    let x ← Sp.State.newT E
    return ({ w with spState := Blake2s.assign w.spState s x }, .unit)
  | .spToState s p => do
    let x ← (w.spParams p).toStateT E
    return ({ w with spState := Blake2s.assign w.spState s x }, .unit)
  | .spUpdate s input => do
    let x ← (w.spState s).updateT E input
    return ({ w with spState := Blake2s.assign w.spState s x }, .unit)
  | .spWrite s input => do
    let (x, n) ← (w.spState s).writeT E input
    return ({ w with spState := Blake2s.assign w.spState s x }, .length n)
  | .spFlush s => pure ({ w with spState := Blake2s.assign w.spState s (w.spState s).flush }, .unit)
  | .spFinalize s h => do
    let (x, d) ← (w.spState s).finalizeT E
    return ({ w with spState := Blake2s.assign w.spState s x, hash := Blake2s.assign w.hash h d }, .unit)
  | .spCount s => do return (w, .count (← (w.spState s).getCountT E))
  | .spDebugState s => do return (w, .text (← (w.spState s).debugT E).toList)
  | .spForcePortable s =>
    pure ({ w with spState := Blake2s.assign w.spState s (w.spState s).forcePortable }, .unit)

/-- Running a program (`World.run`). For src/lib.rs and src/blake2sp.rs as a whole. -/
def World.runT (E : Env) (w : World) : List Call → Tr (World × List Out)
  | [] => pure (w, [])
  | c :: cs => do
    let (w, o) ← w.callT E c
    let (w, os) ← w.runT E cs
    return (w, o :: os)

/-- A program run from the start (`program`), with its trace. For src/lib.rs and src/blake2sp.rs as a
whole. -/
def programT (E : Env) (calls : List Call) : Tr (List Out) := do
  let w ← World.initT E
  let (_, os) ← w.runT E calls
  return os

/-- What an observer of branches and addresses sees of a program. For src/lib.rs and src/blake2sp.rs as a
whole. -/
def leakage (E : Env) (calls : List Call) : List Event := (programT E calls).2

end Blake2s
