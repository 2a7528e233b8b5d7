import Verif.Model.State
/-!
# Model of src/blake2sp.rs

The fields `leaf0` … `leaf7` are one vector `leaves` of eight states.
-/

namespace Blake2s.Sp

/-- src/blake2sp.rs:18-23 `struct Params`. -/
structure Params where
  hashLength : U8
  keyLength : U8
  key : Vector U8 32
deriving DecidableEq

namespace Params

/-- src/blake2sp.rs:53-61 `impl Default for Params`. -/
def default : Params where
  hashLength := BitVec.ofNat 8 OUTBYTES
  keyLength := 0
  key := Vector.replicate 32 0

/-- src/blake2sp.rs:26-28 `Params::new`. -/
def new : Params := default

/-- src/blake2sp.rs:34-42 `Params::hash_length`. -/
def setHashLength (p : Params) (length : Nat) : R Params := do
  assert (decide (1 ≤ length) && decide (length ≤ OUTBYTES))
  return { p with hashLength := BitVec.ofNat 8 length }

/-- src/blake2sp.rs:44-50 `Params::key`. -/
def setKey (p : Params) (key : List U8) : R Params := do
  assert (decide (key.length ≤ KEYBYTES))
  let buf ← copyFromSlice (Vector.replicate 32 0) 0 key.length key
  return { p with keyLength := BitVec.ofNat 8 key.length, key := buf }

/-- src/blake2sp.rs:63-73 `impl Debug for Params`. -/
def debug (p : Params) : String :=
  "Params { hash_length: " ++ State.dec p.hashLength ++ ", key_length: " ++
    State.dec p.keyLength ++ " }"

end Params

/-- src/blake2sp.rs:75-90 `struct State`. -/
structure State where
  leaves : Vector Blake2s.State 8
  root : Blake2s.State
  buf : Vector U8 1024
  buflen : U16
  compress8Fn : Compress8Fn
deriving DecidableEq

namespace State

/-- The `base_params` of src/blake2sp.rs:105-117. -/
def baseParams (params : Params) : R Blake2s.Params := do
  let p ← Blake2s.Params.new.setHashLength params.hashLength.toNat
  let p ← p.setKey (← sliceTo params.key.toList params.keyLength.toNat)
  let p := p.setFanout 8
  let p ← p.setMaxDepth 2
  let p := p.setMaxLeafLength 0
  p.setInnerHashLength OUTBYTES

/-- The closure `leaf_state` of src/blake2sp.rs:118-130. -/
def leafState (E : Env) (base : Blake2s.Params) (workerIndex : U64) : R Blake2s.State := do
  let p ← base.setNodeOffset workerIndex
  let p := p.setNodeDepth 0
  let p := p.setLastNode (decide (workerIndex = 7))
  let state ← p.toState E
  return { state with hashLength := BitVec.ofNat 8 OUTBYTES }

/-- src/blake2sp.rs:104-157 `State::with_params`. -/
def withParams (E : Env) (params : Params) : R State := do
  let base ← baseParams params
  let rp ← base.setNodeOffset 0
  let rp := rp.setNodeDepth 1
  let rp := rp.setLastNode true
  let root ← rp.toState E
  let root := { root with buflen := 0, count := 0 }
  let l0 ← leafState E base 0
  let l1 ← leafState E base 1
  let l2 ← leafState E base 2
  let l3 ← leafState E base 3
  let l4 ← leafState E base 4
  let l5 ← leafState E base 5
  let l6 ← leafState E base 6
  let l7 ← leafState E base 7
  return { leaves := #v[l0, l1, l2, l3, l4, l5, l6, l7]
           root := root
           buf := Vector.replicate 1024 0
           buflen := 0
           compress8Fn := (defaultCompressImpl E).compress8 }

/-- src/blake2sp.rs:94-96 `State::new`. -/
def new (E : Env) : R State := withParams E Params.default

/-- src/blake2sp.rs:432-436 `impl Default for State`. -/
def default (E : Env) : R State := withParams E Params.default

/-- src/blake2sp.rs:159-164 `State::fill_buf`. -/
def fillBuf (E : Env) (s : State) (input : List U8) : R (State × List U8) := do
  let take := min (← usizeSub 1024 s.buflen.toNat) input.length
  let buf ← copyFromSlice s.buf s.buflen.toNat (s.buflen.toNat + take) (← sliceTo input take)
  let buflen ← addChk E s.buflen (BitVec.ofNat 16 take)
  let input ← sliceFrom input take
  return ({ s with buf := buf, buflen := buflen }, input)

/-- src/blake2sp.rs:166-252 `State::compress8`. -/
def compress8 (E : Env) (input : Vector U8 512) (lf : Vector Blake2s.State 8) (fn : Compress8Fn) :
    R (Vector Blake2s.State 8) := do
  debugAssert E (decide (0 = lf[0].buflen))
  debugAssert E (decide (0 = lf[1].buflen))
  debugAssert E (decide (0 = lf[2].buflen))
  debugAssert E (decide (0 = lf[3].buflen))
  debugAssert E (decide (0 = lf[4].buflen))
  debugAssert E (decide (0 = lf[5].buflen))
  debugAssert E (decide (0 = lf[6].buflen))
  debugAssert E (decide (0 = lf[7].buflen))
  debugAssert E (decide (lf[0].count = lf[1].count))
  debugAssert E (decide (lf[0].count = lf[2].count))
  debugAssert E (decide (lf[0].count = lf[3].count))
  debugAssert E (decide (lf[0].count = lf[4].count))
  debugAssert E (decide (lf[0].count = lf[5].count))
  debugAssert E (decide (lf[0].count = lf[6].count))
  debugAssert E (decide (lf[0].count = lf[7].count))
  let c0 ← addChk E lf[0].count (BitVec.ofNat 64 BLOCKBYTES)
  let c1 ← addChk E lf[1].count (BitVec.ofNat 64 BLOCKBYTES)
  let c2 ← addChk E lf[2].count (BitVec.ofNat 64 BLOCKBYTES)
  let c3 ← addChk E lf[3].count (BitVec.ofNat 64 BLOCKBYTES)
  let c4 ← addChk E lf[4].count (BitVec.ofNat 64 BLOCKBYTES)
  let c5 ← addChk E lf[5].count (BitVec.ofNat 64 BLOCKBYTES)
  let c6 ← addChk E lf[6].count (BitVec.ofNat 64 BLOCKBYTES)
  let c7 ← addChk E lf[7].count (BitVec.ofNat 64 BLOCKBYTES)
  let h ← fn.call E
    #v[lf[0].h, lf[1].h, lf[2].h, lf[3].h, lf[4].h, lf[5].h, lf[6].h, lf[7].h]
    #v[subArray input 0 64, subArray input 64 64, subArray input 128 64, subArray input 192 64,
       subArray input 256 64, subArray input 320 64, subArray input 384 64, subArray input 448 64]
    #v[c0, c1, c2, c3, c4, c5, c6, c7]
    #v[0, 0, 0, 0, 0, 0, 0, 0]
    #v[0, 0, 0, 0, 0, 0, 0, 0]
  return #v[{ lf[0] with count := c0, h := h[0] }, { lf[1] with count := c1, h := h[1] },
            { lf[2] with count := c2, h := h[2] }, { lf[3] with count := c3, h := h[3] },
            { lf[4] with count := c4, h := h[4] }, { lf[5] with count := c5, h := h[5] },
            { lf[6] with count := c6, h := h[6] }, { lf[7] with count := c7, h := h[7] }]

/-- The buffer-completing part of `update`, src/blake2sp.rs:260-302. -/
def updateBuffered (E : Env) (s : State) (input : List U8) : R (State × List U8) := do
  if s.buflen.toNat > 0 then
    let (s, input) ← s.fillBuf E input
    if !input.isEmpty then
      let leaves ← compress8 E (subArray s.buf 0 512) s.leaves s.compress8Fn
      let buflen ← subChk E s.buflen (8 * BitVec.ofNat 16 BLOCKBYTES)
      let s := { s with leaves := leaves, buflen := buflen }
      if input.length > 7 * BLOCKBYTES then
        let leaves ← compress8 E (subArray s.buf 512 512) s.leaves s.compress8Fn
        return ({ s with leaves := leaves, buflen := 0 }, input)
      else
        let right : Vector U8 512 := subArray s.buf 512 512
        let left ← copyFromSlice (subArray s.buf 0 512) 0 s.buflen.toNat
          (← sliceTo right.toList s.buflen.toNat)
        return ({ s with buf := left ++ right }, input)
    else
      return (s, input)
  else
    return (s, input)

/-- The `while` loop of src/blake2sp.rs:307-322, with fuel. -/
def updateLoop (E : Env) (fn : Compress8Fn) : Nat → Vector Blake2s.State 8 → List U8 →
    R (Vector Blake2s.State 8 × List U8)
  | 0, _, _ => throw .nonTermination
  | fuel + 1, leaves, input =>
    if input.length > 15 * BLOCKBYTES then do
      let block ← arrayRef input 0 512
      let leaves ← compress8 E block leaves fn
      let input ← sliceFrom input (8 * BLOCKBYTES)
      updateLoop E fn fuel leaves input
    else
      pure (leaves, input)

/-- src/blake2sp.rs:255-328 `State::update`. -/
def update (E : Env) (s : State) (input : List U8) : R State := do
  let (s, input) ← s.updateBuffered E input
  let (leaves, input) ← updateLoop E s.compress8Fn (input.length + 1) s.leaves input
  let (s, input) ← ({ s with leaves := leaves } : State).fillBuf E input
  debugAssert E (decide (0 = input.length))
  return s

/-- One step `leaf.update(&chunk[..cmp::min(buflen, BLOCKBYTES)])` of src/blake2sp.rs:347-377, where
`chunk` is the `k`-th 64-byte piece of the buffer. -/
def updateChunk (E : Env) (leaf : Blake2s.State) (buf : Vector U8 1024) (k : Fin 16) (buflen : Nat) :
    R Blake2s.State := do
  let chunk : Vector U8 64 := subArray buf (64 * k.val) 64
  leaf.update E (← sliceTo chunk.toList (min buflen BLOCKBYTES))

/-- src/blake2sp.rs:332-388 `State::finalize`. `saturating_sub` is subtraction of natural numbers. It takes
`&mut self`, so the state as it is left is part of the result; the leaves and the root that are worked on
are clones. -/
def finalize (E : Env) (s : State) : R (State × Hash) := do
  let leaf0 := s.leaves[0]
  let leaf1 := s.leaves[1]
  let leaf2 := s.leaves[2]
  let leaf3 := s.leaves[3]
  let leaf4 := s.leaves[4]
  let leaf5 := s.leaves[5]
  let leaf6 := s.leaves[6]
  let leaf7 := s.leaves[7]
  let buflen := s.buflen.toNat
  let leaf0 ← updateChunk E leaf0 s.buf 0 buflen
  let buflen := buflen - BLOCKBYTES
  let leaf1 ← updateChunk E leaf1 s.buf 1 buflen
  let buflen := buflen - BLOCKBYTES
  let leaf2 ← updateChunk E leaf2 s.buf 2 buflen
  let buflen := buflen - BLOCKBYTES
  let leaf3 ← updateChunk E leaf3 s.buf 3 buflen
  let buflen := buflen - BLOCKBYTES
  let leaf4 ← updateChunk E leaf4 s.buf 4 buflen
  let buflen := buflen - BLOCKBYTES
  let leaf5 ← updateChunk E leaf5 s.buf 5 buflen
  let buflen := buflen - BLOCKBYTES
  let leaf6 ← updateChunk E leaf6 s.buf 6 buflen
  let buflen := buflen - BLOCKBYTES
  let leaf7 ← updateChunk E leaf7 s.buf 7 buflen
  let buflen := buflen - BLOCKBYTES
  let leaf0 ← updateChunk E leaf0 s.buf 8 buflen
  let buflen := buflen - BLOCKBYTES
  let leaf1 ← updateChunk E leaf1 s.buf 9 buflen
  let buflen := buflen - BLOCKBYTES
  let leaf2 ← updateChunk E leaf2 s.buf 10 buflen
  let buflen := buflen - BLOCKBYTES
  let leaf3 ← updateChunk E leaf3 s.buf 11 buflen
  let buflen := buflen - BLOCKBYTES
  let leaf4 ← updateChunk E leaf4 s.buf 12 buflen
  let buflen := buflen - BLOCKBYTES
  let leaf5 ← updateChunk E leaf5 s.buf 13 buflen
  let buflen := buflen - BLOCKBYTES
  let leaf6 ← updateChunk E leaf6 s.buf 14 buflen
  let buflen := buflen - BLOCKBYTES
  let leaf7 ← updateChunk E leaf7 s.buf 15 buflen
  let root := s.root
  let (_, h0) ← leaf0.finalize E
  let root ← root.update E (← h0.asBytes)
  let (_, h1) ← leaf1.finalize E
  let root ← root.update E (← h1.asBytes)
  let (_, h2) ← leaf2.finalize E
  let root ← root.update E (← h2.asBytes)
  let (_, h3) ← leaf3.finalize E
  let root ← root.update E (← h3.asBytes)
  let (_, h4) ← leaf4.finalize E
  let root ← root.update E (← h4.asBytes)
  let (_, h5) ← leaf5.finalize E
  let root ← root.update E (← h5.asBytes)
  let (_, h6) ← leaf6.finalize E
  let root ← root.update E (← h6.asBytes)
  let (_, h7) ← leaf7.finalize E
  let root ← root.update E (← h7.asBytes)
  let (_, hash) ← root.finalize E
  return (s, hash)

/-- src/blake2sp.rs:391-401 `State::count`. -/
def getCount (E : Env) (s : State) : R U64 := do
  let c ← addChk E s.leaves[0].getCount s.leaves[1].getCount
  let c ← addChk E c s.leaves[2].getCount
  let c ← addChk E c s.leaves[3].getCount
  let c ← addChk E c s.leaves[4].getCount
  let c ← addChk E c s.leaves[5].getCount
  let c ← addChk E c s.leaves[6].getCount
  let c ← addChk E c s.leaves[7].getCount
  addChk E c (s.buflen.setWidth 64)

/-- src/blake2sp.rs:406-409 `impl Write for State`: `write` (always `Ok`). -/
def write (E : Env) (s : State) (buf : List U8) : R (State × Nat) := do
  let s ← s.update E buf
  return (s, buf.length)

/-- src/blake2sp.rs:411-413 `impl Write for State`: `flush` (always `Ok`). -/
def flush (s : State) : State := s

/-- src/blake2sp.rs:416-430 `impl Debug for State`. -/
def debug (E : Env) (s : State) : R String := do
  let c ← s.getCount E
  return "State { count: " ++ Blake2s.State.dec c ++ ", root: " ++ s.root.debug ++
    ", leaf0: " ++ s.leaves[0].debug ++ ", leaf1: " ++ s.leaves[1].debug ++
    ", leaf2: " ++ s.leaves[2].debug ++ ", leaf3: " ++ s.leaves[3].debug ++ " }"

/-- src/blake2sp.rs:438-449 `force_portable`. -/
def forcePortable (s : State) : State :=
  { s with
    compress8Fn := .portable
    root := s.root.forcePortable
    leaves := #v[s.leaves[0].forcePortable, s.leaves[1].forcePortable, s.leaves[2].forcePortable,
      s.leaves[3].forcePortable, s.leaves[4].forcePortable, s.leaves[5].forcePortable,
      s.leaves[6].forcePortable, s.leaves[7].forcePortable] }

end State

/-- src/blake2sp.rs:30-32 `Params::to_state`. -/
def Params.toState (E : Env) (p : Params) : R State := State.withParams E p

end Sp

/-- src/blake2sp.rs:14-16 `blake2sp`. -/
def blake2sp (E : Env) (input : List U8) : R Hash := do
  let s ← Sp.State.new E
  let s ← s.update E input
  let (_, hash) ← s.finalize E
  return hash

end Blake2s
