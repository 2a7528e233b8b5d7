import Verif.Model.State
/-!
# Model of src/lib.rs: `update8`, `finalize8`, `hash4_exact`, `hash8_exact`, `hash8`

The eight positional arguments `state0` … `state7`, `input0` … `input7` are vectors of eight, taken apart
and reassembled element by element as in the source.
-/

namespace Blake2s

/-- The `while` loop of src/lib.rs:552-622, with fuel. -/
def update8Loop (E : Env) (fn : Compress8Fn) : Nat → Vector State 8 → Vector (List U8) 8 →
    R (Vector State 8 × Vector (List U8) 8)
  | 0, _, _ => throw .nonTermination
  | fuel + 1, st, input =>
    if input[0].length > BLOCKBYTES
        && input[1].length > BLOCKBYTES
        && input[2].length > BLOCKBYTES
        && input[3].length > BLOCKBYTES
        && input[4].length > BLOCKBYTES
        && input[5].length > BLOCKBYTES
        && input[6].length > BLOCKBYTES
        && input[7].length > BLOCKBYTES then do
      let c0 ← addChk E st[0].count (BitVec.ofNat 64 BLOCKBYTES)
      let c1 ← addChk E st[1].count (BitVec.ofNat 64 BLOCKBYTES)
      let c2 ← addChk E st[2].count (BitVec.ofNat 64 BLOCKBYTES)
      let c3 ← addChk E st[3].count (BitVec.ofNat 64 BLOCKBYTES)
      let c4 ← addChk E st[4].count (BitVec.ofNat 64 BLOCKBYTES)
      let c5 ← addChk E st[5].count (BitVec.ofNat 64 BLOCKBYTES)
      let c6 ← addChk E st[6].count (BitVec.ofNat 64 BLOCKBYTES)
      let c7 ← addChk E st[7].count (BitVec.ofNat 64 BLOCKBYTES)
      let m0 ← arrayRef input[0] 0 BLOCKBYTES
      let m1 ← arrayRef input[1] 0 BLOCKBYTES
      let m2 ← arrayRef input[2] 0 BLOCKBYTES
      let m3 ← arrayRef input[3] 0 BLOCKBYTES
      let m4 ← arrayRef input[4] 0 BLOCKBYTES
      let m5 ← arrayRef input[5] 0 BLOCKBYTES
      let m6 ← arrayRef input[6] 0 BLOCKBYTES
      let m7 ← arrayRef input[7] 0 BLOCKBYTES
      let h ← fn.call E
        #v[st[0].h, st[1].h, st[2].h, st[3].h, st[4].h, st[5].h, st[6].h, st[7].h]
        #v[m0, m1, m2, m3, m4, m5, m6, m7]
        #v[c0, c1, c2, c3, c4, c5, c6, c7]
        #v[0, 0, 0, 0, 0, 0, 0, 0]
        #v[0, 0, 0, 0, 0, 0, 0, 0]
      let i0 ← sliceFrom input[0] BLOCKBYTES
      let i1 ← sliceFrom input[1] BLOCKBYTES
      let i2 ← sliceFrom input[2] BLOCKBYTES
      let i3 ← sliceFrom input[3] BLOCKBYTES
      let i4 ← sliceFrom input[4] BLOCKBYTES
      let i5 ← sliceFrom input[5] BLOCKBYTES
      let i6 ← sliceFrom input[6] BLOCKBYTES
      let i7 ← sliceFrom input[7] BLOCKBYTES
      update8Loop E fn fuel
        #v[{ st[0] with count := c0, h := h[0] }, { st[1] with count := c1, h := h[1] },
           { st[2] with count := c2, h := h[2] }, { st[3] with count := c3, h := h[3] },
           { st[4] with count := c4, h := h[4] }, { st[5] with count := c5, h := h[5] },
           { st[6] with count := c6, h := h[6] }, { st[7] with count := c7, h := h[7] }]
        #v[i0, i1, i2, i3, i4, i5, i6, i7]
    else
      pure (st, input)

/-- src/lib.rs:523-634 `update8`. -/
def update8 (E : Env) (st : Vector State 8) (input : Vector (List U8) 8) : R (Vector State 8) := do
  let (s0, i0) ← st[0].compressBufferIfPossible E input[0]
  let (s1, i1) ← st[1].compressBufferIfPossible E input[1]
  let (s2, i2) ← st[2].compressBufferIfPossible E input[2]
  let (s3, i3) ← st[3].compressBufferIfPossible E input[3]
  let (s4, i4) ← st[4].compressBufferIfPossible E input[4]
  let (s5, i5) ← st[5].compressBufferIfPossible E input[5]
  let (s6, i6) ← st[6].compressBufferIfPossible E input[6]
  let (s7, i7) ← st[7].compressBufferIfPossible E input[7]
  let (st, input) ← update8Loop E (defaultCompressImpl E).compress8 (i0.length + 1)
    #v[s0, s1, s2, s3, s4, s5, s6, s7] #v[i0, i1, i2, i3, i4, i5, i6, i7]
  let s0 ← st[0].update E input[0]
  let s1 ← st[1].update E input[1]
  let s2 ← st[2].update E input[2]
  let s3 ← st[3].update E input[3]
  let s4 ← st[4].update E input[4]
  let s5 ← st[5].update E input[5]
  let s6 ← st[6].update E input[6]
  let s7 ← st[7].update E input[7]
  return #v[s0, s1, s2, s3, s4, s5, s6, s7]

/-- src/lib.rs:636-770 `finalize8`. -/
def finalize8 (E : Env) (st : Vector State 8) : R (Vector State 8 × Vector Hash 8) := do
  let s0 := { st[0] with buf := State.zeroTail st[0].buf st[0].buflen }
  let s1 := { st[1] with buf := State.zeroTail st[1].buf st[1].buflen }
  let s2 := { st[2] with buf := State.zeroTail st[2].buf st[2].buflen }
  let s3 := { st[3] with buf := State.zeroTail st[3].buf st[3].buflen }
  let s4 := { st[4] with buf := State.zeroTail st[4].buf st[4].buflen }
  let s5 := { st[5] with buf := State.zeroTail st[5].buf st[5].buflen }
  let s6 := { st[6] with buf := State.zeroTail st[6].buf st[6].buflen }
  let s7 := { st[7] with buf := State.zeroTail st[7].buf st[7].buflen }
  let h ← (defaultCompressImpl E).compress8.call E
    #v[s0.h, s1.h, s2.h, s3.h, s4.h, s5.h, s6.h, s7.h]
    #v[s0.buf, s1.buf, s2.buf, s3.buf, s4.buf, s5.buf, s6.buf, s7.buf]
    #v[s0.count, s1.count, s2.count, s3.count, s4.count, s5.count, s6.count, s7.count]
    #v[~~~ 0, ~~~ 0, ~~~ 0, ~~~ 0, ~~~ 0, ~~~ 0, ~~~ 0, ~~~ 0]
    #v[State.flagWord s0.lastNode, State.flagWord s1.lastNode, State.flagWord s2.lastNode,
       State.flagWord s3.lastNode, State.flagWord s4.lastNode, State.flagWord s5.lastNode,
       State.flagWord s6.lastNode, State.flagWord s7.lastNode]
  return (#v[s0, s1, s2, s3, s4, s5, s6, s7],
    #v[{ bytes := stateWordsToBytes h[0], len := s0.hashLength },
       { bytes := stateWordsToBytes h[1], len := s1.hashLength },
       { bytes := stateWordsToBytes h[2], len := s2.hashLength },
       { bytes := stateWordsToBytes h[3], len := s3.hashLength },
       { bytes := stateWordsToBytes h[4], len := s4.hashLength },
       { bytes := stateWordsToBytes h[5], len := s5.hashLength },
       { bytes := stateWordsToBytes h[6], len := s6.hashLength },
       { bytes := stateWordsToBytes h[7], len := s7.hashLength }])

/-- src/lib.rs:772-792 `hash4_exact`. -/
def hash4Exact (E : Env) (params : Params) (input : Vector (List U8) 4) : R (Vector Hash 4) := do
  let len := input[0].length
  let sameLength := input[1].length == len && input[2].length == len && input[3].length == len
  let evenLength := len % BLOCKBYTES == 0
  let nonempty := len != 0
  assert (sameLength && evenLength && nonempty)
  (defaultCompressImpl E).hash4Exact.call E params input

/-- src/lib.rs:794-828 `hash8_exact`. -/
def hash8Exact (E : Env) (params : Params) (input : Vector (List U8) 8) : R (Vector Hash 8) := do
  let len := input[0].length
  let sameLength := input[1].length == len && input[2].length == len && input[3].length == len
    && input[4].length == len && input[5].length == len && input[6].length == len
    && input[7].length == len
  let evenLength := len % BLOCKBYTES == 0
  let nonempty := len != 0
  assert (sameLength && evenLength && nonempty)
  (defaultCompressImpl E).hash8Exact.call E params input

/-- The short-circuiting conjunctions of src/lib.rs:888-903:
`p(input0.len() - count) && p(input1.len() - count) && …`. -/
def allRemaining (p : Nat → Bool) (count : Nat) : List (List U8) → R Bool
  | [] => pure true
  | i :: is => do
    if p (← usizeSub i.length count) then allRemaining p count is else pure false

/-- How the `loop` of src/lib.rs:886-976 ends: by `return` of the eight hashes, or by `break` with the
(still vectorised) state words and `count`. -/
inductive Hash8Exit where
  | ret (hashes : Vector Hash 8)
  | brk (words : Vector StateWords 8) (count : Nat)

/-- The `loop` of src/lib.rs:886-976, with fuel. -/
def hash8Loop (E : Env) (impl : Impl) (params : Vector Params 8) (input : Vector (List U8) 8) :
    Nat → Vector StateWords 8 → Nat → R Hash8Exit
  | 0, _, _ => throw .nonTermination
  | fuel + 1, words, count => do
    let updateAll ← allRemaining (fun n => decide (n > BLOCKBYTES)) count
      [input[0], input[1], input[2], input[3], input[4], input[5], input[6], input[7]]
    let finalizeAll ← allRemaining (fun n => decide (n = BLOCKBYTES)) count
      [input[0], input[1], input[2], input[3], input[4], input[5], input[6], input[7]]
    if !updateAll && !finalizeAll then
      return .brk words count
    else
      let block0 ← arrayRef input[0] count BLOCKBYTES
      let block1 ← arrayRef input[1] count BLOCKBYTES
      let block2 ← arrayRef input[2] count BLOCKBYTES
      let block3 ← arrayRef input[3] count BLOCKBYTES
      let block4 ← arrayRef input[4] count BLOCKBYTES
      let block5 ← arrayRef input[5] count BLOCKBYTES
      let block6 ← arrayRef input[6] count BLOCKBYTES
      let block7 ← arrayRef input[7] count BLOCKBYTES
      let count := count + BLOCKBYTES
      let countLow : U32 := (BitVec.ofNat 64 count).setWidth 32
      let countHigh : U32 := (BitVec.ofNat 64 count >>> 32).setWidth 32
      let lastblock : Vector U32 8 :=
        if finalizeAll then Vector.replicate 8 (~~~ 0) else Vector.replicate 8 0
      let lastnode : Vector U32 8 :=
        if finalizeAll then
          #v[State.flagWord params[0].lastNode, State.flagWord params[1].lastNode,
             State.flagWord params[2].lastNode, State.flagWord params[3].lastNode,
             State.flagWord params[4].lastNode, State.flagWord params[5].lastNode,
             State.flagWord params[6].lastNode, State.flagWord params[7].lastNode]
        else Vector.replicate 8 0
      let words ← impl.compress8Vectorized.call E words
        #v[block0, block1, block2, block3, block4, block5, block6, block7]
        (Vector.replicate 8 countLow) (Vector.replicate 8 countHigh) lastblock lastnode
      if finalizeAll then
        let words ← impl.vectorize8.call E words
        return .ret
          #v[{ bytes := stateWordsToBytes words[0], len := params[0].hashLength },
             { bytes := stateWordsToBytes words[1], len := params[1].hashLength },
             { bytes := stateWordsToBytes words[2], len := params[2].hashLength },
             { bytes := stateWordsToBytes words[3], len := params[3].hashLength },
             { bytes := stateWordsToBytes words[4], len := params[4].hashLength },
             { bytes := stateWordsToBytes words[5], len := params[5].hashLength },
             { bytes := stateWordsToBytes words[6], len := params[6].hashLength },
             { bytes := stateWordsToBytes words[7], len := params[7].hashLength }]
      else
        hash8Loop E impl params input fuel words count

/-- The closure `finish` of src/lib.rs:991-1003. -/
def hash8Finish (E : Env) (impl : Impl) (count : Nat) (params : Params) (words : StateWords)
    (input : List U8) : R Hash := do
  let state : State :=
    { h := words
      buf := Vector.replicate 64 0
      buflen := 0
      count := BitVec.ofNat 64 count
      compressFn := impl.compress
      lastNode := params.lastNode
      hashLength := params.hashLength }
  let rest ← sliceFrom input count
  let state ← state.update E rest
  let (_, hash) ← state.finalize E
  return hash

/-- src/lib.rs:830-1019 `hash8`. -/
def hash8 (E : Env) (params : Vector Params 8) (input : Vector (List U8) 8) : R (Vector Hash 8) := do
  assert (decide (params[0].keyLength = 0))
  assert (decide (params[1].keyLength = 0))
  assert (decide (params[2].keyLength = 0))
  assert (decide (params[3].keyLength = 0))
  assert (decide (params[4].keyLength = 0))
  assert (decide (params[5].keyLength = 0))
  assert (decide (params[6].keyLength = 0))
  assert (decide (params[7].keyLength = 0))
  let impl := defaultCompressImpl E
  let words : Vector StateWords 8 :=
    #v[params[0].makeWords, params[1].makeWords, params[2].makeWords, params[3].makeWords,
       params[4].makeWords, params[5].makeWords, params[6].makeWords, params[7].makeWords]
  let words ← impl.vectorize8.call E words
  let exit ← hash8Loop E impl params input (input[0].length + 1) words 0
  match exit with
  | .ret hashes => return hashes
  | .brk words count =>
    let words ← impl.vectorize8.call E words
    let h0 ← hash8Finish E impl count params[0] words[0] input[0]
    let h1 ← hash8Finish E impl count params[1] words[1] input[1]
    let h2 ← hash8Finish E impl count params[2] words[2] input[2]
    let h3 ← hash8Finish E impl count params[3] words[3] input[3]
    let h4 ← hash8Finish E impl count params[4] words[4] input[4]
    let h5 ← hash8Finish E impl count params[5] words[5] input[5]
    let h6 ← hash8Finish E impl count params[6] words[6] input[6]
    let h7 ← hash8Finish E impl count params[7] words[7] input[7]
    return #v[h0, h1, h2, h3, h4, h5, h6, h7]

end Blake2s
