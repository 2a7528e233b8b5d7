import Verif.Machine
/-!
# What a caught panic leaves behind

In the other model files a panic ends the execution and nothing is said about the objects. A Rust program
can catch a panic (`std::panic::catch_unwind`) and go on using the objects that were borrowed by the
panicking call. Here every function that takes `&mut` is modelled a second time, statement by statement,
with the object as it stands when a panic strikes: `M σ α` is a computation on an object of type `σ`
whose result is a value or a fault, together with the object as it is left in either case.

As in the rest of the model, `x += y` evaluates the (possibly panicking) sum before it stores anything,
and `copy_from_slice` checks its lengths before it copies.
-/

namespace Blake2s

/-- A computation with `&mut` access to a `σ`: the result or the fault, and the `σ` as it is left. Models
the unwinding semantics of Rust for all functions below. -/
def M (σ α : Type) : Type := σ → R α × σ

namespace M

variable {σ α β : Type}

instance : Monad (M σ) where
  pure a := fun s => (.ok a, s)
  bind m f := fun s =>
    match m s with
    | (.ok a, s') => f a s'
    | (.error e, s') => (.error e, s')

/-- An expression that does not change the object.
Unwinding semantics, for src/lib.rs and src/blake2sp.rs as a whole. -/
def lift (r : R α) : M σ α := fun s => (r, s)

/-- Reading the object: Rust's `*self` in the methods of src/lib.rs and src/blake2sp.rs. -/
def get : M σ σ := fun s => (.ok s, s)

/-- Storing into the object: Rust's `self.field = …` in the methods of src/lib.rs and src/blake2sp.rs. -/
def modify (f : σ → σ) : M σ Unit := fun s => (.ok (), f s)

/-- Working on one of eight objects (`state0` … `state7`, `leaf0` … `leaf7`). E.g. src/lib.rs:562-569. -/
def lane (i : Fin 8) (m : M State α) : M (Vector State 8) α := fun v =>
  ((m v[i]).1, v.set i (m v[i]).2)

end M

open M (lift get modify lane)

namespace Params

/-- The setters, src/lib.rs:210-282, statement by statement. -/
def setU : Setter → M Params Unit
  | .hashLength length => do
    lift (assert (decide (1 ≤ length) && decide (length ≤ OUTBYTES)))
    modify fun p => { p with hashLength := BitVec.ofNat 8 length }
  | .key key => do
    lift (assert (decide (key.length ≤ KEYBYTES)))
    modify fun p => { p with keyLength := BitVec.ofNat 8 key.length }
    modify fun p => { p with key := Vector.replicate 32 0 }
    let buf ← lift (copyFromSlice (← get).key 0 key.length key)
    modify fun p => { p with key := buf }
  | .salt salt => do
    lift (assert (decide (salt.length ≤ SALTBYTES)))
    modify fun p => { p with salt := Vector.replicate 8 0 }
    let buf ← lift (copyFromSlice (← get).salt 0 salt.length salt)
    modify fun p => { p with salt := buf }
  | .personal personalization => do
    lift (assert (decide (personalization.length ≤ PERSONALBYTES)))
    modify fun p => { p with personal := Vector.replicate 8 0 }
    let buf ← lift (copyFromSlice (← get).personal 0 personalization.length personalization)
    modify fun p => { p with personal := buf }
  | .fanout fanout => modify fun p => { p with fanout := fanout }
  | .maxDepth depth => do
    lift (assert (decide (depth ≠ 0)))
    modify fun p => { p with maxDepth := depth }
  | .maxLeafLength length => modify fun p => { p with maxLeafLength := length }
  | .nodeOffset offset => do
    lift (assert (decide (offset.toNat < 2 ^ 48)))
    modify fun p => { p with nodeOffset := offset }
  | .nodeDepth depth => modify fun p => { p with nodeDepth := depth }
  | .innerHashLength length => do
    lift (assert (decide (length ≤ OUTBYTES)))
    modify fun p => { p with innerHashLength := BitVec.ofNat 8 length }
  | .lastNode lastNode => modify fun p => { p with lastNode := lastNode }

end Params

namespace State

/-- `self.count += n as u64` (src/lib.rs:343, 369, 562-569; src/blake2sp.rs:196-203). -/
def addCountU (E : Env) (n : Nat) : M State Unit := do
  let count ← lift (addChk E (← get).count (BitVec.ofNat 64 n))
  modify fun s => { s with count := count }

/-- src/lib.rs:339-345 `State::fill_buf`; the result is the rest of the input. -/
def fillBufU (E : Env) (input : List U8) : M State (List U8) := do
  let take := min (← lift (usizeSub BLOCKBYTES (← get).buflen.toNat)) input.length
  let part ← lift (sliceTo input take)
  let s ← get
  let buf ← lift (copyFromSlice s.buf s.buflen.toNat (s.buflen.toNat + take) part)
  modify fun s => { s with buf := buf }
  let buflen ← lift (addChk E (← get).buflen (BitVec.ofNat 8 take))
  modify fun s => { s with buflen := buflen }
  addCountU E take
  lift (sliceFrom input take)

/-- src/lib.rs:350-360 `State::compress_buffer_if_possible`. -/
def compressBufferIfPossibleU (E : Env) (input : List U8) : M State (List U8) := do
  if (← get).buflen.toNat > 0 then
    let input ← fillBufU E input
    if !input.isEmpty then
      let s ← get
      let h ← lift (s.compressFn.call E s.h s.buf s.count 0 0)
      modify fun s => { s with h := h }
      modify fun s => { s with buflen := 0 }
      return input
    else
      return input
  else
    return input

/-- The `while` loop of src/lib.rs:368-375, with fuel. -/
def updateLoopU (E : Env) : Nat → List U8 → M State (List U8)
  | 0, _ => lift (throw .nonTermination)
  | fuel + 1, input =>
    if input.length > BLOCKBYTES then do
      addCountU E BLOCKBYTES
      let block ← lift (arrayRef input 0 BLOCKBYTES)
      let s ← get
      let h ← lift (s.compressFn.call E s.h block s.count 0 0)
      modify fun s => { s with h := h }
      let input ← lift (sliceFrom input BLOCKBYTES)
      updateLoopU E fuel input
    else
      pure input

/-- src/lib.rs:363-385 `State::update`. -/
def updateU (E : Env) (input : List U8) : M State Unit := do
  let input ← compressBufferIfPossibleU E input
  let input ← updateLoopU E (input.length + 1) input
  let _ ← fillBufU E input

/-- src/lib.rs:389-402 `State::finalize`. -/
def finalizeU (E : Env) : M State Hash := do
  modify fun s => { s with buf := zeroTail s.buf s.buflen }
  let s ← get
  let hCopy ← lift (s.compressFn.call E s.h s.buf s.count (~~~ 0) (flagWord s.lastNode))
  return { bytes := stateWordsToBytes hCopy, len := s.hashLength }

end State

/-- The `while` loop of src/lib.rs:552-622, with fuel. -/
def update8LoopU (E : Env) (fn : Compress8Fn) : Nat → Vector (List U8) 8 →
    M (Vector State 8) (Vector (List U8) 8)
  | 0, _ => lift (throw .nonTermination)
  | fuel + 1, input =>
    if input[0].length > BLOCKBYTES
        && input[1].length > BLOCKBYTES
        && input[2].length > BLOCKBYTES
        && input[3].length > BLOCKBYTES
        && input[4].length > BLOCKBYTES
        && input[5].length > BLOCKBYTES
        && input[6].length > BLOCKBYTES
        && input[7].length > BLOCKBYTES then do
      lane 0 (State.addCountU E BLOCKBYTES)
      lane 1 (State.addCountU E BLOCKBYTES)
      lane 2 (State.addCountU E BLOCKBYTES)
      lane 3 (State.addCountU E BLOCKBYTES)
      lane 4 (State.addCountU E BLOCKBYTES)
      lane 5 (State.addCountU E BLOCKBYTES)
      lane 6 (State.addCountU E BLOCKBYTES)
      lane 7 (State.addCountU E BLOCKBYTES)
      let m0 ← lift (arrayRef input[0] 0 BLOCKBYTES)
      let m1 ← lift (arrayRef input[1] 0 BLOCKBYTES)
      let m2 ← lift (arrayRef input[2] 0 BLOCKBYTES)
      let m3 ← lift (arrayRef input[3] 0 BLOCKBYTES)
      let m4 ← lift (arrayRef input[4] 0 BLOCKBYTES)
      let m5 ← lift (arrayRef input[5] 0 BLOCKBYTES)
      let m6 ← lift (arrayRef input[6] 0 BLOCKBYTES)
      let m7 ← lift (arrayRef input[7] 0 BLOCKBYTES)
      let st ← get
      let h ← lift (fn.call E
        #v[st[0].h, st[1].h, st[2].h, st[3].h, st[4].h, st[5].h, st[6].h, st[7].h]
        #v[m0, m1, m2, m3, m4, m5, m6, m7]
        #v[st[0].count, st[1].count, st[2].count, st[3].count,
           st[4].count, st[5].count, st[6].count, st[7].count]
        #v[0, 0, 0, 0, 0, 0, 0, 0]
        #v[0, 0, 0, 0, 0, 0, 0, 0])
      modify fun st =>
        #v[{ st[0] with h := h[0] }, { st[1] with h := h[1] },
           { st[2] with h := h[2] }, { st[3] with h := h[3] },
           { st[4] with h := h[4] }, { st[5] with h := h[5] },
           { st[6] with h := h[6] }, { st[7] with h := h[7] }]
      let i0 ← lift (sliceFrom input[0] BLOCKBYTES)
      let i1 ← lift (sliceFrom input[1] BLOCKBYTES)
      let i2 ← lift (sliceFrom input[2] BLOCKBYTES)
      let i3 ← lift (sliceFrom input[3] BLOCKBYTES)
      let i4 ← lift (sliceFrom input[4] BLOCKBYTES)
      let i5 ← lift (sliceFrom input[5] BLOCKBYTES)
      let i6 ← lift (sliceFrom input[6] BLOCKBYTES)
      let i7 ← lift (sliceFrom input[7] BLOCKBYTES)
      update8LoopU E fn fuel #v[i0, i1, i2, i3, i4, i5, i6, i7]
    else
      pure input

/-- src/lib.rs:523-634 `update8`. -/
def update8U (E : Env) (input : Vector (List U8) 8) : M (Vector State 8) Unit := do
  let i0 ← lane 0 (State.compressBufferIfPossibleU E input[0])
  let i1 ← lane 1 (State.compressBufferIfPossibleU E input[1])
  let i2 ← lane 2 (State.compressBufferIfPossibleU E input[2])
  let i3 ← lane 3 (State.compressBufferIfPossibleU E input[3])
  let i4 ← lane 4 (State.compressBufferIfPossibleU E input[4])
  let i5 ← lane 5 (State.compressBufferIfPossibleU E input[5])
  let i6 ← lane 6 (State.compressBufferIfPossibleU E input[6])
  let i7 ← lane 7 (State.compressBufferIfPossibleU E input[7])
  let input ← update8LoopU E (defaultCompressImpl E).compress8 (i0.length + 1)
    #v[i0, i1, i2, i3, i4, i5, i6, i7]
  lane 0 (State.updateU E input[0])
  lane 1 (State.updateU E input[1])
  lane 2 (State.updateU E input[2])
  lane 3 (State.updateU E input[3])
  lane 4 (State.updateU E input[4])
  lane 5 (State.updateU E input[5])
  lane 6 (State.updateU E input[6])
  lane 7 (State.updateU E input[7])

/-- src/lib.rs:636-770 `finalize8`. -/
def finalize8U (E : Env) : M (Vector State 8) (Vector Hash 8) := do
  lane 0 (modify fun s => { s with buf := State.zeroTail s.buf s.buflen })
  lane 1 (modify fun s => { s with buf := State.zeroTail s.buf s.buflen })
  lane 2 (modify fun s => { s with buf := State.zeroTail s.buf s.buflen })
  lane 3 (modify fun s => { s with buf := State.zeroTail s.buf s.buflen })
  lane 4 (modify fun s => { s with buf := State.zeroTail s.buf s.buflen })
  lane 5 (modify fun s => { s with buf := State.zeroTail s.buf s.buflen })
  lane 6 (modify fun s => { s with buf := State.zeroTail s.buf s.buflen })
  lane 7 (modify fun s => { s with buf := State.zeroTail s.buf s.buflen })
  let s ← get
  let h ← lift ((defaultCompressImpl E).compress8.call E
    #v[s[0].h, s[1].h, s[2].h, s[3].h, s[4].h, s[5].h, s[6].h, s[7].h]
    #v[s[0].buf, s[1].buf, s[2].buf, s[3].buf, s[4].buf, s[5].buf, s[6].buf, s[7].buf]
    #v[s[0].count, s[1].count, s[2].count, s[3].count, s[4].count, s[5].count, s[6].count, s[7].count]
    #v[~~~ 0, ~~~ 0, ~~~ 0, ~~~ 0, ~~~ 0, ~~~ 0, ~~~ 0, ~~~ 0]
    #v[State.flagWord s[0].lastNode, State.flagWord s[1].lastNode, State.flagWord s[2].lastNode,
       State.flagWord s[3].lastNode, State.flagWord s[4].lastNode, State.flagWord s[5].lastNode,
       State.flagWord s[6].lastNode, State.flagWord s[7].lastNode])
  return #v[{ bytes := stateWordsToBytes h[0], len := s[0].hashLength },
    { bytes := stateWordsToBytes h[1], len := s[1].hashLength },
    { bytes := stateWordsToBytes h[2], len := s[2].hashLength },
    { bytes := stateWordsToBytes h[3], len := s[3].hashLength },
    { bytes := stateWordsToBytes h[4], len := s[4].hashLength },
    { bytes := stateWordsToBytes h[5], len := s[5].hashLength },
    { bytes := stateWordsToBytes h[6], len := s[6].hashLength },
    { bytes := stateWordsToBytes h[7], len := s[7].hashLength }]

namespace Sp

/-- The setters of `blake2sp::Params`, src/blake2sp.rs:34-50, statement by statement. -/
def Params.setU : Setter → M Params Unit
  | .hashLength length => do
    lift (assert (decide (1 ≤ length) && decide (length ≤ OUTBYTES)))
    modify fun p => { p with hashLength := BitVec.ofNat 8 length }
  | .key key => do
    lift (assert (decide (key.length ≤ KEYBYTES)))
    modify fun p => { p with keyLength := BitVec.ofNat 8 key.length }
    modify fun p => { p with key := Vector.replicate 32 0 }
    let buf ← lift (copyFromSlice (← get).key 0 key.length key)
    modify fun p => { p with key := buf }

namespace State

/-- Working on the leaves of a `blake2sp::State`. E.g. src/blake2sp.rs:266-277. -/
def leavesU {α : Type} (m : M (Vector Blake2s.State 8) α) : M State α := fun s =>
  ((m s.leaves).1, { s with leaves := (m s.leaves).2 })

/-- src/blake2sp.rs:159-164 `State::fill_buf`. -/
def fillBufU (E : Env) (input : List U8) : M State (List U8) := do
  let take := min (← lift (usizeSub 1024 (← get).buflen.toNat)) input.length
  let part ← lift (sliceTo input take)
  let s ← get
  let buf ← lift (copyFromSlice s.buf s.buflen.toNat (s.buflen.toNat + take) part)
  modify fun s => { s with buf := buf }
  let buflen ← lift (addChk E (← get).buflen (BitVec.ofNat 16 take))
  modify fun s => { s with buflen := buflen }
  lift (sliceFrom input take)

/-- src/blake2sp.rs:166-252 `State::compress8`. -/
def compress8U (E : Env) (input : Vector U8 512) (fn : Compress8Fn) :
    M (Vector Blake2s.State 8) Unit := do
  let lf ← get
  lift (debugAssert E (decide (0 = lf[0].buflen)))
  lift (debugAssert E (decide (0 = lf[1].buflen)))
  lift (debugAssert E (decide (0 = lf[2].buflen)))
  lift (debugAssert E (decide (0 = lf[3].buflen)))
  lift (debugAssert E (decide (0 = lf[4].buflen)))
  lift (debugAssert E (decide (0 = lf[5].buflen)))
  lift (debugAssert E (decide (0 = lf[6].buflen)))
  lift (debugAssert E (decide (0 = lf[7].buflen)))
  lift (debugAssert E (decide (lf[0].count = lf[1].count)))
  lift (debugAssert E (decide (lf[0].count = lf[2].count)))
  lift (debugAssert E (decide (lf[0].count = lf[3].count)))
  lift (debugAssert E (decide (lf[0].count = lf[4].count)))
  lift (debugAssert E (decide (lf[0].count = lf[5].count)))
  lift (debugAssert E (decide (lf[0].count = lf[6].count)))
  lift (debugAssert E (decide (lf[0].count = lf[7].count)))
  lane 0 (Blake2s.State.addCountU E BLOCKBYTES)
  lane 1 (Blake2s.State.addCountU E BLOCKBYTES)
  lane 2 (Blake2s.State.addCountU E BLOCKBYTES)
  lane 3 (Blake2s.State.addCountU E BLOCKBYTES)
  lane 4 (Blake2s.State.addCountU E BLOCKBYTES)
  lane 5 (Blake2s.State.addCountU E BLOCKBYTES)
  lane 6 (Blake2s.State.addCountU E BLOCKBYTES)
  lane 7 (Blake2s.State.addCountU E BLOCKBYTES)
  let lf ← get
  let h ← lift (fn.call E
    #v[lf[0].h, lf[1].h, lf[2].h, lf[3].h, lf[4].h, lf[5].h, lf[6].h, lf[7].h]
    #v[subArray input 0 64, subArray input 64 64, subArray input 128 64, subArray input 192 64,
       subArray input 256 64, subArray input 320 64, subArray input 384 64, subArray input 448 64]
    #v[lf[0].count, lf[1].count, lf[2].count, lf[3].count,
       lf[4].count, lf[5].count, lf[6].count, lf[7].count]
    #v[0, 0, 0, 0, 0, 0, 0, 0]
    #v[0, 0, 0, 0, 0, 0, 0, 0])
  modify fun lf =>
    #v[{ lf[0] with h := h[0] }, { lf[1] with h := h[1] },
       { lf[2] with h := h[2] }, { lf[3] with h := h[3] },
       { lf[4] with h := h[4] }, { lf[5] with h := h[5] },
       { lf[6] with h := h[6] }, { lf[7] with h := h[7] }]

/-- The buffer-completing part of `update`, src/blake2sp.rs:260-302. -/
def updateBufferedU (E : Env) (input : List U8) : M State (List U8) := do
  if (← get).buflen.toNat > 0 then
    let input ← fillBufU E input
    if !input.isEmpty then
      let s ← get
      leavesU (compress8U E (subArray s.buf 0 512) s.compress8Fn)
      let buflen ← lift (subChk E (← get).buflen (8 * BitVec.ofNat 16 BLOCKBYTES))
      modify fun s => { s with buflen := buflen }
      if input.length > 7 * BLOCKBYTES then
        let s ← get
        leavesU (compress8U E (subArray s.buf 512 512) s.compress8Fn)
        modify fun s => { s with buflen := 0 }
        return input
      else
        let s ← get
        let right : Vector U8 512 := subArray s.buf 512 512
        let part ← lift (sliceTo right.toList s.buflen.toNat)
        let left ← lift (copyFromSlice (subArray s.buf 0 512) 0 s.buflen.toNat part)
        modify fun s => { s with buf := left ++ right }
        return input
    else
      return input
  else
    return input

/-- The `while` loop of src/blake2sp.rs:307-322, with fuel. -/
def updateLoopU (E : Env) : Nat → List U8 → M State (List U8)
  | 0, _ => lift (throw .nonTermination)
  | fuel + 1, input =>
    if input.length > 15 * BLOCKBYTES then do
      let block ← lift (arrayRef input 0 512)
      leavesU (compress8U E block (← get).compress8Fn)
      let input ← lift (sliceFrom input (8 * BLOCKBYTES))
      updateLoopU E fuel input
    else
      pure input

/-- src/blake2sp.rs:255-328 `State::update`. -/
def updateU (E : Env) (input : List U8) : M State Unit := do
  let input ← updateBufferedU E input
  let input ← updateLoopU E (input.length + 1) input
  let input ← fillBufU E input
  lift (debugAssert E (decide (0 = input.length)))

end State
end Sp

/-! ## Programs that catch every panic -/

/-- The calls that feed bytes to a state (`update` at src/lib.rs:363, `write` at src/lib.rs:441, `update8`
at src/lib.rs:523, `update` and `write` at src/blake2sp.rs:255, 406);
a panic of theirs can leave a state with a part of them. Every other call leaves all variables as they were
if it panics (`C44_unchanged`). -/
def Call.updates : Call → Bool
  | .update .. | .write .. | .update8 .. | .spUpdate .. | .spWrite .. => true
  | _ => false

namespace World

/-- A call that works on one variable: the variable keeps what the call left in it
(Rust's `&mut` argument after `std::panic::catch_unwind`). -/
def onOne {τ α : Type} (get : World → Nat → τ) (put : World → Nat → τ → World) (i : Nat) (m : M τ α) :
    M World α := fun w => ((m (get w i)).1, put w i (m (get w i)).2)

/-- A call on one `Params` (src/lib.rs:179-283). -/
def onParams {α : Type} (i : Nat) (m : M Params α) : M World α :=
  onOne World.params (fun w i x => { w with params := assign w.params i x }) i m

/-- A call on one `State` (src/lib.rs:316-449). -/
def onState {α : Type} (i : Nat) (m : M State α) : M World α :=
  onOne World.state (fun w i x => { w with state := assign w.state i x }) i m

/-- A call on one `blake2sp::Params` (src/blake2sp.rs:25-51). -/
def onSpParams {α : Type} (i : Nat) (m : M Sp.Params α) : M World α :=
  onOne World.spParams (fun w i x => { w with spParams := assign w.spParams i x }) i m

/-- A call on one `blake2sp::State` (src/blake2sp.rs:92-414). -/
def onSpState {α : Type} (i : Nat) (m : M Sp.State α) : M World α :=
  onOne World.spState (fun w i x => { w with spState := assign w.spState i x }) i m

/-- A call on eight `State`s (src/lib.rs:523-770). -/
def onStates {α : Type} (is : Vector Nat 8) (m : M (Vector State 8) α) : M World α := fun w =>
  ((m (is.map w.state)).1, { w with state := assignAll w.state is (m (is.map w.state)).2 })

/-- A call of a function of src/lib.rs or src/blake2sp.rs that takes no `&mut`, or changes nothing before it has succeeded: what it returns
or creates reaches a variable only if it returns. -/
def callPlain (E : Env) (c : Call) : M World Out := fun w =>
  match w.call E c with
  | .ok (w', o) => (.ok o, w')
  | .error f => (.error f, w)

/-- One call of a public function of src/lib.rs or src/blake2sp.rs. -/
def callU (E : Env) : Call → M World Out
  | .set p c => do onParams p (Params.setU c); return .unit
  | .update s input => do onState s (State.updateU E input); return .unit
  | .write s input => do onState s (State.updateU E input); return .length input.length
  | .finalize s h => do
    let d ← onState s (State.finalizeU E)
    modify fun w => { w with hash := assign w.hash h d }
    return .unit
  | .update8 s input => do onStates s (update8U E input); return .unit
  | .finalize8 s h => do
    let ds ← onStates s (finalize8U E)
    modify fun w => { w with hash := assignAll w.hash h ds }
    return .unit
  | .spSet p c => do onSpParams p (Sp.Params.setU c); return .unit
  | .spUpdate s input => do onSpState s (Sp.State.updateU E input); return .unit
  | .spWrite s input => do onSpState s (Sp.State.updateU E input); return .length input.length
  | c => callPlain E c

/-- Running a program in which every call is wrapped in `std::panic::catch_unwind`: the output or the panic of every
call. -/
def runU (E : Env) (w : World) : List Call → List (R Out)
  | [] => []
  | c :: cs => (callU E c w).1 :: runU E (callU E c w).2 cs

end World

/-- A Rust program that catches every panic, run from the start. -/
def caught (E : Env) (calls : List Call) : R (List (R Out)) := do
  let w ← World.init E
  return w.runU E calls

end Blake2s
