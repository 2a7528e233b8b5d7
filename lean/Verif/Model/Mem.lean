import Verif.Model.State
/-!
# The unsafe code at the level of memory

The functions of src/sse41.rs and src/avx2.rs once more, with their objects as bytes in memory at arbitrary
addresses, every raw pointer with the range of bytes it may be used for, and every access checked against
that range and against the alignment it needs. Vectors held in local variables are values. The arithmetic
between the accesses is that of Verif/Model/Sse41.lean and Verif/Model/Avx2.lean.

`&a[i]` coerced to a raw pointer is a pointer to one element. Whether such a pointer may be used for the
rest of the array is not settled in Rust; the model has both rules, as a parameter.
-/

namespace Blake2s.Mem

open X86

/-- The bytes in memory. For src/sse41.rs and src/avx2.rs as a whole. -/
abbrev Memory := Nat → U8

/-- What can be wrong with an access. For src/sse41.rs and src/avx2.rs as a whole. -/
inductive Fault where
  /-- an access, or the result of `add`, outside the range of the pointer -/
  | outOfRange
  /-- a reference to vectors at an address that is not a multiple of 32 -/
  | misaligned
  /-- a loop out of fuel -/
  | nonTermination
  /-- not a wrong access: a failed `assert!` of src/lib.rs:785-788 and 817-820 -/
  | panic
deriving DecidableEq

/-- A raw pointer: it points `off` bytes behind the address `base`, and may be used for the bytes from
`lo` to before `hi`, counted from `base`. For src/sse41.rs and src/avx2.rs as a whole. -/
structure Ptr where
  base : Nat
  off : Nat
  lo : Nat
  hi : Nat

/-- For what a pointer made from a reference to an array element may be used.
For src/sse41.rs:129-134, 369-370 and 675-683. -/
inductive Rule where
  /-- for all elements of the array -/
  | array
  /-- for that element -/
  | element
deriving DecidableEq

/-- Computations on memory. For src/sse41.rs and src/avx2.rs as a whole. -/
def M (α : Type) : Type := Memory → Except Fault (α × Memory)

/-- One computation after the other. For src/sse41.rs and src/avx2.rs as a whole. -/
def M.andThen {α β : Type} (x : M α) (f : α → M β) : M β := fun m =>
  match x m with
  | .ok (a, m') => f a m'
  | .error e => .error e

instance : Monad M where
  pure a := fun m => .ok (a, m)
  bind := M.andThen

/-- Ending in a fault. For src/sse41.rs and src/avx2.rs as a whole. -/
def fail {α : Type} (e : Fault) : M α := fun _ => .error e

/-- The `n` bytes at address `a`. For src/sse41.rs and src/avx2.rs as a whole. -/
def bytesAt (m : Memory) (a n : Nat) : Vector U8 n := Vector.ofFn fun i => m (a + i.val)

/-- Memory after writing bytes at address `a`. For src/sse41.rs and src/avx2.rs as a whole. -/
def write {n : Nat} (m : Memory) (a : Nat) (b : Vector U8 n) : Memory := fun x =>
  if h : a ≤ x ∧ x - a < n then b[x - a]'h.2 else m x

/-- The little-endian `u32` at address `a`. For src/sse41.rs and src/avx2.rs as a whole. -/
def wordAt (m : Memory) (a : Nat) : U32 := readU32LE (bytesAt m a 4)

/-- The `[u32; 8]` at address `a`. For src/sse41.rs and src/avx2.rs as a whole. -/
def wordsAt (m : Memory) (a : Nat) : StateWords := Vector.ofFn fun i => wordAt m (a + 4 * i.val)

/-- The `[u8; 64]` at address `a`. For src/sse41.rs and src/avx2.rs as a whole. -/
def blockAt (m : Memory) (a : Nat) : Block := bytesAt m a 64

/-- The `[AlignedWords8; 8]` at address `a`. The type is src/lib.rs:141-143. -/
def states8At (m : Memory) (a : Nat) : Vector StateWords 8 := Vector.ofFn fun i => wordsAt m (a + 32 * i.val)

/-- `a.as_ptr()` of an array or slice of `size` bytes at address `a`. E.g. src/sse41.rs:137. -/
def asPtr (a size : Nat) : Ptr := ⟨a, 0, 0, size⟩

/-- `&a[i]` as a raw pointer, in an array of `size` bytes at address `a` with elements of `esize` bytes.
E.g. src/sse41.rs:129. -/
def elemPtr (rule : Rule) (a size esize i : Nat) : Ptr :=
  match rule with
  | .array => ⟨a, esize * i, 0, size⟩
  | .element => ⟨a, esize * i, esize * i, esize * i + esize⟩

/-- `p.add(n)`, with `n` in bytes. The result must stay in range or be one past its end.
E.g. src/sse41.rs:138. -/
def Ptr.add (p : Ptr) (n : Nat) : M Ptr :=
  if p.off + n ≤ p.hi then pure { p with off := p.off + n } else fail .outOfRange

/-- Access to `n` bytes at `p` is allowed. For src/sse41.rs and src/avx2.rs as a whole. -/
def Ptr.covers (p : Ptr) (n : Nat) : Bool := decide (p.lo ≤ p.off) && decide (p.off + n ≤ p.hi)

/-- `_mm_loadu_si128(p)`. Called at src/sse41.rs:10, 16-19. -/
def loadu128 (p : Ptr) : M M128 :=
  if p.covers 16 then fun m => .ok (mm_loadu_bytes (bytesAt m (p.base + p.off) 16), m)
  else fail .outOfRange

/-- `_mm_storeu_si128(p, x)`. Called at src/sse41.rs:25. -/
def storeu128 (p : Ptr) (x : M128) : M Unit :=
  if p.covers 16 then fun m => .ok ((), write m (p.base + p.off) (mm_storeu_bytes x))
  else fail .outOfRange

/-- `_mm256_loadu_si256(p)`. Called at src/avx2.rs:19, 370-371. -/
def loadu256 (p : Ptr) : M M256 :=
  if p.covers 32 then fun m => .ok (mm256_loadu_bytes (bytesAt m (p.base + p.off) 32), m)
  else fail .outOfRange

/-- `&*(p as *const Block)`: the address of the block, which must be in range; there is no requirement on
alignment. E.g. src/sse41.rs:738. -/
def blockRef (p : Ptr) : M Nat :=
  if p.covers 64 then pure (p.base + p.off) else fail .outOfRange

/-- `&mut *(words as *mut _ as *mut [__m256i; 8])`: the address, which must be a multiple of 32.
Used at src/avx2.rs:441 and 573. -/
def vecsRef (p : Ptr) : M Nat :=
  if p.covers 256 then
    if (p.base + p.off) % 32 = 0 then pure (p.base + p.off) else fail .misaligned
  else fail .outOfRange

/-- Reading `vecs[i]` of `vecs: &mut [__m256i; 8]`. Used at src/avx2.rs:404-411. -/
def readVec (vecs : Nat) (i : Nat) : M M256 := fun m =>
  .ok (mm256_loadu_bytes (bytesAt m (vecs + 32 * i) 32), m)

/-- Reading all of `vecs: &[__m256i; 8]`. Used at src/avx2.rs:404-411 and 615-622. -/
def readVecs (vecs : Nat) : M (Vector M256 8) := do
  let v0 ← readVec vecs 0
  let v1 ← readVec vecs 1
  let v2 ← readVec vecs 2
  let v3 ← readVec vecs 3
  let v4 ← readVec vecs 4
  let v5 ← readVec vecs 5
  let v6 ← readVec vecs 6
  let v7 ← readVec vecs 7
  return #v[v0, v1, v2, v3, v4, v5, v6, v7]

/-- `vecs[i] = x`. Used at src/avx2.rs:429-436 and 644-651. -/
def writeVec (vecs : Nat) (i : Nat) (x : M256) : M Unit := fun m =>
  .ok ((), write m (vecs + 32 * i) (mm256_to_bytes x))

/-- The eight assignments `vecs[i] = …`. Used at src/avx2.rs:429-436 and 644-651. -/
def writeVecs (vecs : Nat) (x : Vector M256 8) : M Unit := do
  writeVec vecs 0 x[0]
  writeVec vecs 1 x[1]
  writeVec vecs 2 x[2]
  writeVec vecs 3 x[3]
  writeVec vecs 4 x[4]
  writeVec vecs 5 x[5]
  writeVec vecs 6 x[6]
  writeVec vecs 7 x[7]

/-- `*h = mem::transmute(x)` for `h: &mut StateWords`. Used at src/avx2.rs:317-324. -/
def assignWords (h : Nat) (x : M256) : M Unit := fun m => .ok ((), write m h (mm256_to_bytes x))

/-- `mem::transmute(*w)` for `w: &AlignedWords8`. Used at src/avx2.rs:580-583. -/
def transmuteWords (w : Nat) : M M256 := fun m => .ok (mm256_loadu_bytes (bytesAt m w 32), m)

/-! ## src/sse41.rs -/

namespace Sse41

open Blake2s.Sse41

/-- src/sse41.rs:128-371 `compress`. `iv` is the address of the static `IV`. -/
def compress (rule : Rule) (iv h msg : Nat) (count : U64) (lastblock lastnode : U32) : M Unit := do
  let row1 ← loadu128 (elemPtr rule h 32 4 0)
  let row2 ← loadu128 (elemPtr rule h 32 4 4)
  let row3 ← loadu128 (elemPtr rule iv 32 4 0)
  let row4 := xor (← loadu128 (elemPtr rule iv 32 4 4))
    (setr (count.setWidth 32) ((count >>> 32).setWidth 32) lastblock lastnode)
  let m0 ← loadu128 (← (asPtr msg 64).add 0)
  let m1 ← loadu128 (← (asPtr msg 64).add 16)
  let m2 ← loadu128 (← (asPtr msg 64).add 32)
  let m3 ← loadu128 (← (asPtr msg 64).add 48)
  let row : Rows := ⟨row1, row2, row3, row4⟩
  let row := round1 m0 m1 m2 m3 row
  let row := round2 m0 m1 m2 m3 row
  let row := round3 m0 m1 m2 m3 row
  let row := round4 m0 m1 m2 m3 row
  let row := round5 m0 m1 m2 m3 row
  let row := round6 m0 m1 m2 m3 row
  let row := round7 m0 m1 m2 m3 row
  let row := round8 m0 m1 m2 m3 row
  let row := round9 m0 m1 m2 m3 row
  let row := round10 m0 m1 m2 m3 row
  storeu128 (elemPtr rule h 32 4 0)
    (xor (← loadu128 (elemPtr rule h 32 4 0)) (xor row.row1 row.row3))
  storeu128 (elemPtr rule h 32 4 4)
    (xor (← loadu128 (elemPtr rule h 32 4 4)) (xor row.row2 row.row4))

/-- src/sse41.rs:14-21 `loadu_4`. -/
def loadu4 (p : Ptr) : M (Vector M128 4) := do
  let v0 ← loadu128 (← p.add 0)
  let v1 ← loadu128 (← p.add 16)
  let v2 ← loadu128 (← p.add 32)
  let v3 ← loadu128 (← p.add 48)
  return #v[v0, v1, v2, v3]

/-- src/sse41.rs:442-476 `transpose_message_blocks`. -/
def transposeMessageBlocks (msg : Vector Nat 4) : M (Vector M128 16) := do
  let a ← loadu4 (asPtr msg[0] 64)
  let b ← loadu4 (asPtr msg[1] 64)
  let c ← loadu4 (asPtr msg[2] 64)
  let d ← loadu4 (asPtr msg[3] 64)
  let transposed0 := transposeVecs a[0] b[0] c[0] d[0]
  let transposed1 := transposeVecs a[1] b[1] c[1] d[1]
  let transposed2 := transposeVecs a[2] b[2] c[2] d[2]
  let transposed3 := transposeVecs a[3] b[3] c[3] d[3]
  return #v[transposed0[0], transposed0[1], transposed0[2], transposed0[3],
     transposed1[0], transposed1[1], transposed1[2], transposed1[3],
     transposed2[0], transposed2[1], transposed2[2], transposed2[3],
     transposed3[0], transposed3[1], transposed3[2], transposed3[3]]

/-- src/sse41.rs:596-647 `compress4_transposed_inline`. The state vectors are a local variable of the
caller. -/
def compress4Transposed (h_vecs : Vector M128 8) (msg : Vector Nat 4)
    (count_low count_high lastblock lastnode : M128) : M (Vector M128 8) := do
  let v : Vector M128 16 :=
    #v[h_vecs[0], h_vecs[1], h_vecs[2], h_vecs[3], h_vecs[4], h_vecs[5], h_vecs[6], h_vecs[7],
       set1 IV[0], set1 IV[1], set1 IV[2], set1 IV[3],
       xor (set1 IV[4]) count_low,
       xor (set1 IV[5]) count_high,
       xor (set1 IV[6]) lastblock,
       xor (set1 IV[7]) lastnode]
  let msg_vecs ← transposeMessageBlocks msg
  let v := round_4 v msg_vecs 0
  let v := round_4 v msg_vecs 1
  let v := round_4 v msg_vecs 2
  let v := round_4 v msg_vecs 3
  let v := round_4 v msg_vecs 4
  let v := round_4 v msg_vecs 5
  let v := round_4 v msg_vecs 6
  let v := round_4 v msg_vecs 7
  let v := round_4 v msg_vecs 8
  let v := round_4 v msg_vecs 9
  return #v[xor (xor h_vecs[0] v[0]) v[8],
     xor (xor h_vecs[1] v[1]) v[9],
     xor (xor h_vecs[2] v[2]) v[10],
     xor (xor h_vecs[3] v[3]) v[11],
     xor (xor h_vecs[4] v[4]) v[12],
     xor (xor h_vecs[5] v[5]) v[13],
     xor (xor h_vecs[6] v[6]) v[14],
     xor (xor h_vecs[7] v[7]) v[15]]

/-- A local array `[0; OUTBYTES]` at address `a`. Used at src/sse41.rs:669-672. -/
def zeroArray (a : Nat) : M Unit := fun m => .ok ((), write m a (Vector.replicate 32 0 : Vector U8 32))

/-- Reading a local array of 32 bytes. Used at src/sse41.rs:687-702. -/
def readArray (a : Nat) : M (Vector U8 32) := fun m => .ok (bytesAt m a 32, m)

/-- src/sse41.rs:668-704 `export_hashes`. `bytes` are the addresses of its four local arrays. -/
def exportHashes (rule : Rule) (bytes : Vector Nat 4) (h_vecs : Vector M128 8) (hash_length : U8) :
    M (Vector Hash 4) := do
  zeroArray bytes[0]
  zeroArray bytes[1]
  zeroArray bytes[2]
  zeroArray bytes[3]
  let deinterleaved_lo := transposeVecs h_vecs[0] h_vecs[1] h_vecs[2] h_vecs[3]
  storeu128 (elemPtr rule bytes[0] 32 1 0) deinterleaved_lo[0]
  storeu128 (elemPtr rule bytes[1] 32 1 0) deinterleaved_lo[1]
  storeu128 (elemPtr rule bytes[2] 32 1 0) deinterleaved_lo[2]
  storeu128 (elemPtr rule bytes[3] 32 1 0) deinterleaved_lo[3]
  let deinterleaved_hi := transposeVecs h_vecs[4] h_vecs[5] h_vecs[6] h_vecs[7]
  storeu128 (elemPtr rule bytes[0] 32 1 16) deinterleaved_hi[0]
  storeu128 (elemPtr rule bytes[1] 32 1 16) deinterleaved_hi[1]
  storeu128 (elemPtr rule bytes[2] 32 1 16) deinterleaved_hi[2]
  storeu128 (elemPtr rule bytes[3] 32 1 16) deinterleaved_hi[3]
  let b0 ← readArray bytes[0]
  let b1 ← readArray bytes[1]
  let b2 ← readArray bytes[2]
  let b3 ← readArray bytes[3]
  return #v[{ len := hash_length, bytes := b0 }, { len := hash_length, bytes := b1 },
            { len := hash_length, bytes := b2 }, { len := hash_length, bytes := b3 }]

/-- The `loop` of src/sse41.rs:734-765, with fuel. The inputs are given by address and length. -/
def hash4ExactLoop (rule : Rule) (bytes : Vector Nat 4) (params : Params) (input : Vector (Nat × Nat) 4)
    (len : Nat) : Nat → Vector M128 8 → Nat → M (Vector Hash 4)
  | 0, _, _ => fail .nonTermination
  | fuel + 1, h_vecs, count => do
    let msg0 ← blockRef (← (asPtr input[0].1 input[0].2).add count)
    let msg1 ← blockRef (← (asPtr input[1].1 input[1].2).add count)
    let msg2 ← blockRef (← (asPtr input[2].1 input[2].2).add count)
    let msg3 ← blockRef (← (asPtr input[3].1 input[3].2).add count)
    let count := count + BLOCKBYTES
    let count_low := set1 ((BitVec.ofNat 64 count).setWidth 32)
    let count_high := set1 ((BitVec.ofNat 64 count >>> 32).setWidth 32)
    let lastblock := set1 (if count = len then ~~~ 0 else 0)
    let lastnode := set1 (if params.lastNode ∧ count = len then ~~~ 0 else 0)
    let h_vecs ← compress4Transposed h_vecs #v[msg0, msg1, msg2, msg3]
      count_low count_high lastblock lastnode
    if count = len then
      exportHashes rule bytes h_vecs params.hashLength
    else
      hash4ExactLoop rule bytes params input len fuel h_vecs count

/-- src/sse41.rs:707-766 `hash4_exact`. `bytes` are the addresses of the local arrays of
`export_hashes`. -/
def hash4Exact (rule : Rule) (bytes : Vector Nat 4) (params : Params) (input : Vector (Nat × Nat) 4) :
    M (Vector Hash 4) :=
  let w := params.makeWords
  let h_vecs : Vector M128 8 :=
    #v[set1 w[0], set1 w[1], set1 w[2], set1 w[3], set1 w[4], set1 w[5], set1 w[6], set1 w[7]]
  let len := input[0].2
  hash4ExactLoop rule bytes params input len (len + 1) h_vecs 0

end Sse41

/-! ## src/avx2.rs -/

namespace Avx2

open Blake2s.Avx2

/-- src/avx2.rs:368-373 `load_2x256`. -/
def load2x256 (msg : Nat) : M (M256 × M256) := do
  let front ← loadu256 (asPtr msg 64)
  let back ← loadu256 (← (asPtr msg 64).add 32)
  return (front, back)

/-- src/avx2.rs:506-552 `load_msg_vecs_interleave`. -/
def loadMsgVecsInterleave (msg : Vector Nat 8) : M (Vector M256 16) := do
  let a ← load2x256 msg[0]
  let b ← load2x256 msg[1]
  let c ← load2x256 msg[2]
  let d ← load2x256 msg[3]
  let e ← load2x256 msg[4]
  let f ← load2x256 msg[5]
  let g ← load2x256 msg[6]
  let h ← load2x256 msg[7]
  let front := transposeVecs #v[a.1, b.1, c.1, d.1, e.1, f.1, g.1, h.1]
  let back := transposeVecs #v[a.2, b.2, c.2, d.2, e.2, f.2, g.2, h.2]
  return #v[front[0], front[1], front[2], front[3], front[4], front[5], front[6], front[7],
     back[0], back[1], back[2], back[3], back[4], back[5], back[6], back[7]]

/-- src/avx2.rs:209-325 `compress8`. `h` and `msg` are addresses. The state vectors are a local variable. -/
def compress8 (h msg : Vector Nat 8) (count : Vector U64 8) (lastblock lastnode : Vector U32 8) :
    M Unit := do
  let h0 ← loadu256 (asPtr h[0] 32)
  let h1 ← loadu256 (asPtr h[1] 32)
  let h2 ← loadu256 (asPtr h[2] 32)
  let h3 ← loadu256 (asPtr h[3] 32)
  let h4 ← loadu256 (asPtr h[4] 32)
  let h5 ← loadu256 (asPtr h[5] 32)
  let h6 ← loadu256 (asPtr h[6] 32)
  let h7 ← loadu256 (asPtr h[7] 32)
  let h_vecs := transposeVecs #v[h0, h1, h2, h3, h4, h5, h6, h7]
  let count_low := load256From8xU32
    (count[0].setWidth 32) (count[1].setWidth 32) (count[2].setWidth 32) (count[3].setWidth 32)
    (count[4].setWidth 32) (count[5].setWidth 32) (count[6].setWidth 32) (count[7].setWidth 32)
  let count_high := load256From8xU32
    ((count[0] >>> 32).setWidth 32) ((count[1] >>> 32).setWidth 32)
    ((count[2] >>> 32).setWidth 32) ((count[3] >>> 32).setWidth 32)
    ((count[4] >>> 32).setWidth 32) ((count[5] >>> 32).setWidth 32)
    ((count[6] >>> 32).setWidth 32) ((count[7] >>> 32).setWidth 32)
  let lastblock := load256From8xU32
    lastblock[0] lastblock[1] lastblock[2] lastblock[3]
    lastblock[4] lastblock[5] lastblock[6] lastblock[7]
  let lastnode := load256From8xU32
    lastnode[0] lastnode[1] lastnode[2] lastnode[3]
    lastnode[4] lastnode[5] lastnode[6] lastnode[7]
  let msg_vecs ← loadMsgVecsInterleave msg
  let h_vecs := compress8Transposed h_vecs msg_vecs count_low count_high lastblock lastnode
  let h_vecs := transposeVecs h_vecs
  assignWords h[0] h_vecs[0]
  assignWords h[1] h_vecs[1]
  assignWords h[2] h_vecs[2]
  assignWords h[3] h_vecs[3]
  assignWords h[4] h_vecs[4]
  assignWords h[5] h_vecs[5]
  assignWords h[6] h_vecs[6]
  assignWords h[7] h_vecs[7]

/-- src/avx2.rs:440-443 `vectorize_words8`. `words` is the address of the array. -/
def vectorizeWords8 (words : Nat) : M Unit := do
  let vecs ← vecsRef (asPtr words 256)
  let v ← readVecs vecs
  writeVecs vecs (transposeVecs v)

/-- src/avx2.rs:558-585 `compress8_vectorized`. All objects are given by their addresses. -/
def compress8Vectorized (states : Nat) (msg : Vector Nat 8)
    (count_low count_high lastblock lastnode : Nat) : M Unit := do
  let h_vecs ← vecsRef (asPtr states 256)
  let msg_vecs ← loadMsgVecsInterleave msg
  let count_low ← transmuteWords count_low
  let count_high ← transmuteWords count_high
  let lastblock ← transmuteWords lastblock
  let lastnode ← transmuteWords lastnode
  let v ← readVecs h_vecs
  writeVecs h_vecs (compress8Transposed v msg_vecs count_low count_high lastblock lastnode)

/-- The `loop` of src/avx2.rs:730-763, with fuel. The inputs are given by address and length.
`export_hashes` accesses local variables only, and is that of Verif/Model/Avx2.lean. -/
def hash8ExactLoop (params : Params) (input : Vector (Nat × Nat) 8) (len : Nat) :
    Nat → Vector M256 8 → Nat → M (Vector Hash 8)
  | 0, _, _ => fail .nonTermination
  | fuel + 1, h_vecs, count => do
    let msg0 ← blockRef (← (asPtr input[0].1 input[0].2).add count)
    let msg1 ← blockRef (← (asPtr input[1].1 input[1].2).add count)
    let msg2 ← blockRef (← (asPtr input[2].1 input[2].2).add count)
    let msg3 ← blockRef (← (asPtr input[3].1 input[3].2).add count)
    let msg4 ← blockRef (← (asPtr input[4].1 input[4].2).add count)
    let msg5 ← blockRef (← (asPtr input[5].1 input[5].2).add count)
    let msg6 ← blockRef (← (asPtr input[6].1 input[6].2).add count)
    let msg7 ← blockRef (← (asPtr input[7].1 input[7].2).add count)
    let count := count + BLOCKBYTES
    let count_low := load256FromU32 ((BitVec.ofNat 64 count).setWidth 32)
    let count_high := load256FromU32 ((BitVec.ofNat 64 count >>> 32).setWidth 32)
    let lastblock := load256FromU32 (if count = len then ~~~ 0 else 0)
    let lastnode := load256FromU32 (if params.lastNode ∧ count = len then ~~~ 0 else 0)
    let msg_vecs ← loadMsgVecsInterleave #v[msg0, msg1, msg2, msg3, msg4, msg5, msg6, msg7]
    let h_vecs := compress8Transposed h_vecs msg_vecs count_low count_high lastblock lastnode
    if count = len then
      return exportHashes h_vecs params.hashLength
    else
      hash8ExactLoop params input len fuel h_vecs count

/-- src/avx2.rs:698-764 `hash8_exact`. -/
def hash8Exact (params : Params) (input : Vector (Nat × Nat) 8) : M (Vector Hash 8) :=
  let w := params.makeWords
  let h_vecs : Vector M256 8 :=
    #v[load256FromU32 w[0], load256FromU32 w[1], load256FromU32 w[2], load256FromU32 w[3],
       load256FromU32 w[4], load256FromU32 w[5], load256FromU32 w[6], load256FromU32 w[7]]
  let len := input[0].2
  hash8ExactLoop params input len (len + 1) h_vecs 0

end Avx2

/-! ## src/lib.rs: the safe functions around `hash4_exact` and `hash8_exact` -/

/-- src/lib.rs:772-792 `hash4_exact`, where `default_compress_impl` (src/lib.rs:1023-1056) selects the vector
code. `bytes` are the addresses of the local arrays of `export_hashes`. -/
def hash4ExactApi (rule : Rule) (bytes : Vector Nat 4) (params : Params) (input : Vector (Nat × Nat) 4) :
    M (Vector Hash 4) := do
  let len := input[0].2
  let sameLength := input[1].2 == len && input[2].2 == len && input[3].2 == len
  let evenLength := len % BLOCKBYTES == 0
  let nonempty := len != 0
  if sameLength && evenLength && nonempty then
    Sse41.hash4Exact rule bytes params input
  else fail .panic

/-- src/lib.rs:794-828 `hash8_exact`, where `default_compress_impl` (src/lib.rs:1023-1056) selects the vector
code. -/
def hash8ExactApi (params : Params) (input : Vector (Nat × Nat) 8) : M (Vector Hash 8) := do
  let len := input[0].2
  let sameLength := input[1].2 == len && input[2].2 == len && input[3].2 == len
    && input[4].2 == len && input[5].2 == len && input[6].2 == len
    && input[7].2 == len
  let evenLength := len % BLOCKBYTES == 0
  let nonempty := len != 0
  if sameLength && evenLength && nonempty then
    Avx2.hash8Exact params input
  else fail .panic

end Blake2s.Mem
