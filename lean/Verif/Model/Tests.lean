import Verif.Model.Reference
import Verif.Model.Many
/-!
# Model of the crate's own tests

The bodies of the tests of src/test.rs, and of the tests inside src/avx2.rs, src/sse41.rs and
src/blake2sp.rs. Where a test computes with fixed inputs or fixed expected digests, the model takes them as
arguments; the constants of the tests are given separately, at the end of each group. A test passes if its
model is `.ok`; a failed `assert_eq!` is `.error .assertFailed`. `#[should_panic]` tests pass if their model
is an `.error`.
-/

namespace Blake2s.Tests

open X86

/-- `assert_eq!` on two `Hash` values, which compares with `impl PartialEq for Hash`. E.g.
src/test.rs:364. -/
def assertHash (a b : Hash) : R Unit := do
  assert (← a.eqHash b)

/-- `assert_eq!` between `hash.to_hex()` and a string. E.g. src/test.rs:151. -/
def assertHex (h : Hash) (hex : List Char) : R Unit := do
  assert ((← h.toHex) == hex)

/-- `assert_eq!` on two hexadecimal strings. E.g. src/test.rs:105. -/
def assertChars (a b : List Char) : R Unit := assert (a == b)

/-- `for x in list { body }`, with a body that only checks. E.g. src/test.rs:149. -/
def forAll {α : Type} (body : α → R Unit) : List α → R Unit
  | [] => pure ()
  | x :: rest => do
    body x
    forAll body rest

/-! ## The compression functions -/

/-- src/test.rs:20-32 `compress_one`, with the block as an argument. `state_words_to_bytes` is
src/lib.rs:421-434. -/
def compressOne (E : Env) (fn : CompressFn) (block : Block) : R (List Char) := do
  let state ← State.new E
  let h ← fn.call E state.h block (BitVec.ofNat 64 BLOCKBYTES) (~~~ 0) 0
  bytesToHex (stateWordsToBytes h).toList

/-- src/test.rs:34-99 `compress_eight`, with the blocks as an argument. -/
def compressEight (E : Env) (fn : Compress8Fn) (blocks : Vector Block 8) : R (Vector (List Char) 8) := do
  let state1 ← State.new E
  let state2 ← State.new E
  let state3 ← State.new E
  let state4 ← State.new E
  let state5 ← State.new E
  let state6 ← State.new E
  let state7 ← State.new E
  let state8 ← State.new E
  let h ← fn.call E
    #v[state1.h, state2.h, state3.h, state4.h, state5.h, state6.h, state7.h, state8.h] blocks
    (Vector.replicate 8 (BitVec.ofNat 64 BLOCKBYTES)) (Vector.replicate 8 (~~~ 0)) (Vector.replicate 8 0)
  return #v[← bytesToHex (stateWordsToBytes h[0]).toList, ← bytesToHex (stateWordsToBytes h[1]).toList,
    ← bytesToHex (stateWordsToBytes h[2]).toList, ← bytesToHex (stateWordsToBytes h[3]).toList,
    ← bytesToHex (stateWordsToBytes h[4]).toList, ← bytesToHex (stateWordsToBytes h[5]).toList,
    ← bytesToHex (stateWordsToBytes h[6]).toList, ← bytesToHex (stateWordsToBytes h[7]).toList]

/-- src/test.rs:101-137 `test_all_compression_impls`. The `cfg` attributes and
`is_x86_feature_detected!` are the fields of `Env`. -/
def allCompressionImpls (E : Env) (block : Block) (expected1 : List Char) (blocks : Vector Block 8)
    (expected8 : Vector (List Char) 8) : R Unit := do
  assertChars expected1 (← compressOne E .portable block)
  assert (expected8.toList == (← compressEight E .portable blocks).toList)
  if E.x86 && E.std && E.sse41 then
    assertChars expected1 (← compressOne E .sse41 block)
  if E.x86 && E.std && E.avx2 then
    assert (expected8.toList == (← compressEight E .avx2 blocks).toList)

/-- src/test.rs:21-24: `[0, 1, 2, …, 63]`. -/
def counterBlock : Block := Vector.ofFn fun i : Fin 64 => BitVec.ofNat 8 i.val

/-- src/test.rs:18 `COUNTER_BLOCK_HASH`. -/
def COUNTER_BLOCK_HASH : List Char :=
  "56f34e8b96557e90c1f24b52d0c89d51086acf1b00f634cf1dde9233b8eaaa3e".toList

/-- The eight blocks of src/test.rs:56-63. -/
def blocksOf : Vector Block 8 :=
  #v[Vector.replicate 64 1, Vector.replicate 64 2, Vector.replicate 64 3, Vector.replicate 64 4,
    Vector.replicate 64 5, Vector.replicate 64 6, Vector.replicate 64 7, Vector.replicate 64 8]

/-- src/test.rs:8-15 `BLOCK_OF_ONES` … `BLOCK_OF_EIGHTS`, as the array of src/test.rs:107-116. -/
def BLOCKS_HASHES : Vector (List Char) 8 :=
  #v["dc3c4c7e77f743a2625e771cf71247d0a74821553b38600d0943316d5ff6987f".toList,
    "f8b7bb9bd572ec5555592d19b476a5899334a004e9a181fad4b7236990d05329".toList,
    "43408522fdef2a8c010093bf726dea07954591677cc4bb0c58421dac49942186".toList,
    "9d660d85e5a18fab0223c44932695f27639a73726590b563cf7b6aa09a73d594".toList,
    "5bca39cc61c6a7beb4767bf2add509bd46cefe44a7755de72fe55707f88fb10d".toList,
    "fc4daaafdd1111282445d562226bb98308b1b2682b66df87857a5ea041d01099".toList,
    "e0110d7690b3be39f4d06b37d3ab5352f3a6cbdccf03ae409d0719c88a81c648".toList,
    "d9f493e092e69be49af15f25fdbc26c62b62e036b361b4431d33c7236fdeb134".toList]

/-! ## One state -/

/-- The loop body of src/test.rs:149-152. -/
def oneShot (E : Env) (io : List U8 × List Char) : R Unit := do
  let hash ← blake2s E io.1
  assertHex hash io.2

/-- The loop body of src/test.rs:155-164. -/
def twoChunks (E : Env) (io : List U8 × List Char) : R Unit := do
  let state ← State.new E
  let split := io.1.length / 2
  let state ← state.update E (← sliceTo io.1 split)
  assert (BitVec.ofNat 64 split == state.getCount)
  let state ← state.update E (← sliceFrom io.1 split)
  assert (BitVec.ofNat 64 io.1.length == state.getCount)
  let (_, hash) ← state.finalize E
  assertHex hash io.2

/-- The inner loop of src/test.rs:169-173; `count` is inferred to be a `u64` from its comparison. -/
def byteLoop (E : Env) (state : State) (count : U64) : List U8 → R State
  | [] => pure state
  | b :: rest => do
    let state ← state.update E [b]
    let count ← addChk E count 1
    assert (count == state.getCount)
    byteLoop E state count rest

/-- The loop body of src/test.rs:166-176. -/
def byteByByte (E : Env) (io : List U8 × List Char) : R Unit := do
  let state ← State.new E
  let state ← byteLoop E state 0 io.1
  let (_, hash) ← state.finalize E
  assertHex hash io.2

/-- src/test.rs:139-176 `test_vectors`, with the table as an argument. -/
def vectors (E : Env) (io : List (List U8 × List Char)) : R Unit := do
  forAll (oneShot E) io
  forAll (twoChunks E) io
  forAll (byteByByte E) io

/-- src/test.rs:178-188 `test_multiple_finalizes`, with the two digests and the message as arguments. -/
def multipleFinalizes (E : Env) (empty : List Char) (message : List U8) (full : List Char) : R Unit := do
  let state ← State.new E
  let (state, h) ← state.finalize E
  assertHex h empty
  let (state, h) ← state.finalize E
  assertHex h empty
  let (state, h) ← state.finalize E
  assertHex h empty
  let state ← state.update E message
  let (state, h) ← state.finalize E
  assertHex h full
  let (state, h) ← state.finalize E
  assertHex h full
  let (_, h) ← state.finalize E
  assertHex h full

/-- `std::io::Write::write_all`, called at src/test.rs:196: calls `write` until everything is written. An
`Ok(0)` from `write` is an error, and `unwrap` on it a panic; errors of kind `Interrupted` do not occur,
because `write` (src/lib.rs:448-453) returns no errors. One call at most per byte. -/
def writeAll (E : Env) : Nat → State → List U8 → R State
  | 0, _, _ => throw .nonTermination
  | fuel + 1, s, buf =>
    if buf.isEmpty then pure s
    else do
      let (s, n) ← s.write E buf
      if n == 0 then throw .assertFailed
      writeAll E fuel s (← sliceFrom buf n)

/-- src/test.rs:190-200 `test_write`, with the message and its digest as arguments. -/
def write (E : Env) (message : List U8) (digest : List Char) : R Unit := do
  let state ← State.new E
  let state ← writeAll E (message.length + 1) state message
  let (_, hash) ← state.finalize E
  assertHex hash digest

/-- src/test.rs:3 `EMPTY_HASH`. -/
def EMPTY_HASH : List Char := "69217a3079908094e11121d042354a7c1f55b6482ca1a51e1b250dfd1ed0eef9".toList
/-- src/test.rs:4 `ABC_HASH`. -/
def ABC_HASH : List Char := "508c5e8c327c14e2e1a72ba34eeb452f37458b209ed63a294d999b4c86675982".toList
/-- src/test.rs:5 `ONE_BLOCK_HASH`. -/
def ONE_BLOCK_HASH : List Char := "ae09db7cd54f42b490ef09b6bc541af688e4959bb8c53f359a6f56e38ab454a3".toList
/-- src/test.rs:6 `THOUSAND_HASH`. -/
def THOUSAND_HASH : List Char := "37e9dd47498579c5343fd282c13c62ea824cdfc9b0f4f747a41347414640f62c".toList

/-- src/test.rs:142 `b"abc"`. -/
def abc : List U8 := [0x61, 0x62, 0x63]

/-- src/test.rs:144 `[0; 1000]`. -/
def thousand : List U8 := List.replicate 1000 0

/-- The table of src/test.rs:141-146. -/
def table : List (List U8 × List Char) :=
  [([], EMPTY_HASH), (abc, ABC_HASH), (List.replicate 64 0, ONE_BLOCK_HASH), (thousand, THOUSAND_HASH)]

/-! ## Parameters -/

/-- src/test.rs:219-238 `test_all_parameters`: setters, `to_state`, `set_last_node(true)`, `update`,
`finalize`; the setters, the message and the digest are arguments. -/
def allParameters (E : Env) (setters : List Setter) (message : List U8) (digest : List Char) : R Unit := do
  let state ← (← Params.new.setAll setters).toState E
  let state := state.setLastNode true
  let state ← state.update E message
  let (_, hash) ← state.finalize E
  assertHex hash digest

/-- src/test.rs:241-251 `test_all_parameters_blake2sp`, likewise. -/
def allParametersSp (E : Env) (setters : List Sp.Setter) (message : List U8) (digest : List Char) :
    R Unit := do
  let state ← (← Sp.Params.new.setAll setters).toState E
  let state ← state.update E message
  let (_, hash) ← state.finalize E
  assertHex hash digest

/-- The setter calls of src/test.rs:221-232. The byte strings are `b"not the real key"`, `b"bar"`,
`b"bazbazba"` and `b"bing bin"`. -/
def wacky : List Setter :=
  [.hashLength 18,
   .key [0x6e, 0x6f, 0x74, 0x20, 0x74, 0x68, 0x65, 0x20, 0x72, 0x65, 0x61, 0x6c, 0x20, 0x6b, 0x65, 0x79],
   .key [0x62, 0x61, 0x72],
   .salt [0x62, 0x61, 0x7a, 0x62, 0x61, 0x7a, 0x62, 0x61],
   .personal [0x62, 0x69, 0x6e, 0x67, 0x20, 0x62, 0x69, 0x6e],
   .fanout 2, .maxDepth 3, .maxLeafLength 0x04050607, .nodeOffset ((1 <<< 48) - 1), .nodeDepth 16,
   .innerHashLength 17]

/-- The setter calls of src/test.rs:243-246. -/
def wackySp : List Sp.Setter :=
  [.hashLength 18,
   .key [0x6e, 0x6f, 0x74, 0x20, 0x74, 0x68, 0x65, 0x20, 0x72, 0x65, 0x61, 0x6c, 0x20, 0x6b, 0x65, 0x79],
   .key [0x62, 0x61, 0x72]]

/-- src/test.rs:235, 248 `b"foo"`. -/
def foo : List U8 := [0x66, 0x6f, 0x6f]

/-- src/test.rs:237. -/
def ALL_PARAMETERS : List Char := "0d9841e93b8f1d4c0666da56e2bae569c13b".toList
/-- src/test.rs:250. -/
def ALL_PARAMETERS_SP : List Char := "947d4c671e2794f5e1a57daeca97bb46ed66".toList

/-- src/test.rs:253-293, the `#[should_panic]` tests of `Params`: `Params::new()` and one setter call. -/
def oneSetter (c : Setter) : R Unit := do
  let _ ← Params.new.set c

/-- src/test.rs:295-311, the `#[should_panic]` tests of `blake2sp::Params`. -/
def oneSetterSp (c : Sp.Setter) : R Unit := do
  let _ ← Sp.Params.new.set c

/-- The setter calls of src/test.rs:255-293. -/
def panicking : List Setter :=
  [.hashLength 0, .hashLength (OUTBYTES + 1), .key (List.replicate (KEYBYTES + 1) 0),
   .salt (List.replicate (SALTBYTES + 1) 0), .personal (List.replicate (PERSONALBYTES + 1) 0),
   .maxDepth 0, .innerHashLength (OUTBYTES + 1)]

/-- The setter calls of src/test.rs:297-311. -/
def panickingSp : List Sp.Setter :=
  [.hashLength 0, .hashLength (OUTBYTES + 1), .key (List.replicate (KEYBYTES + 1) 0)]

/-! ## Eight states -/

/-- `state.clone().update(input).finalize()`, as in src/test.rs:351-358. -/
def expect (E : Env) (state : State) (input : List U8) : R Hash := do
  let state ← state.update E input
  let (_, hash) ← state.finalize E
  return hash

/-- The eight `assert_eq!` of src/test.rs:369-376. -/
def assertHashes (expected output : Vector Hash 8) : R Unit := do
  assertHash expected[0] output[0]
  assertHash expected[1] output[1]
  assertHash expected[2] output[2]
  assertHash expected[3] output[3]
  assertHash expected[4] output[4]
  assertHash expected[5] output[5]
  assertHash expected[6] output[6]
  assertHash expected[7] output[7]

/-- src/test.rs:332-377 `test_run`. -/
def testRun (E : Env) (st : Vector State 8) (input : Vector (List U8) 8) : R (Vector State 8) := do
  let expected0 ← expect E st[0] input[0]
  let expected1 ← expect E st[1] input[1]
  let expected2 ← expect E st[2] input[2]
  let expected3 ← expect E st[3] input[3]
  let expected4 ← expect E st[4] input[4]
  let expected5 ← expect E st[5] input[5]
  let expected6 ← expect E st[6] input[6]
  let expected7 ← expect E st[7] input[7]
  let st ← Blake2s.update8 E st input
  let (st, output) ← finalize8 E st
  assertHashes #v[expected0, expected1, expected2, expected3, expected4, expected5, expected6, expected7]
    output
  return st

/-- The second element first, and the first element last: how the state arguments of one call of
`test_run` in src/test.rs:447-590 relate to those of the call before it. -/
def rotate {α : Type} (v : Vector α 8) : Vector α 8 := #v[v[1], v[2], v[3], v[4], v[5], v[6], v[7], v[0]]

/-- `n` calls of `test_run` with the same inputs and rotating states (src/test.rs:447-590 is eight of them). -/
def rotations (E : Env) (input : Vector (List U8) 8) : Nat → Vector State 8 → R (Vector State 8)
  | 0, st => pure st
  | n + 1, st => do
    let st ← testRun E st input
    rotations E input n (rotate st)

/-- The loop of src/test.rs:420-591, with the inputs and the initial states as arguments: eight calls of
`test_run` for each choice of inputs. The states keep what they were fed in earlier calls. After eight
rotations they are back in their original order. -/
def update8Loop (E : Env) (st : Vector State 8) : List (Vector (List U8) 8) → R Unit
  | [] => pure ()
  | input :: rest => do
    let st ← rotations E input 8 st
    update8Loop E st rest

/-- The loop of src/test.rs:316-323 (and src/blake2sp.rs:461-468) `paint_input`, on the part of the buffer
from `offset` on, of which there are `n` bytes: the bytes of a counter that is incremented every four bytes.
The counter is a `u32`. -/
def paint (E : Env) (counter : U32) (n : Nat) : R (List U8) :=
  if _h : n = 0 then pure []
  else do
    let bytes := writeU32LE counter
    let take := min 4 n
    let counter ← addChk E counter 1
    return bytes.toList.take take ++ (← paint E counter (n - take))
termination_by n

/-- `&input[a * BLOCKBYTES..b * BLOCKBYTES]`, as in src/test.rs:409-417. -/
def blocks (input : List U8) (a b : Nat) : R (List U8) := do
  sliceFrom (← sliceTo input (b * BLOCKBYTES)) (a * BLOCKBYTES)

/-- src/test.rs:326-592 `test_update8`. -/
def update8 (E : Env) : R Unit := do
  let state_a ← State.new E
  let state_b ← State.new E
  let state_b := state_b.setLastNode true
  let state_c ← State.new E
  let state_c ← state_c.update E [0x66, 0x6f, 0x6f, 0x62, 0x61, 0x72, 0x62, 0x61, 0x7a]
  let state_d ← (← Params.new.setAll
    [.hashLength 18, .key [0x62, 0x61, 0x72], .salt [0x62, 0x61, 0x7a, 0x62, 0x61, 0x7a, 0x62, 0x61],
     .personal [0x62, 0x69, 0x6e, 0x67, 0x20, 0x62, 0x69, 0x6e], .fanout 2, .maxDepth 3,
     .maxLeafLength 0x04050607, .nodeOffset ((1 <<< 48) - 1), .nodeDepth 16, .innerHashLength 17,
     .lastNode true]).toState E
  let state_e ← State.new E
  let state_f ← State.new E
  let state_g ← State.new E
  let state_h ← State.new E
  let input ← paint E 1 (75 * BLOCKBYTES)
  let i ← blocks input 0 10
  let j ← blocks input 10 20
  let k ← blocks input 20 30
  let l ← blocks input 30 40
  let m ← blocks input 40 50
  let n ← blocks input 50 60
  let o ← blocks input 60 70
  let p ← blocks input 70 75
  update8Loop E #v[state_a, state_b, state_c, state_d, state_e, state_f, state_g, state_h]
    [#v[i, j, k, l, m, n, o, p], #v[j, k, l, m, n, o, p, i], #v[k, l, m, n, o, p, i, j],
     #v[l, m, n, o, p, i, j, k], #v[m, n, o, p, i, j, k, l], #v[n, o, p, i, j, k, l, m],
     #v[o, p, i, j, k, l, m, n], #v[p, i, j, k, l, m, n, o]]

/-- src/test.rs:594-611 `test_hash4_exact`, with the parameters and the inputs as arguments. -/
def hash4Exact (E : Env) (p : Params) (input : Vector (List U8) 4) : R Unit := do
  let expected0 ← hashOne E p input[0]
  let expected1 ← hashOne E p input[1]
  let expected2 ← hashOne E p input[2]
  let expected3 ← hashOne E p input[3]
  let out ← Blake2s.hash4Exact E p input
  assertHash expected0 out[0]
  assertHash expected1 out[1]
  assertHash expected2 out[2]
  assertHash expected3 out[3]

/-- src/test.rs:613-644 `test_hash8_exact`, likewise. -/
def hash8Exact (E : Env) (p : Params) (input : Vector (List U8) 8) : R Unit := do
  let expected0 ← hashOne E p input[0]
  let expected1 ← hashOne E p input[1]
  let expected2 ← hashOne E p input[2]
  let expected3 ← hashOne E p input[3]
  let expected4 ← hashOne E p input[4]
  let expected5 ← hashOne E p input[5]
  let expected6 ← hashOne E p input[6]
  let expected7 ← hashOne E p input[7]
  let out ← Blake2s.hash8Exact E p input
  assertHashes #v[expected0, expected1, expected2, expected3, expected4, expected5, expected6, expected7]
    out

/-- src/test.rs:646-692 `test_hash8_with_exact_inputs` and src/test.rs:694-740
`test_hash8_with_inexact_inputs`, which differ only in their inputs. -/
def hash8 (E : Env) (p : Vector Params 8) (input : Vector (List U8) 8) : R Unit := do
  let expected0 ← hashOne E p[0] input[0]
  let expected1 ← hashOne E p[1] input[1]
  let expected2 ← hashOne E p[2] input[2]
  let expected3 ← hashOne E p[3] input[3]
  let expected4 ← hashOne E p[4] input[4]
  let expected5 ← hashOne E p[5] input[5]
  let expected6 ← hashOne E p[6] input[6]
  let expected7 ← hashOne E p[7] input[7]
  let out ← Blake2s.hash8 E p input
  assertHashes #v[expected0, expected1, expected2, expected3, expected4, expected5, expected6, expected7]
    out

/-! ## blake2sp -/

/-- The loop body of `test_buffering`, src/blake2sp.rs:556-572, with the input and the number of bytes
buffered first (there 1) as arguments. -/
def buffering (E : Env) (input : List U8) (first : Nat) : R Unit := do
  let expected ← Sp.reference E input
  let found ← blake2sp E input
  assertHash expected found
  let state ← Sp.State.new E
  let state ← state.update E (← sliceTo input first)
  assert (BitVec.ofNat 64 first == (← state.getCount E))
  let state ← state.update E (← sliceFrom input first)
  assert (BitVec.ofNat 64 input.length == (← state.getCount E))
  let (_, found) ← state.finalize E
  assertHash expected found

/-- src/blake2sp.rs:543-572 `test_buffering`. `paint_input` (src/blake2sp.rs:458-468) is that of
src/test.rs:313-323. -/
def testBuffering (E : Env) : R Unit := do
  let buf ← paint E 1 (20 * BLOCKBYTES)
  forAll (fun num_chunks => do
    let input ← sliceTo buf (num_chunks * BLOCKBYTES)
    buffering E input 1) ((List.range 20).map (· + 1))

/-! ## Lanes -/

/-- src/avx2.rs:342-363 `test_interleave128`, with the lanes as arguments. `cast_out`
(src/avx2.rs:336-338) turns a vector into its lanes. -/
def interleave128 (E : Env) (x y : Vector U32 8) : R Unit :=
  if E.x86 && E.std && E.avx2 then do
    let a := Avx2.load256From8xU32 x[0] x[1] x[2] x[3] x[4] x[5] x[6] x[7]
    let b := Avx2.load256From8xU32 y[0] y[1] y[2] y[3] y[4] y[5] y[6] y[7]
    let expected_a := Avx2.load256From8xU32 x[0] x[1] x[2] x[3] y[0] y[1] y[2] y[3]
    let expected_b := Avx2.load256From8xU32 x[4] x[5] x[6] x[7] y[4] y[5] y[6] y[7]
    let out := Avx2.interleave128 a b
    assert (mm256_to_words expected_a == mm256_to_words out.1)
    assert (mm256_to_words expected_b == mm256_to_words out.2)
  else pure ()

/-- src/avx2.rs:377-396 `test_load_2x256`, with the eight `u64` as an argument. The `transmute` of
`[u64; 8]` to bytes is that of a little-endian machine, as x86 is. -/
def load2x256 (E : Env) (x : Vector U64 8) : R Unit :=
  if E.x86 && E.std && E.avx2 then do
    let bytes : Block := Vector.ofFn fun i : Fin 64 => (x[i.val / 8]'(by omega)).extractLsb' (8 * (i.val % 8)) 8
    let out := Avx2.load2x256 bytes
    let lo := fun w : U64 => w.extractLsb' 0 32
    let hi := fun w : U64 => w.extractLsb' 32 32
    let expected_a := Avx2.load256From8xU32 (lo x[0]) (hi x[0]) (lo x[1]) (hi x[1]) (lo x[2]) (hi x[2])
      (lo x[3]) (hi x[3])
    let expected_b := Avx2.load256From8xU32 (lo x[4]) (hi x[4]) (lo x[5]) (hi x[5]) (lo x[6]) (hi x[6])
      (lo x[7]) (hi x[7])
    assert (mm256_to_words expected_a == mm256_to_words out.1)
    assert (mm256_to_words expected_b == mm256_to_words out.2)
  else pure ()

/-- `load_256_from_8xu32` of the eight numbers of row `i` of a matrix, as in src/avx2.rs:450-457. -/
def row256 (m : Fin 8 → Fin 8 → U32) (i : Fin 8) : M256 :=
  Avx2.load256From8xU32 (m i 0) (m i 1) (m i 2) (m i 3) (m i 4) (m i 5) (m i 6) (m i 7)

/-- src/avx2.rs:447-507 `test_transpose_vecs`, with the matrix as an argument; `vec_a` to `vec_h` are its
rows, `expected_a` to `expected_h` its columns. -/
def transposeAvx2 (E : Env) (m : Fin 8 → Fin 8 → U32) : R Unit :=
  if E.x86 && E.std && E.avx2 then do
    let vecs := Vector.ofFn (row256 m)
    let expected := Vector.ofFn (row256 fun i j => m j i)
    let interleaved := Avx2.transposeVecs vecs
    assert (expected.toList.map mm256_to_words == interleaved.toList.map mm256_to_words)
    let deinterleaved := Avx2.transposeVecs interleaved
    assert (vecs.toList.map mm256_to_words == deinterleaved.toList.map mm256_to_words)
  else pure ()

/-- `setr` of the four numbers of row `i`, as in src/sse41.rs:404-407. -/
def row128 (m : Fin 4 → Fin 4 → U32) (i : Fin 4) : M128 :=
  Sse41.setr (m i 0) (m i 1) (m i 2) (m i 3)

/-- src/sse41.rs:399-440 `test_transpose_vecs`, with the matrix as an argument. -/
def transposeSse41 (E : Env) (m : Fin 4 → Fin 4 → U32) : R Unit :=
  if E.x86 && E.std && E.sse41 then do
    let vecs := Vector.ofFn (row128 m)
    let expected := Vector.ofFn (row128 fun i j => m j i)
    let out := Sse41.transposeVecs vecs[0] vecs[1] vecs[2] vecs[3]
    assert (expected.toList.map mm_storeu_words == out.toList.map mm_storeu_words)
    let out2 := Sse41.transposeVecs out[0] out[1] out[2] out[3]
    assert (vecs.toList.map mm_storeu_words == out2.toList.map mm_storeu_words)
  else pure ()

end Blake2s.Tests
