import Verif.Model.X86
import Verif.Model.Params
/-!
# Model of src/avx2.rs
-/

namespace Blake2s.Avx2

open Blake2s.X86

/-- src/avx2.rs:23-25 `add`. -/
def add (a b : M256) : M256 := mm256_add_epi32 a b

/-- src/avx2.rs:28-30 `xor`. -/
def xor (a b : M256) : M256 := mm256_xor_si256 a b

/-- src/avx2.rs:33-41 `rot16`. -/
def rot16 (x : M256) : M256 :=
  mm256_shuffle_epi8 x (mm256_set_epi8
    #v[13, 12, 15, 14, 9, 8, 11, 10, 5, 4, 7, 6, 1, 0, 3, 2, 13, 12, 15, 14, 9, 8, 11, 10, 5,
       4, 7, 6, 1, 0, 3, 2])

/-- src/avx2.rs:44-46 `rot12`. -/
def rot12 (x : M256) : M256 := mm256_or_si256 (mm256_srli_epi32 x 12) (mm256_slli_epi32 x 20)

/-- src/avx2.rs:49-57 `rot8`. -/
def rot8 (x : M256) : M256 :=
  mm256_shuffle_epi8 x (mm256_set_epi8
    #v[12, 15, 14, 13, 8, 11, 10, 9, 4, 7, 6, 5, 0, 3, 2, 1, 12, 15, 14, 13, 8, 11, 10, 9, 4,
       7, 6, 5, 0, 3, 2, 1])

/-- src/avx2.rs:60-62 `rot7`. -/
def rot7 (x : M256) : M256 := mm256_or_si256 (mm256_srli_epi32 x 7) (mm256_slli_epi32 x 25)

/-- src/avx2.rs:65-67 `load_256_from_u32`. -/
def load256FromU32 (x : U32) : M256 := mm256_set1_epi32 x

/-- src/avx2.rs:70-85 `load_256_from_8xu32`. -/
def load256From8xU32 (x1 x2 x3 x4 x5 x6 x7 x8 : U32) : M256 :=
  mm256_set_epi32 x8 x7 x6 x5 x4 x3 x2 x1

/-- First half (columns) of `blake2s_round_8x`, src/avx2.rs:92-148. The array elements `v[0]` … `v[15]` are local
variables `v0` … `v15`; each assignment `v[i] = e` shadows `vi`; `s i` is the message word
`m[SIGMA[r][i] as usize]`. -/
def blake2sRound8x_columns (v m : Vector M256 16) (r : Fin 12) : Vector M256 16 :=
  let s : Fin 16 → M256 := fun i => m[SIGMA[r][i]]
  let v0 : M256 := v[0]
  let v1 : M256 := v[1]
  let v2 : M256 := v[2]
  let v3 : M256 := v[3]
  let v4 : M256 := v[4]
  let v5 : M256 := v[5]
  let v6 : M256 := v[6]
  let v7 : M256 := v[7]
  let v8 : M256 := v[8]
  let v9 : M256 := v[9]
  let v10 : M256 := v[10]
  let v11 : M256 := v[11]
  let v12 : M256 := v[12]
  let v13 : M256 := v[13]
  let v14 : M256 := v[14]
  let v15 : M256 := v[15]
  let v0 : M256 := add v0 (s 0)
  let v1 : M256 := add v1 (s 2)
  let v2 : M256 := add v2 (s 4)
  let v3 : M256 := add v3 (s 6)
  let v0 : M256 := add v0 v4
  let v1 : M256 := add v1 v5
  let v2 : M256 := add v2 v6
  let v3 : M256 := add v3 v7
  let v12 : M256 := xor v12 v0
  let v13 : M256 := xor v13 v1
  let v14 : M256 := xor v14 v2
  let v15 : M256 := xor v15 v3
  let v12 : M256 := rot16 v12
  let v13 : M256 := rot16 v13
  let v14 : M256 := rot16 v14
  let v15 : M256 := rot16 v15
  let v8 : M256 := add v8 v12
  let v9 : M256 := add v9 v13
  let v10 : M256 := add v10 v14
  let v11 : M256 := add v11 v15
  let v4 : M256 := xor v4 v8
  let v5 : M256 := xor v5 v9
  let v6 : M256 := xor v6 v10
  let v7 : M256 := xor v7 v11
  let v4 : M256 := rot12 v4
  let v5 : M256 := rot12 v5
  let v6 : M256 := rot12 v6
  let v7 : M256 := rot12 v7
  let v0 : M256 := add v0 (s 1)
  let v1 : M256 := add v1 (s 3)
  let v2 : M256 := add v2 (s 5)
  let v3 : M256 := add v3 (s 7)
  let v0 : M256 := add v0 v4
  let v1 : M256 := add v1 v5
  let v2 : M256 := add v2 v6
  let v3 : M256 := add v3 v7
  let v12 : M256 := xor v12 v0
  let v13 : M256 := xor v13 v1
  let v14 : M256 := xor v14 v2
  let v15 : M256 := xor v15 v3
  let v12 : M256 := rot8 v12
  let v13 : M256 := rot8 v13
  let v14 : M256 := rot8 v14
  let v15 : M256 := rot8 v15
  let v8 : M256 := add v8 v12
  let v9 : M256 := add v9 v13
  let v10 : M256 := add v10 v14
  let v11 : M256 := add v11 v15
  let v4 : M256 := xor v4 v8
  let v5 : M256 := xor v5 v9
  let v6 : M256 := xor v6 v10
  let v7 : M256 := xor v7 v11
  let v4 : M256 := rot7 v4
  let v5 : M256 := rot7 v5
  let v6 : M256 := rot7 v6
  let v7 : M256 := rot7 v7
  #v[v0, v1, v2, v3, v4, v5, v6, v7, v8, v9, v10, v11, v12, v13, v14, v15]

/-- Second half (diagonals) of `blake2s_round_8x`, src/avx2.rs:150-206. -/
def blake2sRound8x_diagonals (v m : Vector M256 16) (r : Fin 12) : Vector M256 16 :=
  let s : Fin 16 → M256 := fun i => m[SIGMA[r][i]]
  let v0 : M256 := v[0]
  let v1 : M256 := v[1]
  let v2 : M256 := v[2]
  let v3 : M256 := v[3]
  let v4 : M256 := v[4]
  let v5 : M256 := v[5]
  let v6 : M256 := v[6]
  let v7 : M256 := v[7]
  let v8 : M256 := v[8]
  let v9 : M256 := v[9]
  let v10 : M256 := v[10]
  let v11 : M256 := v[11]
  let v12 : M256 := v[12]
  let v13 : M256 := v[13]
  let v14 : M256 := v[14]
  let v15 : M256 := v[15]
  let v0 : M256 := add v0 (s 8)
  let v1 : M256 := add v1 (s 10)
  let v2 : M256 := add v2 (s 12)
  let v3 : M256 := add v3 (s 14)
  let v0 : M256 := add v0 v5
  let v1 : M256 := add v1 v6
  let v2 : M256 := add v2 v7
  let v3 : M256 := add v3 v4
  let v15 : M256 := xor v15 v0
  let v12 : M256 := xor v12 v1
  let v13 : M256 := xor v13 v2
  let v14 : M256 := xor v14 v3
  let v15 : M256 := rot16 v15
  let v12 : M256 := rot16 v12
  let v13 : M256 := rot16 v13
  let v14 : M256 := rot16 v14
  let v10 : M256 := add v10 v15
  let v11 : M256 := add v11 v12
  let v8 : M256 := add v8 v13
  let v9 : M256 := add v9 v14
  let v5 : M256 := xor v5 v10
  let v6 : M256 := xor v6 v11
  let v7 : M256 := xor v7 v8
  let v4 : M256 := xor v4 v9
  let v5 : M256 := rot12 v5
  let v6 : M256 := rot12 v6
  let v7 : M256 := rot12 v7
  let v4 : M256 := rot12 v4
  let v0 : M256 := add v0 (s 9)
  let v1 : M256 := add v1 (s 11)
  let v2 : M256 := add v2 (s 13)
  let v3 : M256 := add v3 (s 15)
  let v0 : M256 := add v0 v5
  let v1 : M256 := add v1 v6
  let v2 : M256 := add v2 v7
  let v3 : M256 := add v3 v4
  let v15 : M256 := xor v15 v0
  let v12 : M256 := xor v12 v1
  let v13 : M256 := xor v13 v2
  let v14 : M256 := xor v14 v3
  let v15 : M256 := rot8 v15
  let v12 : M256 := rot8 v12
  let v13 : M256 := rot8 v13
  let v14 : M256 := rot8 v14
  let v10 : M256 := add v10 v15
  let v11 : M256 := add v11 v12
  let v8 : M256 := add v8 v13
  let v9 : M256 := add v9 v14
  let v5 : M256 := xor v5 v10
  let v6 : M256 := xor v6 v11
  let v7 : M256 := xor v7 v8
  let v4 : M256 := xor v4 v9
  let v5 : M256 := rot7 v5
  let v6 : M256 := rot7 v6
  let v7 : M256 := rot7 v7
  let v4 : M256 := rot7 v4
  #v[v0, v1, v2, v3, v4, v5, v6, v7, v8, v9, v10, v11, v12, v13, v14, v15]

/-- src/avx2.rs:92-206 `blake2s_round_8x`; the body is the two definitions above one after the other. -/
def blake2sRound8x (v m : Vector M256 16) (r : Fin 12) : Vector M256 16 :=
  blake2sRound8x_diagonals (blake2sRound8x_columns v m r) m r

/-- src/avx2.rs:328-333 `interleave128`. -/
def interleave128 (a b : M256) : M256 × M256 :=
  (mm256_permute2x128_si256 a b 0x20, mm256_permute2x128_si256 a b 0x31)

/-- src/avx2.rs:368-373 `load_2x256`. -/
def load2x256 (msg : Block) : M256 × M256 :=
  (mm256_loadu_bytes (subArray msg 0 32), mm256_loadu_bytes (subArray msg 32 32))

/-- src/avx2.rs:402-437 `transpose_vecs`. -/
def transposeVecs (vecs : Vector M256 8) : Vector M256 8 :=
  let ab_0145 := mm256_unpacklo_epi32 vecs[0] vecs[1]
  let ab_2367 := mm256_unpackhi_epi32 vecs[0] vecs[1]
  let cd_0145 := mm256_unpacklo_epi32 vecs[2] vecs[3]
  let cd_2367 := mm256_unpackhi_epi32 vecs[2] vecs[3]
  let ef_0145 := mm256_unpacklo_epi32 vecs[4] vecs[5]
  let ef_2367 := mm256_unpackhi_epi32 vecs[4] vecs[5]
  let gh_0145 := mm256_unpacklo_epi32 vecs[6] vecs[7]
  let gh_2367 := mm256_unpackhi_epi32 vecs[6] vecs[7]
  let abcd_04 := mm256_unpacklo_epi64 ab_0145 cd_0145
  let abcd_15 := mm256_unpackhi_epi64 ab_0145 cd_0145
  let abcd_26 := mm256_unpacklo_epi64 ab_2367 cd_2367
  let abcd_37 := mm256_unpackhi_epi64 ab_2367 cd_2367
  let efgh_04 := mm256_unpacklo_epi64 ef_0145 gh_0145
  let efgh_15 := mm256_unpackhi_epi64 ef_0145 gh_0145
  let efgh_26 := mm256_unpacklo_epi64 ef_2367 gh_2367
  let efgh_37 := mm256_unpackhi_epi64 ef_2367 gh_2367
  let (abcdefg_0, abcdefg_4) := interleave128 abcd_04 efgh_04
  let (abcdefg_1, abcdefg_5) := interleave128 abcd_15 efgh_15
  let (abcdefg_2, abcdefg_6) := interleave128 abcd_26 efgh_26
  let (abcdefg_3, abcdefg_7) := interleave128 abcd_37 efgh_37
  #v[abcdefg_0, abcdefg_1, abcdefg_2, abcdefg_3, abcdefg_4, abcdefg_5, abcdefg_6, abcdefg_7]

/-- src/avx2.rs:440-443 `vectorize_words8`: the eight `AlignedWords8` are reinterpreted as eight
vectors, transposed in place. -/
def vectorizeWords8 (words : Vector StateWords 8) : Vector StateWords 8 :=
  (transposeVecs (words.map mm256_of_words)).map mm256_to_words

/-- src/avx2.rs:506-552 `load_msg_vecs_interleave`. -/
def loadMsgVecsInterleave (msg : Vector Block 8) : Vector M256 16 :=
  let a := load2x256 msg[0]
  let b := load2x256 msg[1]
  let c := load2x256 msg[2]
  let d := load2x256 msg[3]
  let e := load2x256 msg[4]
  let f := load2x256 msg[5]
  let g := load2x256 msg[6]
  let h := load2x256 msg[7]
  let front := transposeVecs #v[a.1, b.1, c.1, d.1, e.1, f.1, g.1, h.1]
  let back := transposeVecs #v[a.2, b.2, c.2, d.2, e.2, f.2, g.2, h.2]
  #v[front[0], front[1], front[2], front[3], front[4], front[5], front[6], front[7],
     back[0], back[1], back[2], back[3], back[4], back[5], back[6], back[7]]

/-- src/avx2.rs:606-652 `compress8_transposed_inline` (and its wrapper
`compress8_transposed_all`, src/avx2.rs:588-597). -/
def compress8Transposed (h_vecs : Vector M256 8) (msg_vecs : Vector M256 16)
    (count_low count_high lastblock lastnode : M256) : Vector M256 8 :=
  let v : Vector M256 16 :=
    #v[h_vecs[0], h_vecs[1], h_vecs[2], h_vecs[3], h_vecs[4], h_vecs[5], h_vecs[6], h_vecs[7],
       load256FromU32 IV[0], load256FromU32 IV[1], load256FromU32 IV[2], load256FromU32 IV[3],
       xor (load256FromU32 IV[4]) count_low,
       xor (load256FromU32 IV[5]) count_high,
       xor (load256FromU32 IV[6]) lastblock,
       xor (load256FromU32 IV[7]) lastnode]
  let v := blake2sRound8x v msg_vecs 0
  let v := blake2sRound8x v msg_vecs 1
  let v := blake2sRound8x v msg_vecs 2
  let v := blake2sRound8x v msg_vecs 3
  let v := blake2sRound8x v msg_vecs 4
  let v := blake2sRound8x v msg_vecs 5
  let v := blake2sRound8x v msg_vecs 6
  let v := blake2sRound8x v msg_vecs 7
  let v := blake2sRound8x v msg_vecs 8
  let v := blake2sRound8x v msg_vecs 9
  #v[xor h_vecs[0] (xor v[0] v[8]),
     xor h_vecs[1] (xor v[1] v[9]),
     xor h_vecs[2] (xor v[2] v[10]),
     xor h_vecs[3] (xor v[3] v[11]),
     xor h_vecs[4] (xor v[4] v[12]),
     xor h_vecs[5] (xor v[5] v[13]),
     xor h_vecs[6] (xor v[6] v[14]),
     xor h_vecs[7] (xor v[7] v[15])]

/-- src/avx2.rs:209-325 `compress8`. The forty positional arguments are five vectors of eight. -/
def compress8 (h : Vector StateWords 8) (msg : Vector Block 8) (count : Vector U64 8)
    (lastblock lastnode : Vector U32 8) : Vector StateWords 8 :=
  let h_vecs : Vector M256 8 :=
    #v[mm256_of_words h[0], mm256_of_words h[1], mm256_of_words h[2], mm256_of_words h[3],
       mm256_of_words h[4], mm256_of_words h[5], mm256_of_words h[6], mm256_of_words h[7]]
  let h_vecs := transposeVecs h_vecs
  let count_low := load256From8xU32
    (count[0].setWidth 32) (count[1].setWidth 32) (count[2].setWidth 32) (count[3].setWidth 32)
    (count[4].setWidth 32) (count[5].setWidth 32) (count[6].setWidth 32) (count[7].setWidth 32)
  let count_high := load256From8xU32
    ((count[0] >>> 32).setWidth 32) ((count[1] >>> 32).setWidth 32)
    ((count[2] >>> 32).setWidth 32) ((count[3] >>> 32).setWidth 32)
    ((count[4] >>> 32).setWidth 32) ((count[5] >>> 32).setWidth 32)
    ((count[6] >>> 32).setWidth 32) ((count[7] >>> 32).setWidth 32)
  let lastblock := load256From8xU32
    lastblock[0] lastblock[1] lastblock[2] lastblock[3]
    lastblock[4] lastblock[5] lastblock[6] lastblock[7]
  let lastnode := load256From8xU32
    lastnode[0] lastnode[1] lastnode[2] lastnode[3]
    lastnode[4] lastnode[5] lastnode[6] lastnode[7]
  let msg_vecs := loadMsgVecsInterleave
    #v[msg[0], msg[1], msg[2], msg[3], msg[4], msg[5], msg[6], msg[7]]
  let h_vecs := compress8Transposed h_vecs msg_vecs count_low count_high lastblock lastnode
  let h_vecs := transposeVecs h_vecs
  #v[mm256_to_words h_vecs[0], mm256_to_words h_vecs[1], mm256_to_words h_vecs[2],
     mm256_to_words h_vecs[3], mm256_to_words h_vecs[4], mm256_to_words h_vecs[5],
     mm256_to_words h_vecs[6], mm256_to_words h_vecs[7]]

/-- src/avx2.rs:558-585 `compress8_vectorized`. The states are reinterpreted in place as vectors. -/
def compress8Vectorized (states : Vector StateWords 8) (msg : Vector Block 8)
    (count_low count_high lastblock lastnode : Vector U32 8) : Vector StateWords 8 :=
  let h_vecs := states.map mm256_of_words
  let msg_vecs := loadMsgVecsInterleave
    #v[msg[0], msg[1], msg[2], msg[3], msg[4], msg[5], msg[6], msg[7]]
  let h_vecs := compress8Transposed h_vecs msg_vecs
    (mm256_of_words count_low) (mm256_of_words count_high)
    (mm256_of_words lastblock) (mm256_of_words lastnode)
  h_vecs.map mm256_to_words

/-- src/avx2.rs:655-695 `export_hashes`. -/
def exportHashes (h_vecs : Vector M256 8) (hash_length : U8) : Vector Hash 8 :=
  let deinterleaved := transposeVecs h_vecs
  #v[{ len := hash_length, bytes := mm256_to_bytes deinterleaved[0] },
     { len := hash_length, bytes := mm256_to_bytes deinterleaved[1] },
     { len := hash_length, bytes := mm256_to_bytes deinterleaved[2] },
     { len := hash_length, bytes := mm256_to_bytes deinterleaved[3] },
     { len := hash_length, bytes := mm256_to_bytes deinterleaved[4] },
     { len := hash_length, bytes := mm256_to_bytes deinterleaved[5] },
     { len := hash_length, bytes := mm256_to_bytes deinterleaved[6] },
     { len := hash_length, bytes := mm256_to_bytes deinterleaved[7] }]

/-- The `loop` of src/avx2.rs:730-763, with fuel. -/
def hash8ExactLoop (params : Params) (input : Vector (List U8) 8) (len : Nat) :
    Nat → Vector M256 8 → Nat → R (Vector Hash 8)
  | 0, _, _ => throw .nonTermination
  | fuel + 1, h_vecs, count => do
    let msg0 ← readBlockPtr input[0] count
    let msg1 ← readBlockPtr input[1] count
    let msg2 ← readBlockPtr input[2] count
    let msg3 ← readBlockPtr input[3] count
    let msg4 ← readBlockPtr input[4] count
    let msg5 ← readBlockPtr input[5] count
    let msg6 ← readBlockPtr input[6] count
    let msg7 ← readBlockPtr input[7] count
    let count := count + BLOCKBYTES
    let count_low := load256FromU32 ((BitVec.ofNat 64 count).setWidth 32)
    let count_high := load256FromU32 ((BitVec.ofNat 64 count >>> 32).setWidth 32)
    let lastblock := load256FromU32 (if count = len then ~~~ 0 else 0)
    let lastnode := load256FromU32 (if params.lastNode ∧ count = len then ~~~ 0 else 0)
    let msg_vecs := loadMsgVecsInterleave #v[msg0, msg1, msg2, msg3, msg4, msg5, msg6, msg7]
    let h_vecs := compress8Transposed h_vecs msg_vecs count_low count_high lastblock lastnode
    if count = len then
      return exportHashes h_vecs params.hashLength
    else
      hash8ExactLoop params input len fuel h_vecs count

/-- src/avx2.rs:698-764 `hash8_exact`. -/
def hash8Exact (params : Params) (input : Vector (List U8) 8) : R (Vector Hash 8) :=
  let w := params.makeWords
  let h_vecs : Vector M256 8 :=
    #v[load256FromU32 w[0], load256FromU32 w[1], load256FromU32 w[2], load256FromU32 w[3],
       load256FromU32 w[4], load256FromU32 w[5], load256FromU32 w[6], load256FromU32 w[7]]
  let len := input[0].length
  hash8ExactLoop params input len (len + 1) h_vecs 0

end Blake2s.Avx2
