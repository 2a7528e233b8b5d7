import Verif.Model.X86
import Verif.Model.Params
/-!
# Model of src/sse41.rs
-/

namespace Blake2s.Sse41

open Blake2s.X86

/-- src/sse41.rs:14-21 `loadu_4`. -/
def loadu4 (p : Block) : Vector M128 4 :=
  #v[mm_loadu_bytes (subArray p 0 16), mm_loadu_bytes (subArray p 16 16),
     mm_loadu_bytes (subArray p 32 16), mm_loadu_bytes (subArray p 48 16)]

/-- src/sse41.rs:29-31 `setr`. -/
def setr (a b c d : U32) : M128 := mm_setr_epi32 a b c d

/-- src/sse41.rs:34-36 `set1`. -/
def set1 (a : U32) : M128 := mm_set1_epi32 a

/-- src/sse41.rs:39-41 `xor`. -/
def xor (a b : M128) : M128 := mm_xor_si128 a b

/-- src/sse41.rs:44-46 `add`. -/
def add (a b : M128) : M128 := mm_add_epi32 a b

/-- src/sse41.rs:49-51 `rot7`. -/
def rot7 (a : M128) : M128 := xor (mm_srli_epi32 a 7) (mm_slli_epi32 a (32 - 7))

/-- src/sse41.rs:54-59 `rot8`. -/
def rot8 (a : M128) : M128 :=
  mm_shuffle_epi8 a (mm_set_epi8 #v[12, 15, 14, 13, 8, 11, 10, 9, 4, 7, 6, 5, 0, 3, 2, 1])

/-- src/sse41.rs:62-64 `rot12`. -/
def rot12 (a : M128) : M128 := xor (mm_srli_epi32 a 12) (mm_slli_epi32 a (32 - 12))

/-- src/sse41.rs:67-72 `rot16`. -/
def rot16 (a : M128) : M128 :=
  mm_shuffle_epi8 a (mm_set_epi8 #v[13, 12, 15, 14, 9, 8, 11, 10, 5, 4, 7, 6, 1, 0, 3, 2])

/-- The four mutable locals `row1` … `row4` of src/sse41.rs:129-135. -/
structure Rows where
  row1 : M128
  row2 : M128
  row3 : M128
  row4 : M128

/-- src/sse41.rs:75-88 `g1`. -/
def g1 (r : Rows) (m : M128) : Rows :=
  let row1 := add (add r.row1 m) r.row2
  let row4 := xor r.row4 row1
  let row4 := rot16 row4
  let row3 := add r.row3 row4
  let row2 := xor r.row2 row3
  let row2 := rot12 row2
  ⟨row1, row2, row3, row4⟩

/-- src/sse41.rs:91-104 `g2`. -/
def g2 (r : Rows) (m : M128) : Rows :=
  let row1 := add (add r.row1 m) r.row2
  let row4 := xor r.row4 row1
  let row4 := rot8 row4
  let row3 := add r.row3 row4
  let row2 := xor r.row2 row3
  let row2 := rot7 row2
  ⟨row1, row2, row3, row4⟩

/-- src/sse41.rs:114-118 `diagonalize`. -/
def diagonalize (r : Rows) : Rows :=
  { r with
    row4 := mm_shuffle_epi32 r.row4 (MM_SHUFFLE 2 1 0 3)
    row3 := mm_shuffle_epi32 r.row3 (MM_SHUFFLE 1 0 3 2)
    row2 := mm_shuffle_epi32 r.row2 (MM_SHUFFLE 0 3 2 1) }

/-- src/sse41.rs:121-125 `undiagonalize`. -/
def undiagonalize (r : Rows) : Rows :=
  { r with
    row4 := mm_shuffle_epi32 r.row4 (MM_SHUFFLE 0 3 2 1)
    row3 := mm_shuffle_epi32 r.row3 (MM_SHUFFLE 1 0 3 2)
    row2 := mm_shuffle_epi32 r.row2 (MM_SHUFFLE 2 1 0 3) }

/-- Round 1 of `compress`, src/sse41.rs:142-168. -/
def round1 (m0 m1 m2 m3 : M128) (row : Rows) : Rows :=
  let buf := mm_shuffle_ps m0 m1 (MM_SHUFFLE 2 0 2 0)
  let row := g1 row buf
  let buf := mm_shuffle_ps m0 m1 (MM_SHUFFLE 3 1 3 1)
  let row := g2 row buf
  let row := diagonalize row
  let buf := mm_shuffle_ps m2 m3 (MM_SHUFFLE 2 0 2 0)
  let row := g1 row buf
  let buf := mm_shuffle_ps m2 m3 (MM_SHUFFLE 3 1 3 1)
  let row := g2 row buf
  let row := undiagonalize row
  row

/-- Round 2 of `compress`, src/sse41.rs:170-192. -/
def round2 (m0 m1 m2 m3 : M128) (row : Rows) : Rows :=
  let t0 := mm_blend_epi16 m1 m2 0x0C
  let t1 := mm_slli_si128 m3 4
  let t2 := mm_blend_epi16 t0 t1 0xF0
  let buf := mm_shuffle_epi32 t2 (MM_SHUFFLE 2 1 0 3)
  let row := g1 row buf
  let t0 := mm_shuffle_epi32 m2 (MM_SHUFFLE 0 0 2 0)
  let t1 := mm_blend_epi16 m1 m3 0xC0
  let t2 := mm_blend_epi16 t0 t1 0xF0
  let buf := mm_shuffle_epi32 t2 (MM_SHUFFLE 2 3 0 1)
  let row := g2 row buf
  let row := diagonalize row
  let t0 := mm_slli_si128 m1 4
  let t1 := mm_blend_epi16 m2 t0 0x30
  let t2 := mm_blend_epi16 m0 t1 0xF0
  let buf := mm_shuffle_epi32 t2 (MM_SHUFFLE 2 3 0 1)
  let row := g1 row buf
  let t0 := mm_unpackhi_epi32 m0 m1
  let t1 := mm_slli_si128 m3 4
  let t2 := mm_blend_epi16 t0 t1 0x0C
  let buf := mm_shuffle_epi32 t2 (MM_SHUFFLE 2 3 0 1)
  let row := g2 row buf
  let row := undiagonalize row
  row

/-- Round 3 of `compress`, src/sse41.rs:194-216. -/
def round3 (m0 m1 m2 m3 : M128) (row : Rows) : Rows :=
  let t0 := mm_unpackhi_epi32 m2 m3
  let t1 := mm_blend_epi16 m3 m1 0x0C
  let t2 := mm_blend_epi16 t0 t1 0x0F
  let buf := mm_shuffle_epi32 t2 (MM_SHUFFLE 3 1 0 2)
  let row := g1 row buf
  let t0 := mm_unpacklo_epi32 m2 m0
  let t1 := mm_blend_epi16 t0 m0 0xF0
  let t2 := mm_slli_si128 m3 8
  let buf := mm_blend_epi16 t1 t2 0xC0
  let row := g2 row buf
  let row := diagonalize row
  let t0 := mm_blend_epi16 m0 m2 0x3C
  let t1 := mm_srli_si128 m1 12
  let t2 := mm_blend_epi16 t0 t1 0x03
  let buf := mm_shuffle_epi32 t2 (MM_SHUFFLE 1 0 3 2)
  let row := g1 row buf
  let t0 := mm_slli_si128 m3 4
  let t1 := mm_blend_epi16 m0 m1 0x33
  let t2 := mm_blend_epi16 t1 t0 0xC0
  let buf := mm_shuffle_epi32 t2 (MM_SHUFFLE 0 1 2 3)
  let row := g2 row buf
  let row := undiagonalize row
  row

/-- Round 4 of `compress`, src/sse41.rs:218-238. -/
def round4 (m0 m1 m2 m3 : M128) (row : Rows) : Rows :=
  let t0 := mm_unpackhi_epi32 m0 m1
  let t1 := mm_unpackhi_epi32 t0 m2
  let t2 := mm_blend_epi16 t1 m3 0x0C
  let buf := mm_shuffle_epi32 t2 (MM_SHUFFLE 3 1 0 2)
  let row := g1 row buf
  let t0 := mm_slli_si128 m2 8
  let t1 := mm_blend_epi16 m3 m0 0x0C
  let t2 := mm_blend_epi16 t1 t0 0xC0
  let buf := mm_shuffle_epi32 t2 (MM_SHUFFLE 2 0 1 3)
  let row := g2 row buf
  let row := diagonalize row
  let t0 := mm_blend_epi16 m0 m1 0x0F
  let t1 := mm_blend_epi16 t0 m3 0xC0
  let buf := mm_shuffle_epi32 t1 (MM_SHUFFLE 3 0 1 2)
  let row := g1 row buf
  let t0 := mm_unpacklo_epi32 m0 m2
  let t1 := mm_unpackhi_epi32 m1 m2
  let buf := mm_unpacklo_epi64 t1 t0
  let row := g2 row buf
  let row := undiagonalize row
  row

/-- Round 5 of `compress`, src/sse41.rs:240-260. -/
def round5 (m0 m1 m2 m3 : M128) (row : Rows) : Rows :=
  let t0 := mm_unpacklo_epi64 m1 m2
  let t1 := mm_unpackhi_epi64 m0 m2
  let t2 := mm_blend_epi16 t0 t1 0x33
  let buf := mm_shuffle_epi32 t2 (MM_SHUFFLE 2 0 1 3)
  let row := g1 row buf
  let t0 := mm_unpackhi_epi64 m1 m3
  let t1 := mm_unpacklo_epi64 m0 m1
  let buf := mm_blend_epi16 t0 t1 0x33
  let row := g2 row buf
  let row := diagonalize row
  let t0 := mm_unpackhi_epi64 m3 m1
  let t1 := mm_unpackhi_epi64 m2 m0
  let buf := mm_blend_epi16 t1 t0 0x33
  let row := g1 row buf
  let t0 := mm_blend_epi16 m0 m2 0x03
  let t1 := mm_slli_si128 t0 8
  let t2 := mm_blend_epi16 t1 m3 0x0F
  let buf := mm_shuffle_epi32 t2 (MM_SHUFFLE 1 2 0 3)
  let row := g2 row buf
  let row := undiagonalize row
  row

/-- Round 6 of `compress`, src/sse41.rs:262-281. -/
def round6 (m0 m1 m2 m3 : M128) (row : Rows) : Rows :=
  let t0 := mm_unpackhi_epi32 m0 m1
  let t1 := mm_unpacklo_epi32 m0 m2
  let buf := mm_unpacklo_epi64 t0 t1
  let row := g1 row buf
  let t0 := mm_srli_si128 m2 4
  let t1 := mm_blend_epi16 m0 m3 0x03
  let buf := mm_blend_epi16 t1 t0 0x3C
  let row := g2 row buf
  let row := diagonalize row
  let t0 := mm_blend_epi16 m1 m0 0x0C
  let t1 := mm_srli_si128 m3 4
  let t2 := mm_blend_epi16 t0 t1 0x30
  let buf := mm_shuffle_epi32 t2 (MM_SHUFFLE 1 2 3 0)
  let row := g1 row buf
  let t0 := mm_unpacklo_epi64 m1 m2
  let t1 := mm_shuffle_epi32 m3 (MM_SHUFFLE 0 2 0 1)
  let buf := mm_blend_epi16 t0 t1 0x33
  let row := g2 row buf
  let row := undiagonalize row
  row

/-- Round 7 of `compress`, src/sse41.rs:283-302. -/
def round7 (m0 m1 m2 m3 : M128) (row : Rows) : Rows :=
  let t0 := mm_slli_si128 m1 12
  let t1 := mm_blend_epi16 m0 m3 0x33
  let buf := mm_blend_epi16 t1 t0 0xC0
  let row := g1 row buf
  let t0 := mm_blend_epi16 m3 m2 0x30
  let t1 := mm_srli_si128 m1 4
  let t2 := mm_blend_epi16 t0 t1 0x03
  let buf := mm_shuffle_epi32 t2 (MM_SHUFFLE 2 1 3 0)
  let row := g2 row buf
  let row := diagonalize row
  let t0 := mm_unpacklo_epi64 m0 m2
  let t1 := mm_srli_si128 m1 4
  let buf := mm_shuffle_epi32 (mm_blend_epi16 t0 t1 0x0C) (MM_SHUFFLE 2 3 1 0)
  let row := g1 row buf
  let t0 := mm_unpackhi_epi32 m1 m2
  let t1 := mm_unpackhi_epi64 m0 t0
  let buf := mm_shuffle_epi32 t1 (MM_SHUFFLE 3 0 1 2)
  let row := g2 row buf
  let row := undiagonalize row
  row

/-- Round 8 of `compress`, src/sse41.rs:304-324. -/
def round8 (m0 m1 m2 m3 : M128) (row : Rows) : Rows :=
  let t0 := mm_unpackhi_epi32 m0 m1
  let t1 := mm_blend_epi16 t0 m3 0x0F
  let buf := mm_shuffle_epi32 t1 (MM_SHUFFLE 2 0 3 1)
  let row := g1 row buf
  let t0 := mm_blend_epi16 m2 m3 0x30
  let t1 := mm_srli_si128 m0 4
  let t2 := mm_blend_epi16 t0 t1 0x03
  let buf := mm_shuffle_epi32 t2 (MM_SHUFFLE 1 0 2 3)
  let row := g2 row buf
  let row := diagonalize row
  let t0 := mm_unpackhi_epi64 m0 m3
  let t1 := mm_unpacklo_epi64 m1 m2
  let t2 := mm_blend_epi16 t0 t1 0x3C
  let buf := mm_shuffle_epi32 t2 (MM_SHUFFLE 0 2 3 1)
  let row := g1 row buf
  let t0 := mm_unpacklo_epi32 m0 m1
  let t1 := mm_unpackhi_epi32 m1 m2
  let buf := mm_unpacklo_epi64 t0 t1
  let row := g2 row buf
  let row := undiagonalize row
  row

/-- Round 9 of `compress`, src/sse41.rs:326-344. -/
def round9 (m0 m1 m2 m3 : M128) (row : Rows) : Rows :=
  let t0 := mm_unpackhi_epi32 m1 m3
  let t1 := mm_unpacklo_epi64 t0 m0
  let t2 := mm_blend_epi16 t1 m2 0xC0
  let buf := mm_shufflehi_epi16 t2 (MM_SHUFFLE 1 0 3 2)
  let row := g1 row buf
  let t0 := mm_unpackhi_epi32 m0 m3
  let t1 := mm_blend_epi16 m2 t0 0xF0
  let buf := mm_shuffle_epi32 t1 (MM_SHUFFLE 0 2 1 3)
  let row := g2 row buf
  let row := diagonalize row
  let t0 := mm_blend_epi16 m2 m0 0x0C
  let t1 := mm_slli_si128 t0 4
  let buf := mm_blend_epi16 t1 m3 0x0F
  let row := g1 row buf
  let t0 := mm_blend_epi16 m1 m0 0x30
  let buf := mm_shuffle_epi32 t0 (MM_SHUFFLE 1 0 3 2)
  let row := g2 row buf
  let row := undiagonalize row
  row

/-- Round 10 of `compress`, src/sse41.rs:346-367. -/
def round10 (m0 m1 m2 m3 : M128) (row : Rows) : Rows :=
  let t0 := mm_blend_epi16 m0 m2 0x03
  let t1 := mm_blend_epi16 m1 m2 0x30
  let t2 := mm_blend_epi16 t1 t0 0x0F
  let buf := mm_shuffle_epi32 t2 (MM_SHUFFLE 1 3 0 2)
  let row := g1 row buf
  let t0 := mm_slli_si128 m0 4
  let t1 := mm_blend_epi16 m1 t0 0xC0
  let buf := mm_shuffle_epi32 t1 (MM_SHUFFLE 1 2 0 3)
  let row := g2 row buf
  let row := diagonalize row
  let t0 := mm_unpackhi_epi32 m0 m3
  let t1 := mm_unpacklo_epi32 m2 m3
  let t2 := mm_unpackhi_epi64 t0 t1
  let buf := mm_shuffle_epi32 t2 (MM_SHUFFLE 3 0 2 1)
  let row := g1 row buf
  let t0 := mm_blend_epi16 m3 m2 0xC0
  let t1 := mm_unpacklo_epi32 m0 m3
  let t2 := mm_blend_epi16 t0 t1 0x0F
  let buf := mm_shuffle_epi32 t2 (MM_SHUFFLE 0 1 2 3)
  let row := g2 row buf
  let row := undiagonalize row
  row

/-- src/sse41.rs:128-371 `compress`; the ten rounds are the definitions above. -/
def compress (h : StateWords) (msg : Block) (count : U64) (lastblock lastnode : U32) : StateWords :=
  let row1 := mm_loadu_words h[0] h[1] h[2] h[3]
  let row2 := mm_loadu_words h[4] h[5] h[6] h[7]
  let row3 := mm_loadu_words IV[0] IV[1] IV[2] IV[3]
  let row4 := xor (mm_loadu_words IV[4] IV[5] IV[6] IV[7])
    (setr (count.setWidth 32) ((count >>> 32).setWidth 32) lastblock lastnode)
  let m0 := mm_loadu_bytes (subArray msg 0 16)
  let m1 := mm_loadu_bytes (subArray msg 16 16)
  let m2 := mm_loadu_bytes (subArray msg 32 16)
  let m3 := mm_loadu_bytes (subArray msg 48 16)
  let row : Rows := ⟨row1, row2, row3, row4⟩
  let row := round1 m0 m1 m2 m3 row
  let row := round2 m0 m1 m2 m3 row
  let row := round3 m0 m1 m2 m3 row
  let row := round4 m0 m1 m2 m3 row
  let row := round5 m0 m1 m2 m3 row
  let row := round6 m0 m1 m2 m3 row
  let row := round7 m0 m1 m2 m3 row
  let row := round8 m0 m1 m2 m3 row
  let row := round9 m0 m1 m2 m3 row
  let row := round10 m0 m1 m2 m3 row
  let lo := mm_storeu_words
    (xor (mm_loadu_words h[0] h[1] h[2] h[3]) (xor row.row1 row.row3))
  let hi := mm_storeu_words
    (xor (mm_loadu_words h[4] h[5] h[6] h[7]) (xor row.row2 row.row4))
  lo ++ hi

/-- src/sse41.rs:374-395 `transpose_vecs`. -/
def transposeVecs (vec_a vec_b vec_c vec_d : M128) : Vector M128 4 :=
  let ab_01 := mm_unpacklo_epi32 vec_a vec_b
  let ab_23 := mm_unpackhi_epi32 vec_a vec_b
  let cd_01 := mm_unpacklo_epi32 vec_c vec_d
  let cd_23 := mm_unpackhi_epi32 vec_c vec_d
  let abcd_0 := mm_unpacklo_epi64 ab_01 cd_01
  let abcd_1 := mm_unpackhi_epi64 ab_01 cd_01
  let abcd_2 := mm_unpacklo_epi64 ab_23 cd_23
  let abcd_3 := mm_unpackhi_epi64 ab_23 cd_23
  #v[abcd_0, abcd_1, abcd_2, abcd_3]

/-- src/sse41.rs:442-476 `transpose_message_blocks`. -/
def transposeMessageBlocks (msg_a msg_b msg_c msg_d : Block) : Vector M128 16 :=
  let a := loadu4 msg_a
  let b := loadu4 msg_b
  let c := loadu4 msg_c
  let d := loadu4 msg_d
  let transposed0 := transposeVecs a[0] b[0] c[0] d[0]
  let transposed1 := transposeVecs a[1] b[1] c[1] d[1]
  let transposed2 := transposeVecs a[2] b[2] c[2] d[2]
  let transposed3 := transposeVecs a[3] b[3] c[3] d[3]
  #v[transposed0[0], transposed0[1], transposed0[2], transposed0[3],
     transposed1[0], transposed1[1], transposed1[2], transposed1[3],
     transposed2[0], transposed2[1], transposed2[2], transposed2[3],
     transposed3[0], transposed3[1], transposed3[2], transposed3[3]]

/-- First half (columns) of `round_4`, src/sse41.rs:479-535. The array elements `v[0]` … `v[15]` are local
variables `v0` … `v15`; each assignment `v[i] = e` shadows `vi`; `s i` is the message word
`m[SIGMA[r][i] as usize]`. -/
def round_4_columns (v m : Vector M128 16) (r : Fin 12) : Vector M128 16 :=
  let s : Fin 16 → M128 := fun i => m[SIGMA[r][i]]
  let v0 : M128 := v[0]
  let v1 : M128 := v[1]
  let v2 : M128 := v[2]
  let v3 : M128 := v[3]
  let v4 : M128 := v[4]
  let v5 : M128 := v[5]
  let v6 : M128 := v[6]
  let v7 : M128 := v[7]
  let v8 : M128 := v[8]
  let v9 : M128 := v[9]
  let v10 : M128 := v[10]
  let v11 : M128 := v[11]
  let v12 : M128 := v[12]
  let v13 : M128 := v[13]
  let v14 : M128 := v[14]
  let v15 : M128 := v[15]
  let v0 : M128 := add v0 (s 0)
  let v1 : M128 := add v1 (s 2)
  let v2 : M128 := add v2 (s 4)
  let v3 : M128 := add v3 (s 6)
  let v0 : M128 := add v0 v4
  let v1 : M128 := add v1 v5
  let v2 : M128 := add v2 v6
  let v3 : M128 := add v3 v7
  let v12 : M128 := xor v12 v0
  let v13 : M128 := xor v13 v1
  let v14 : M128 := xor v14 v2
  let v15 : M128 := xor v15 v3
  let v12 : M128 := rot16 v12
  let v13 : M128 := rot16 v13
  let v14 : M128 := rot16 v14
  let v15 : M128 := rot16 v15
  let v8 : M128 := add v8 v12
  let v9 : M128 := add v9 v13
  let v10 : M128 := add v10 v14
  let v11 : M128 := add v11 v15
  let v4 : M128 := xor v4 v8
  let v5 : M128 := xor v5 v9
  let v6 : M128 := xor v6 v10
  let v7 : M128 := xor v7 v11
  let v4 : M128 := rot12 v4
  let v5 : M128 := rot12 v5
  let v6 : M128 := rot12 v6
  let v7 : M128 := rot12 v7
  let v0 : M128 := add v0 (s 1)
  let v1 : M128 := add v1 (s 3)
  let v2 : M128 := add v2 (s 5)
  let v3 : M128 := add v3 (s 7)
  let v0 : M128 := add v0 v4
  let v1 : M128 := add v1 v5
  let v2 : M128 := add v2 v6
  let v3 : M128 := add v3 v7
  let v12 : M128 := xor v12 v0
  let v13 : M128 := xor v13 v1
  let v14 : M128 := xor v14 v2
  let v15 : M128 := xor v15 v3
  let v12 : M128 := rot8 v12
  let v13 : M128 := rot8 v13
  let v14 : M128 := rot8 v14
  let v15 : M128 := rot8 v15
  let v8 : M128 := add v8 v12
  let v9 : M128 := add v9 v13
  let v10 : M128 := add v10 v14
  let v11 : M128 := add v11 v15
  let v4 : M128 := xor v4 v8
  let v5 : M128 := xor v5 v9
  let v6 : M128 := xor v6 v10
  let v7 : M128 := xor v7 v11
  let v4 : M128 := rot7 v4
  let v5 : M128 := rot7 v5
  let v6 : M128 := rot7 v6
  let v7 : M128 := rot7 v7
  #v[v0, v1, v2, v3, v4, v5, v6, v7, v8, v9, v10, v11, v12, v13, v14, v15]

/-- Second half (diagonals) of `round_4`, src/sse41.rs:537-593. -/
def round_4_diagonals (v m : Vector M128 16) (r : Fin 12) : Vector M128 16 :=
  let s : Fin 16 → M128 := fun i => m[SIGMA[r][i]]
  let v0 : M128 := v[0]
  let v1 : M128 := v[1]
  let v2 : M128 := v[2]
  let v3 : M128 := v[3]
  let v4 : M128 := v[4]
  let v5 : M128 := v[5]
  let v6 : M128 := v[6]
  let v7 : M128 := v[7]
  let v8 : M128 := v[8]
  let v9 : M128 := v[9]
  let v10 : M128 := v[10]
  let v11 : M128 := v[11]
  let v12 : M128 := v[12]
  let v13 : M128 := v[13]
  let v14 : M128 := v[14]
  let v15 : M128 := v[15]
  let v0 : M128 := add v0 (s 8)
  let v1 : M128 := add v1 (s 10)
  let v2 : M128 := add v2 (s 12)
  let v3 : M128 := add v3 (s 14)
  let v0 : M128 := add v0 v5
  let v1 : M128 := add v1 v6
  let v2 : M128 := add v2 v7
  let v3 : M128 := add v3 v4
  let v15 : M128 := xor v15 v0
  let v12 : M128 := xor v12 v1
  let v13 : M128 := xor v13 v2
  let v14 : M128 := xor v14 v3
  let v15 : M128 := rot16 v15
  let v12 : M128 := rot16 v12
  let v13 : M128 := rot16 v13
  let v14 : M128 := rot16 v14
  let v10 : M128 := add v10 v15
  let v11 : M128 := add v11 v12
  let v8 : M128 := add v8 v13
  let v9 : M128 := add v9 v14
  let v5 : M128 := xor v5 v10
  let v6 : M128 := xor v6 v11
  let v7 : M128 := xor v7 v8
  let v4 : M128 := xor v4 v9
  let v5 : M128 := rot12 v5
  let v6 : M128 := rot12 v6
  let v7 : M128 := rot12 v7
  let v4 : M128 := rot12 v4
  let v0 : M128 := add v0 (s 9)
  let v1 : M128 := add v1 (s 11)
  let v2 : M128 := add v2 (s 13)
  let v3 : M128 := add v3 (s 15)
  let v0 : M128 := add v0 v5
  let v1 : M128 := add v1 v6
  let v2 : M128 := add v2 v7
  let v3 : M128 := add v3 v4
  let v15 : M128 := xor v15 v0
  let v12 : M128 := xor v12 v1
  let v13 : M128 := xor v13 v2
  let v14 : M128 := xor v14 v3
  let v15 : M128 := rot8 v15
  let v12 : M128 := rot8 v12
  let v13 : M128 := rot8 v13
  let v14 : M128 := rot8 v14
  let v10 : M128 := add v10 v15
  let v11 : M128 := add v11 v12
  let v8 : M128 := add v8 v13
  let v9 : M128 := add v9 v14
  let v5 : M128 := xor v5 v10
  let v6 : M128 := xor v6 v11
  let v7 : M128 := xor v7 v8
  let v4 : M128 := xor v4 v9
  let v5 : M128 := rot7 v5
  let v6 : M128 := rot7 v6
  let v7 : M128 := rot7 v7
  let v4 : M128 := rot7 v4
  #v[v0, v1, v2, v3, v4, v5, v6, v7, v8, v9, v10, v11, v12, v13, v14, v15]

/-- src/sse41.rs:479-593 `round_4`; the body is the two definitions above one after the other. -/
def round_4 (v m : Vector M128 16) (r : Fin 12) : Vector M128 16 :=
  round_4_diagonals (round_4_columns v m r) m r

/-- src/sse41.rs:596-647 `compress4_transposed_inline` (and its wrapper
`compress4_transposed`, src/sse41.rs:651-665). -/
def compress4Transposed (h_vecs : Vector M128 8) (msg : Vector Block 4)
    (count_low count_high lastblock lastnode : M128) : Vector M128 8 :=
  let v : Vector M128 16 :=
    #v[h_vecs[0], h_vecs[1], h_vecs[2], h_vecs[3], h_vecs[4], h_vecs[5], h_vecs[6], h_vecs[7],
       set1 IV[0], set1 IV[1], set1 IV[2], set1 IV[3],
       xor (set1 IV[4]) count_low,
       xor (set1 IV[5]) count_high,
       xor (set1 IV[6]) lastblock,
       xor (set1 IV[7]) lastnode]
  let msg_vecs := transposeMessageBlocks msg[0] msg[1] msg[2] msg[3]
  let v := round_4 v msg_vecs 0
  let v := round_4 v msg_vecs 1
  let v := round_4 v msg_vecs 2
  let v := round_4 v msg_vecs 3
  let v := round_4 v msg_vecs 4
  let v := round_4 v msg_vecs 5
  let v := round_4 v msg_vecs 6
  let v := round_4 v msg_vecs 7
  let v := round_4 v msg_vecs 8
  let v := round_4 v msg_vecs 9
  #v[xor (xor h_vecs[0] v[0]) v[8],
     xor (xor h_vecs[1] v[1]) v[9],
     xor (xor h_vecs[2] v[2]) v[10],
     xor (xor h_vecs[3] v[3]) v[11],
     xor (xor h_vecs[4] v[4]) v[12],
     xor (xor h_vecs[5] v[5]) v[13],
     xor (xor h_vecs[6] v[6]) v[14],
     xor (xor h_vecs[7] v[7]) v[15]]

/-- src/sse41.rs:668-704 `export_hashes`: each digest is the store of the low half at offset 0 and of
the high half at offset 16 of a 32-byte array. -/
def exportHashes (h_vecs : Vector M128 8) (hash_length : U8) : Vector Hash 4 :=
  let deinterleaved_lo := transposeVecs h_vecs[0] h_vecs[1] h_vecs[2] h_vecs[3]
  let deinterleaved_hi := transposeVecs h_vecs[4] h_vecs[5] h_vecs[6] h_vecs[7]
  let bytes0 : Vector U8 32 := mm_storeu_bytes deinterleaved_lo[0] ++ mm_storeu_bytes deinterleaved_hi[0]
  let bytes1 : Vector U8 32 := mm_storeu_bytes deinterleaved_lo[1] ++ mm_storeu_bytes deinterleaved_hi[1]
  let bytes2 : Vector U8 32 := mm_storeu_bytes deinterleaved_lo[2] ++ mm_storeu_bytes deinterleaved_hi[2]
  let bytes3 : Vector U8 32 := mm_storeu_bytes deinterleaved_lo[3] ++ mm_storeu_bytes deinterleaved_hi[3]
  #v[{ len := hash_length, bytes := bytes0 },
     { len := hash_length, bytes := bytes1 },
     { len := hash_length, bytes := bytes2 },
     { len := hash_length, bytes := bytes3 }]

/-- The `loop` of src/sse41.rs:734-765, with fuel. -/
def hash4ExactLoop (params : Params) (input : Vector (List U8) 4) (len : Nat) :
    Nat → Vector M128 8 → Nat → R (Vector Hash 4)
  | 0, _, _ => throw .nonTermination
  | fuel + 1, h_vecs, count => do
    let msg0 ← readBlockPtr input[0] count
    let msg1 ← readBlockPtr input[1] count
    let msg2 ← readBlockPtr input[2] count
    let msg3 ← readBlockPtr input[3] count
    let count := count + BLOCKBYTES
    let count_low := set1 ((BitVec.ofNat 64 count).setWidth 32)
    let count_high := set1 ((BitVec.ofNat 64 count >>> 32).setWidth 32)
    let lastblock := set1 (if count = len then ~~~ 0 else 0)
    let lastnode := set1 (if params.lastNode ∧ count = len then ~~~ 0 else 0)
    let h_vecs := compress4Transposed h_vecs #v[msg0, msg1, msg2, msg3]
      count_low count_high lastblock lastnode
    if count = len then
      return exportHashes h_vecs params.hashLength
    else
      hash4ExactLoop params input len fuel h_vecs count

/-- src/sse41.rs:707-766 `hash4_exact`. -/
def hash4Exact (params : Params) (input : Vector (List U8) 4) : R (Vector Hash 4) :=
  let w := params.makeWords
  let h_vecs : Vector M128 8 :=
    #v[set1 w[0], set1 w[1], set1 w[2], set1 w[3], set1 w[4], set1 w[5], set1 w[6], set1 w[7]]
  let len := input[0].length
  hash4ExactLoop params input len (len + 1) h_vecs 0

end Blake2s.Sse41
