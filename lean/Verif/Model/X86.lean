import Verif.Model.Prelude
/-!
# The x86 SIMD intrinsics used by src/sse41.rs and src/avx2.rs

`__m128i` and `__m256i` are bit vectors. Each intrinsic is written from the pseudo-code of Intel's
Intrinsics Guide. This file is part of the trusted base: it models the CPU, not code in /repo. The
`as i32` casts that the Rust code applies to `u32` arguments are bit-preserving and are omitted.
-/

namespace Blake2s.X86

/-- `__m128i` (src/sse41.rs:9). -/
abbrev M128 := BitVec 128
/-- `__m256i` (src/avx2.rs:18). -/
abbrev M256 := BitVec 256

/-- Lane number `i` (of width `w` bits, lane 0 least significant) of a register:
Intel's `x[w*i+w-1 : w*i]`. -/
def lane {n : Nat} (w i : Nat) (x : BitVec n) : BitVec w := x.extractLsb' (w * i) w

/-- The register whose lane `i` of width `w` is `f i`, for `i < k` (notation for Intel's
`dst[w*i+w-1 : w*i] := f i`). -/
def pack (w : Nat) : (k : Nat) → (Nat → BitVec w) → BitVec (w * k)
  | 0, _ => 0
  | k + 1, f => (f k ++ pack w k f).cast (by rw [Nat.mul_succ, Nat.add_comm])

/-- Two-bit field `j` of an 8-bit immediate (Intel's `imm8[2*j+1:2*j]`). -/
def imm2 (imm : BitVec 8) (j : Nat) : Nat := (imm.extractLsb' (2 * j) 2).toNat

/-- The macro `_MM_SHUFFLE!` of src/sse41.rs:107-111. -/
def MM_SHUFFLE (z y x w : BitVec 8) : BitVec 8 := (z <<< 6) ||| (y <<< 4) ||| (x <<< 2) ||| w

/-! ## Loads and stores (little-endian memory) -/

/-- `_mm_loadu_si128` from sixteen bytes. Called at src/sse41.rs:10, 16-19. -/
def mm_loadu_bytes (b : Vector U8 16) : M128 := pack 8 16 fun i => if h : i < 16 then b[i] else 0
/-- `_mm_loadu_si128` from four `u32`s (little-endian CPU). Called at src/sse41.rs:10. -/
def mm_loadu_words (a b c d : U32) : M128 :=
  pack 32 4 fun | 0 => a | 1 => b | 2 => c | _ => d
/-- `_mm_storeu_si128` to four `u32`s (little-endian CPU). Called at src/sse41.rs:25. -/
def mm_storeu_words (x : M128) : Vector U32 4 := Vector.ofFn fun i => lane 32 i.val x
/-- `_mm_storeu_si128` to sixteen bytes. Called at src/sse41.rs:25. -/
def mm_storeu_bytes (x : M128) : Vector U8 16 := Vector.ofFn fun i => lane 8 i.val x
/-- `_mm256_loadu_si256` from thirty-two bytes. Called at src/avx2.rs:370-371. -/
def mm256_loadu_bytes (b : Vector U8 32) : M256 := pack 8 32 fun i => if h : i < 32 then b[i] else 0
/-- `_mm256_loadu_si256` from eight `u32`s, also `mem::transmute::<[u32; 8], __m256i>`.
Called at src/avx2.rs:19, 580-583. -/
def mm256_of_words (w : Vector U32 8) : M256 := pack 32 8 fun i => if h : i < 8 then w[i] else 0
/-- `mem::transmute::<__m256i, [u32; 8]>`. Called at src/avx2.rs:317-324. -/
def mm256_to_words (x : M256) : Vector U32 8 := Vector.ofFn fun i => lane 32 i.val x
/-- `mem::transmute::<__m256i, [u8; 32]>`. Called at src/avx2.rs:664-692. -/
def mm256_to_bytes (x : M256) : Vector U8 32 := Vector.ofFn fun i => lane 8 i.val x

/-! ## Broadcasts and constants -/

/-- `_mm_setr_epi32(a, b, c, d)`: `a` is the lowest lane. Called at src/sse41.rs:30. -/
def mm_setr_epi32 (a b c d : U32) : M128 := pack 32 4 fun | 0 => a | 1 => b | 2 => c | _ => d
/-- `_mm_set1_epi32`. Called at src/sse41.rs:35. -/
def mm_set1_epi32 (a : U32) : M128 := pack 32 4 fun _ => a
/-- `_mm256_set1_epi32`. Called at src/avx2.rs:66. -/
def mm256_set1_epi32 (a : U32) : M256 := pack 32 8 fun _ => a
/-- `_mm256_set_epi32(e7, …, e0)`: the first argument is the highest lane. Called at src/avx2.rs:80. -/
def mm256_set_epi32 (e7 e6 e5 e4 e3 e2 e1 e0 : U32) : M256 :=
  pack 32 8 fun | 0 => e0 | 1 => e1 | 2 => e2 | 3 => e3 | 4 => e4 | 5 => e5 | 6 => e6 | _ => e7
/-- `_mm_set_epi8(e15, …, e0)`: the first argument (head of the vector) is the highest lane.
Called at src/sse41.rs:57. -/
def mm_set_epi8 (e : Vector U8 16) : M128 :=
  pack 8 16 fun i => if h : i < 16 then e[15 - i] else 0
/-- `_mm256_set_epi8(e31, …, e0)`: the first argument is the highest lane. Called at src/avx2.rs:36. -/
def mm256_set_epi8 (e : Vector U8 32) : M256 :=
  pack 8 32 fun i => if h : i < 32 then e[31 - i] else 0

/-! ## Lane-wise arithmetic -/

/-- `_mm_xor_si128`. Called at src/sse41.rs:40. -/
def mm_xor_si128 (a b : M128) : M128 := a ^^^ b
/-- `_mm256_xor_si256`. Called at src/avx2.rs:29. -/
def mm256_xor_si256 (a b : M256) : M256 := a ^^^ b
/-- `_mm256_or_si256`. Called at src/avx2.rs:45. -/
def mm256_or_si256 (a b : M256) : M256 := a ||| b
/-- `_mm_add_epi32`. Called at src/sse41.rs:45. -/
def mm_add_epi32 (a b : M128) : M128 := pack 32 4 fun i => lane 32 i a + lane 32 i b
/-- `_mm256_add_epi32`. Called at src/avx2.rs:24. -/
def mm256_add_epi32 (a b : M256) : M256 := pack 32 8 fun i => lane 32 i a + lane 32 i b
/-- `_mm_srli_epi32`. Called at src/sse41.rs:50. -/
def mm_srli_epi32 (a : M128) (n : Nat) : M128 := pack 32 4 fun i => lane 32 i a >>> n
/-- `_mm_slli_epi32`. Called at src/sse41.rs:50. -/
def mm_slli_epi32 (a : M128) (n : Nat) : M128 := pack 32 4 fun i => lane 32 i a <<< n
/-- `_mm256_srli_epi32`. Called at src/avx2.rs:45. -/
def mm256_srli_epi32 (a : M256) (n : Nat) : M256 := pack 32 8 fun i => lane 32 i a >>> n
/-- `_mm256_slli_epi32`. Called at src/avx2.rs:45. -/
def mm256_slli_epi32 (a : M256) (n : Nat) : M256 := pack 32 8 fun i => lane 32 i a <<< n

/-! ## Shuffles -/

/-- `_mm_shuffle_epi8`: byte `i` of the result is 0 if bit 7 of control byte `i` is set, else the byte
of `a` selected by the low four bits of control byte `i`. Called at src/sse41.rs:55. -/
def mm_shuffle_epi8 (a b : M128) : M128 := pack 8 16 fun i =>
  let c := lane 8 i b
  if c.getLsbD 7 then 0 else lane 8 (c.extractLsb' 0 4).toNat a
/-- `_mm256_shuffle_epi8`: as above within each 128-bit half. Called at src/avx2.rs:34. -/
def mm256_shuffle_epi8 (a b : M256) : M256 := pack 8 32 fun i =>
  let c := lane 8 i b
  if c.getLsbD 7 then 0 else lane 8 (16 * (i / 16) + (c.extractLsb' 0 4).toNat) a
/-- `_mm_shuffle_epi32`. Called at src/sse41.rs:115. -/
def mm_shuffle_epi32 (a : M128) (imm : BitVec 8) : M128 := pack 32 4 fun i => lane 32 (imm2 imm i) a
/-- `_mm_castps_si128(_mm_shuffle_ps(_mm_castsi128_ps(a), _mm_castsi128_ps(b), imm))`; the casts are
no-ops. Called at src/sse41.rs:143. -/
def mm_shuffle_ps (a b : M128) (imm : BitVec 8) : M128 := pack 32 4 fun
  | 0 => lane 32 (imm2 imm 0) a
  | 1 => lane 32 (imm2 imm 1) a
  | 2 => lane 32 (imm2 imm 2) b
  | _ => lane 32 (imm2 imm 3) b
/-- `_mm_shufflehi_epi16`: the low 64 bits are copied, the four high 16-bit lanes are permuted.
Called at src/sse41.rs:330. -/
def mm_shufflehi_epi16 (a : M128) (imm : BitVec 8) : M128 := pack 16 8 fun i =>
  if i < 4 then lane 16 i a else lane 16 (4 + imm2 imm (i - 4)) a
/-- `_mm_blend_epi16`. Called at src/sse41.rs:171. -/
def mm_blend_epi16 (a b : M128) (imm : BitVec 8) : M128 := pack 16 8 fun i =>
  if imm.getLsbD i then lane 16 i b else lane 16 i a
/-- `_mm_slli_si128`: shift left by whole bytes, shifting in zeros. Called at src/sse41.rs:172. -/
def mm_slli_si128 (a : M128) (n : Nat) : M128 := a <<< (8 * n)
/-- `_mm_srli_si128`: shift right by whole bytes, shifting in zeros. Called at src/sse41.rs:207. -/
def mm_srli_si128 (a : M128) (n : Nat) : M128 := a >>> (8 * n)
/-- `_mm_unpacklo_epi32`. Called at src/sse41.rs:200. -/
def mm_unpacklo_epi32 (a b : M128) : M128 := pack 32 4 fun
  | 0 => lane 32 0 a | 1 => lane 32 0 b | 2 => lane 32 1 a | _ => lane 32 1 b
/-- `_mm_unpackhi_epi32`. Called at src/sse41.rs:187. -/
def mm_unpackhi_epi32 (a b : M128) : M128 := pack 32 4 fun
  | 0 => lane 32 2 a | 1 => lane 32 2 b | 2 => lane 32 3 a | _ => lane 32 3 b
/-- `_mm_unpacklo_epi64`. Called at src/sse41.rs:236. -/
def mm_unpacklo_epi64 (a b : M128) : M128 := pack 64 2 fun
  | 0 => lane 64 0 a | _ => lane 64 0 b
/-- `_mm_unpackhi_epi64`. Called at src/sse41.rs:242. -/
def mm_unpackhi_epi64 (a b : M128) : M128 := pack 64 2 fun
  | 0 => lane 64 1 a | _ => lane 64 1 b

/-- `_mm256_unpacklo_epi32`: `_mm_unpacklo_epi32` within each 128-bit half. Called at src/avx2.rs:404. -/
def mm256_unpacklo_epi32 (a b : M256) : M256 := pack 128 2 fun i =>
  mm_unpacklo_epi32 (lane 128 i a) (lane 128 i b)
/-- `_mm256_unpackhi_epi32`. Called at src/avx2.rs:405. -/
def mm256_unpackhi_epi32 (a b : M256) : M256 := pack 128 2 fun i =>
  mm_unpackhi_epi32 (lane 128 i a) (lane 128 i b)
/-- `_mm256_unpacklo_epi64`. Called at src/avx2.rs:414. -/
def mm256_unpacklo_epi64 (a b : M256) : M256 := pack 128 2 fun i =>
  mm_unpacklo_epi64 (lane 128 i a) (lane 128 i b)
/-- `_mm256_unpackhi_epi64`. Called at src/avx2.rs:415. -/
def mm256_unpackhi_epi64 (a b : M256) : M256 := pack 128 2 fun i =>
  mm_unpackhi_epi64 (lane 128 i a) (lane 128 i b)

/-- One half of `_mm256_permute2x128_si256` (Intel's `SELECT4`): control bits 1:0 choose a 128-bit half
of `a` or `b`, control bit 3 zeroes. -/
def select4 (a b : M256) (ctl : BitVec 4) : M128 :=
  if ctl.getLsbD 3 then 0 else
    match (ctl.extractLsb' 0 2).toNat with
    | 0 => lane 128 0 a
    | 1 => lane 128 1 a
    | 2 => lane 128 0 b
    | _ => lane 128 1 b
/-- `_mm256_permute2x128_si256`. Called at src/avx2.rs:330. -/
def mm256_permute2x128_si256 (a b : M256) (imm : BitVec 8) : M256 := pack 128 2 fun
  | 0 => select4 a b (imm.extractLsb' 0 4)
  | _ => select4 a b (imm.extractLsb' 4 4)

end Blake2s.X86
