/-!
# Model prelude: machine integers, faults, build/platform environment, slices

The model of the Rust code lives in namespace `Blake2s`. Everything that can panic (or be undefined
behaviour) in Rust returns `R α`.
-/

namespace Blake2s

/-- The machine integers of Rust (src/lib.rs:137-138 and throughout). -/
abbrev U8 := BitVec 8
/-- `u16` (src/blake2sp.rs:88 `buflen`). -/
abbrev U16 := BitVec 16
/-- `u32` (src/lib.rs:137 `StateWords`). -/
abbrev U32 := BitVec 32
/-- `u64` (src/lib.rs:310 `count`). -/
abbrev U64 := BitVec 64

/-- src/lib.rs:30 `OUTBYTES`. -/
abbrev OUTBYTES : Nat := 32
/-- src/lib.rs:32 `KEYBYTES`. -/
abbrev KEYBYTES : Nat := 32
/-- src/lib.rs:34 `SALTBYTES`. -/
abbrev SALTBYTES : Nat := 8
/-- src/lib.rs:36 `PERSONALBYTES`. -/
abbrev PERSONALBYTES : Nat := 8
/-- src/lib.rs:39 `BLOCKBYTES`. -/
abbrev BLOCKBYTES : Nat := 64

/-- src/lib.rs:137 `type StateWords = [u32; 8]`. -/
abbrev StateWords := Vector U32 8
/-- src/lib.rs:138 `type Block = [u8; BLOCKBYTES]`. -/
abbrev Block := Vector U8 64

/-- The ways in which an execution can go wrong. The first five are Rust panics; the next two are
undefined behaviour that `unsafe` code could reach; the last is a loop that does not end within the
fuel the model gives it. Models the panic/UB semantics of the whole crate. -/
inductive Fault where
  /-- a failed `assert!` / `assert_eq!` -/
  | assertFailed
  /-- a failed `debug_assert_eq!` (only with debug assertions on) -/
  | debugAssertFailed
  /-- arithmetic overflow (u8/u16/u64 additions and subtractions: only with overflow checks on;
  `usize` subtraction: always, i.e. the model does not rely on wrap-around) -/
  | overflow
  /-- slice index out of range, or `copy_from_slice` length mismatch -/
  | indexOutOfRange
  /-- `ArrayString::push` beyond its capacity -/
  | capacity
  /-- a read through a raw pointer outside the slice it was derived from -/
  | outOfBoundsRead
  /-- a SIMD routine executed on a CPU without the required feature -/
  | illegalInstruction
  /-- model-only: loop fuel exhausted -/
  | nonTermination
deriving DecidableEq, Repr

/-- Result of a Rust computation: a value, or a fault. -/
abbrev R := Except Fault

/-- Build profile and platform. `overflowChecks`/`debugAssertions`: rustc codegen options (both on in
the dev profile, both off in release). `x86`: `cfg(any(target_arch = "x86", target_arch = "x86_64"))`;
`std`: the cargo feature of Cargo.toml:9-11; `avx2`, `sse41`: what the CPU supports and
`is_x86_feature_detected!` reports (src/lib.rs:1032-1036). -/
structure Env where
  overflowChecks : Bool
  debugAssertions : Bool
  x86 : Bool
  std : Bool
  avx2 : Bool
  sse41 : Bool
deriving DecidableEq, Repr

/-- Fact about real CPUs assumed by src/lib.rs:1036-1044: a CPU with AVX2 has SSE4.1. -/
def Env.WF (E : Env) : Prop := E.avx2 = true → E.sse41 = true

instance (E : Env) : Decidable E.WF := by unfold Env.WF; infer_instance

/-- Rust `a + b` on an unsigned machine integer: panics on overflow if overflow checks are on, wraps
otherwise. Used for the `+=` of src/lib.rs:342,343,369 etc. -/
def addChk {w : Nat} (E : Env) (a b : BitVec w) : R (BitVec w) :=
  if E.overflowChecks && decide (2 ^ w ≤ a.toNat + b.toNat) then throw .overflow else pure (a + b)

/-- Rust `a - b` on an unsigned machine integer (src/blake2sp.rs:278). -/
def subChk {w : Nat} (E : Env) (a b : BitVec w) : R (BitVec w) :=
  if E.overflowChecks && decide (a.toNat < b.toNat) then throw .overflow else pure (a - b)

/-- Rust `a - b` on `usize`. An underflow is a fault in every profile (conservative: in release it
would wrap; the theorems show it is never reached). -/
def usizeSub (a b : Nat) : R Nat :=
  if b ≤ a then pure (a - b) else throw .overflow

/-- `&s[..n]`. E.g. src/lib.rs:341. -/
def sliceTo (s : List U8) (n : Nat) : R (List U8) :=
  if n ≤ s.length then pure (s.take n) else throw .indexOutOfRange

/-- `&s[n..]`. E.g. src/lib.rs:344, 374. -/
def sliceFrom (s : List U8) (n : Nat) : R (List U8) :=
  if n ≤ s.length then pure (s.drop n) else throw .indexOutOfRange

/-- `array[a..b].copy_from_slice(src)`: panics if the range is invalid or the lengths differ.
E.g. src/lib.rs:224, 341. -/
def copyFromSlice {n : Nat} (dst : Vector U8 n) (a b : Nat) (src : List U8) : R (Vector U8 n) :=
  if h : a ≤ b ∧ b ≤ n ∧ src.length = b - a then
    pure ⟨(dst.toList.take a ++ src ++ dst.toList.drop b).toArray, by
      simp; omega⟩
  else throw .indexOutOfRange

/-- `array_ref!(s, off, n)` of the arrayref crate on a slice: `&s[off..off+n]` as an array; panics if
out of range. E.g. src/lib.rs:370. -/
def arrayRef (s : List U8) (off n : Nat) : R (Vector U8 n) :=
  if h : off + n ≤ s.length then
    pure ⟨((s.drop off).take n).toArray, by simp; omega⟩
  else throw .indexOutOfRange

/-- `array_ref!`/`array_refs!` on an array, with statically valid bounds. E.g. src/lib.rs:185-186. -/
def subArray {α : Type} {n : Nat} (v : Vector α n) (off len : Nat) (h : off + len ≤ n := by omega) :
    Vector α len :=
  Vector.ofFn fun i : Fin len => v[off + i.val]'(by omega)

/-- `&*(s.as_ptr().add(off) as *const Block)` (src/sse41.rs:738-741, src/avx2.rs:734-741): an unchecked
read of 64 bytes; a fault if they are not inside the slice. -/
def readBlockPtr (s : List U8) (off : Nat) : R Block :=
  if h : off + 64 ≤ s.length then
    pure ⟨((s.drop off).take 64).toArray, by simp; omega⟩
  else throw .outOfBoundsRead

/-- `assert!(c)`. E.g. src/lib.rs:221. -/
def assert (c : Bool) : R Unit := if c then pure () else throw .assertFailed

/-- `debug_assert!(c)`: only evaluated when debug assertions are on. E.g. src/blake2sp.rs:181-195. -/
def debugAssert (E : Env) (c : Bool) : R Unit :=
  if E.debugAssertions && !c then throw .debugAssertFailed else pure ()

/-- `byteorder::LittleEndian::read_u32` on exactly four bytes. E.g. src/lib.rs:199. -/
def readU32LE (b : Vector U8 4) : U32 := b[3] ++ b[2] ++ b[1] ++ b[0]

/-- `byteorder::LittleEndian::write_u32` into exactly four bytes. E.g. src/lib.rs:427. -/
def writeU32LE (x : U32) : Vector U8 4 :=
  #v[x.extractLsb' 0 8, x.extractLsb' 8 8, x.extractLsb' 16 8, x.extractLsb' 24 8]

/-- src/lib.rs:41-43 `IV`. -/
def IV : Vector U32 8 :=
  #v[0x6A09E667, 0xBB67AE85, 0x3C6EF372, 0xA54FF53A, 0x510E527F, 0x9B05688C, 0x1F83D9AB, 0x5BE0CD19]

/-- src/lib.rs:45-58 `SIGMA`. Entries are `Fin 16` (they are literals below 16), so that
`m[SIGMA[r][i] as usize]` cannot be out of range. -/
def SIGMA : Vector (Vector (Fin 16) 16) 12 :=
  #v[#v[0, 1, 2, 3, 4, 5, 6, 7, 8, 9, 10, 11, 12, 13, 14, 15],
     #v[14, 10, 4, 8, 9, 15, 13, 6, 1, 12, 0, 2, 11, 7, 5, 3],
     #v[11, 8, 12, 0, 5, 2, 15, 13, 10, 14, 3, 6, 7, 1, 9, 4],
     #v[7, 9, 3, 1, 13, 12, 11, 14, 2, 6, 5, 10, 4, 0, 15, 8],
     #v[9, 0, 5, 7, 2, 4, 10, 15, 14, 1, 11, 12, 6, 8, 3, 13],
     #v[2, 12, 6, 10, 0, 11, 8, 3, 4, 13, 7, 5, 15, 14, 1, 9],
     #v[12, 5, 1, 15, 14, 13, 4, 10, 0, 7, 6, 3, 9, 2, 8, 11],
     #v[13, 11, 7, 14, 12, 1, 3, 9, 5, 0, 15, 4, 8, 6, 2, 10],
     #v[6, 15, 14, 9, 11, 3, 0, 8, 12, 2, 13, 7, 1, 4, 10, 5],
     #v[10, 2, 8, 4, 7, 6, 1, 5, 15, 11, 9, 14, 3, 12, 13, 0],
     #v[0, 1, 2, 3, 4, 5, 6, 7, 8, 9, 10, 11, 12, 13, 14, 15],
     #v[14, 10, 4, 8, 9, 15, 13, 6, 1, 12, 0, 2, 11, 7, 5, 3]]

/-- src/lib.rs:423-437 `state_words_to_bytes`. -/
def stateWordsToBytes (w : StateWords) : Vector U8 32 :=
  writeU32LE w[0] ++ writeU32LE w[1] ++ writeU32LE w[2] ++ writeU32LE w[3] ++
  writeU32LE w[4] ++ writeU32LE w[5] ++ writeU32LE w[6] ++ writeU32LE w[7]

end Blake2s
