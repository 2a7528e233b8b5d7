/-!
# Specification: BLAKE2s and BLAKE2sp

Written from RFC 7693 ("The BLAKE2 Cryptographic Hash and MAC"), and, for the tree parameters and
BLAKE2sp, from the BLAKE2 paper (https://blake2.net/blake2.pdf, sections 2.5, 2.8-2.10) together with
the points the paper leaves to the reference implementation (see the comments on `Sp`).

Nothing here refers to the model of the Rust code.
-/

namespace Spec

abbrev Byte := BitVec 8
abbrev Word := BitVec 32

/-- RFC 7693 section 2.6: initialisation vector (same as SHA-256). -/
def IV (i : Fin 8) : Word :=
  (#v[0x6a09e667, 0xbb67ae85, 0x3c6ef372, 0xa54ff53a,
      0x510e527f, 0x9b05688c, 0x1f83d9ab, 0x5be0cd19] : Vector Word 8)[i]

/-- RFC 7693 section 2.7: message schedule; row `r`, column `i`. -/
def sigma (r : Fin 10) (i : Fin 16) : Fin 16 :=
  ((#v[
    #v[ 0,  1,  2,  3,  4,  5,  6,  7,  8,  9, 10, 11, 12, 13, 14, 15],
    #v[14, 10,  4,  8,  9, 15, 13,  6,  1, 12,  0,  2, 11,  7,  5,  3],
    #v[11,  8, 12,  0,  5,  2, 15, 13, 10, 14,  3,  6,  7,  1,  9,  4],
    #v[ 7,  9,  3,  1, 13, 12, 11, 14,  2,  6,  5, 10,  4,  0, 15,  8],
    #v[ 9,  0,  5,  7,  2,  4, 10, 15, 14,  1, 11, 12,  6,  8,  3, 13],
    #v[ 2, 12,  6, 10,  0, 11,  8,  3,  4, 13,  7,  5, 15, 14,  1,  9],
    #v[12,  5,  1, 15, 14, 13,  4, 10,  0,  7,  6,  3,  9,  2,  8, 11],
    #v[13, 11,  7, 14, 12,  1,  3,  9,  5,  0, 15,  4,  8,  6,  2, 10],
    #v[ 6, 15, 14,  9, 11,  3,  0,  8, 12,  2, 13,  7,  1,  4, 10,  5],
    #v[10,  2,  8,  4,  7,  6,  1,  5, 15, 11,  9, 14,  3, 12, 13,  0]
    ] : Vector (Vector (Fin 16) 16) 10)[r])[i]

/-- Assignment `v[i] := x` to one of the sixteen working words. -/
def assign (v : Fin 16 → Word) (i : Fin 16) (x : Word) : Fin 16 → Word :=
  fun j => if j = i then x else v j

/-- RFC 7693 section 3.1: the mixing function G, rotation constants 16, 12, 8, 7. -/
def G (v : Fin 16 → Word) (a b c d : Fin 16) (x y : Word) : Fin 16 → Word :=
  let v := assign v a (v a + v b + x)
  let v := assign v d ((v d ^^^ v a).rotateRight 16)
  let v := assign v c (v c + v d)
  let v := assign v b ((v b ^^^ v c).rotateRight 12)
  let v := assign v a (v a + v b + y)
  let v := assign v d ((v d ^^^ v a).rotateRight 8)
  let v := assign v c (v c + v d)
  let v := assign v b ((v b ^^^ v c).rotateRight 7)
  v

/-- RFC 7693 section 3.2: one of the ten rounds. -/
def round (m : Fin 16 → Word) (v : Fin 16 → Word) (r : Fin 10) : Fin 16 → Word :=
  let s := fun i => m (sigma r i)
  let v := G v 0 4  8 12 (s 0)  (s 1)
  let v := G v 1 5  9 13 (s 2)  (s 3)
  let v := G v 2 6 10 14 (s 4)  (s 5)
  let v := G v 3 7 11 15 (s 6)  (s 7)
  let v := G v 0 5 10 15 (s 8)  (s 9)
  let v := G v 1 6 11 12 (s 10) (s 11)
  let v := G v 2 7  8 13 (s 12) (s 13)
  let v := G v 3 4  9 14 (s 14) (s 15)
  v

/-- RFC 7693 section 3.2: the compression function F with 64-bit offset counter `t` and the
"final block" flag, extended with the BLAKE2 paper's last-node flag (which inverts `v[15]`). -/
def F (h : Fin 8 → Word) (m : Fin 16 → Word) (t : Nat) (final lastNode : Bool) : Fin 8 → Word :=
  let v : Fin 16 → Word := fun i =>
    if hi : i.val < 8 then h ⟨i.val, hi⟩ else IV ⟨i.val - 8, by omega⟩
  let v := assign v 12 (v 12 ^^^ BitVec.ofNat 32 t)
  let v := assign v 13 (v 13 ^^^ BitVec.ofNat 32 (t / 2 ^ 32))
  let v := if final then assign v 14 (~~~ v 14) else v
  let v := if lastNode then assign v 15 (~~~ v 15) else v
  let v := (List.finRange 10).foldl (round m) v
  fun i => h i ^^^ v ⟨i.val, by omega⟩ ^^^ v ⟨i.val + 8, by omega⟩

/-- Little-endian 32-bit word from four bytes. -/
def wordLE (b0 b1 b2 b3 : Byte) : Word := b3 ++ b2 ++ b1 ++ b0

/-- The bytes of a word, little end first. -/
def bytesLE (x : Word) : List Byte :=
  [x.extractLsb' 0 8, x.extractLsb' 8 8, x.extractLsb' 16 8, x.extractLsb' 24 8]

/-- A message block of at most 64 bytes as sixteen little-endian words; missing bytes are zero
(this is the zero padding of the last block). -/
def blockWords (b : List Byte) : Fin 16 → Word := fun i =>
  wordLE (b.getD (4 * i.val) 0) (b.getD (4 * i.val + 1) 0)
         (b.getD (4 * i.val + 2) 0) (b.getD (4 * i.val + 3) 0)

/-- RFC 7693 section 3.3: hash `data`, of which `off` bytes have been absorbed before, from chaining
value `h`. Every block but the last is full; the last one has 1 to 64 bytes (0 if there is no data
at all) and is the one compressed with the final flag. -/
def absorb (h : Fin 8 → Word) (off : Nat) (data : List Byte) (lastNode : Bool) : Fin 8 → Word :=
  if data.length ≤ 64 then
    F h (blockWords data) (off + data.length) true lastNode
  else
    absorb (F h (blockWords (data.take 64)) (off + 64) false false) (off + 64) (data.drop 64) lastNode
termination_by data.length
decreasing_by simp; omega

/-- Chaining value after the first `k` full blocks of `data`, none of which is the last one; `off` bytes
have been absorbed before. -/
def chain (h : Fin 8 → Word) (off : Nat) (data : List Byte) : Nat → Fin 8 → Word
  | 0 => h
  | k + 1 => F (chain h off data k) (blockWords ((data.drop (64 * k)).take 64)) (off + 64 * (k + 1))
      false false

/-- The parameters of a BLAKE2s instance, BLAKE2 paper section 2.8. -/
structure Params where
  digestLength : Byte
  keyLength : Byte
  fanout : Byte
  maxDepth : Byte
  leafLength : BitVec 32
  nodeOffset : BitVec 48
  nodeDepth : Byte
  innerLength : Byte
  salt : Vector Byte 8
  personal : Vector Byte 8
deriving DecidableEq

/-- The 32-byte BLAKE2s parameter block, BLAKE2 paper table 2. Multi-byte integers are
little-endian. -/
def Params.block (p : Params) : List Byte :=
  [p.digestLength, p.keyLength, p.fanout, p.maxDepth] ++
  [p.leafLength.extractLsb' 0 8, p.leafLength.extractLsb' 8 8,
   p.leafLength.extractLsb' 16 8, p.leafLength.extractLsb' 24 8] ++
  [p.nodeOffset.extractLsb' 0 8, p.nodeOffset.extractLsb' 8 8, p.nodeOffset.extractLsb' 16 8,
   p.nodeOffset.extractLsb' 24 8, p.nodeOffset.extractLsb' 32 8, p.nodeOffset.extractLsb' 40 8] ++
  [p.nodeDepth, p.innerLength] ++ p.salt.toList ++ p.personal.toList

/-- Initial chaining value: IV xor parameter block. -/
def Params.init (p : Params) : Fin 8 → Word := fun i =>
  IV i ^^^ blockWords p.block ⟨i.val, by omega⟩

/-- The first `n` bytes of a chaining value in little-endian order. -/
def digestBytes (h : Fin 8 → Word) (n : Nat) : List Byte :=
  ((List.finRange 8).flatMap fun i => bytesLE (h i)).take n

/-- The zero-padded key block, absent for the empty key (RFC 7693 section 3.3). -/
def keyBlock (key : List Byte) : List Byte :=
  if key = [] then [] else key ++ List.replicate (64 - key.length) 0

/-- BLAKE2s of `msg` under parameters `p` and key `key` (of length `p.keyLength`). -/
def hash (p : Params) (key : List Byte) (lastNode : Bool) (msg : List Byte) : List Byte :=
  digestBytes (absorb p.init 0 (keyBlock key ++ msg) lastNode) p.digestLength.toNat

/-- Sequential-mode parameters: fanout 1, depth 1, everything else zero. -/
def sequential (digestLength keyLength : Byte) : Params where
  digestLength := digestLength
  keyLength := keyLength
  fanout := 1
  maxDepth := 1
  leafLength := 0
  nodeOffset := 0
  nodeDepth := 0
  innerLength := 0
  salt := Vector.replicate 8 0
  personal := Vector.replicate 8 0

/-- Plain BLAKE2s-256: 32-byte digest, no key. -/
def blake2s (msg : List Byte) : List Byte := hash (sequential 32 0) [] false msg

/-! ## BLAKE2sp

Eight leaves; leaf `i` hashes the 64-byte blocks number `i, i+8, i+16, …` of the message. The root
hashes the concatenation of the eight 32-byte leaf digests. Both levels have fanout 8, depth 2, inner
length 32. The last leaf and the root carry the last-node flag. Following the reference
implementation, the requested digest length and the key length appear in the parameter blocks of the
leaves and of the root, leaves always output 32 bytes, and only the leaves hash the key block. -/
namespace Sp

/-- Parameters of the node at `depth` (0 leaf, 1 root) with offset `off`. -/
def nodeParams (digestLength keyLength : Byte) (off : BitVec 48) (depth : Byte) : Params where
  digestLength := digestLength
  keyLength := keyLength
  fanout := 8
  maxDepth := 2
  leafLength := 0
  nodeOffset := off
  nodeDepth := depth
  innerLength := 32
  salt := Vector.replicate 8 0
  personal := Vector.replicate 8 0

/-- The part of the message that leaf `i` hashes: the bytes whose block number is `i` modulo 8. -/
def leafInput (i : Nat) (msg : List Byte) : List Byte :=
  (msg.zipIdx.filter fun bk => (bk.2 / 64) % 8 == i).map Prod.fst

/-- The 32-byte digest of leaf `i`. -/
def leaf (digestLength : Byte) (key : List Byte) (msg : List Byte) (i : Fin 8) : List Byte :=
  digestBytes
    (absorb (nodeParams digestLength (BitVec.ofNat 8 key.length) (BitVec.ofNat 48 i.val) 0).init 0
      (keyBlock key ++ leafInput i.val msg) (i.val == 7)) 32

/-- BLAKE2sp with digest length `digestLength` and key `key` (at most 32 bytes). -/
def hash (digestLength : Byte) (key : List Byte) (msg : List Byte) : List Byte :=
  digestBytes
    (absorb (nodeParams digestLength (BitVec.ofNat 8 key.length) 0 1).init 0
      ((List.finRange 8).flatMap (leaf digestLength key msg)) true) digestLength.toNat

/-- Plain BLAKE2sp: 32-byte digest, no key. -/
def blake2sp (msg : List Byte) : List Byte := hash 32 [] msg

end Sp
end Spec
