import Verif.Model.Prelude
/-!
# Model of src/lib.rs: `Params` and `Hash`
-/

namespace Blake2s

/-- src/lib.rs:163-177 `struct Params`. -/
structure Params where
  hashLength : U8
  keyLength : U8
  key : Vector U8 32
  salt : Vector U8 8
  personal : Vector U8 8
  fanout : U8
  maxDepth : U8
  maxLeafLength : U32
  nodeOffset : U64
  nodeDepth : U8
  innerHashLength : U8
  lastNode : Bool
deriving DecidableEq

namespace Params

/-- src/lib.rs:285-303 `impl Default for Params`. -/
def default : Params where
  hashLength := BitVec.ofNat 8 OUTBYTES
  keyLength := 0
  key := Vector.replicate 32 0
  salt := Vector.replicate 8 0
  personal := Vector.replicate 8 0
  fanout := 1
  maxDepth := 1
  maxLeafLength := 0
  nodeOffset := 0
  nodeDepth := 0
  innerHashLength := 0
  lastNode := false

/-- src/lib.rs:180-182 `Params::new`. -/
def new : Params := default

/-- src/lib.rs:184-204 `Params::make_words`. Rust's `as u32` on `u8`/`u64` is `setWidth 32`; `<<` binds
tighter than `^` in Rust, which the parentheses here reproduce. -/
def makeWords (p : Params) : StateWords :=
  let saltLeft : Vector U8 4 := subArray p.salt 0 4
  let saltRight : Vector U8 4 := subArray p.salt 4 4
  let personalLeft : Vector U8 4 := subArray p.personal 0 4
  let personalRight : Vector U8 4 := subArray p.personal 4 4
  #v[IV[0]
       ^^^ p.hashLength.setWidth 32
       ^^^ (p.keyLength.setWidth 32 <<< 8)
       ^^^ (p.fanout.setWidth 32 <<< 16)
       ^^^ (p.maxDepth.setWidth 32 <<< 24),
     IV[1] ^^^ p.maxLeafLength,
     IV[2] ^^^ p.nodeOffset.setWidth 32,
     IV[3]
       ^^^ (p.nodeOffset >>> 32).setWidth 32
       ^^^ (p.nodeDepth.setWidth 32 <<< 16)
       ^^^ (p.innerHashLength.setWidth 32 <<< 24),
     IV[4] ^^^ readU32LE saltLeft,
     IV[5] ^^^ readU32LE saltRight,
     IV[6] ^^^ readU32LE personalLeft,
     IV[7] ^^^ readU32LE personalRight]

/-- src/lib.rs:210-218 `Params::hash_length`. -/
def setHashLength (p : Params) (length : Nat) : R Params := do
  assert (decide (1 ≤ length) && decide (length ≤ OUTBYTES))
  return { p with hashLength := BitVec.ofNat 8 length }

/-- src/lib.rs:220-226 `Params::key`. -/
def setKey (p : Params) (key : List U8) : R Params := do
  assert (decide (key.length ≤ KEYBYTES))
  let buf ← copyFromSlice (Vector.replicate 32 0) 0 key.length key
  return { p with keyLength := BitVec.ofNat 8 key.length, key := buf }

/-- src/lib.rs:228-233 `Params::salt`. -/
def setSalt (p : Params) (salt : List U8) : R Params := do
  assert (decide (salt.length ≤ SALTBYTES))
  let buf ← copyFromSlice (Vector.replicate 8 0) 0 salt.length salt
  return { p with salt := buf }

/-- src/lib.rs:235-244 `Params::personal`. -/
def setPersonal (p : Params) (personalization : List U8) : R Params := do
  assert (decide (personalization.length ≤ PERSONALBYTES))
  let buf ← copyFromSlice (Vector.replicate 8 0) 0 personalization.length personalization
  return { p with personal := buf }

/-- src/lib.rs:246-249 `Params::fanout`. -/
def setFanout (p : Params) (fanout : U8) : Params := { p with fanout := fanout }

/-- src/lib.rs:251-255 `Params::max_depth`. -/
def setMaxDepth (p : Params) (depth : U8) : R Params := do
  assert (decide (depth ≠ 0))
  return { p with maxDepth := depth }

/-- src/lib.rs:257-260 `Params::max_leaf_length`. -/
def setMaxLeafLength (p : Params) (length : U32) : Params := { p with maxLeafLength := length }

/-- src/lib.rs:262-266 `Params::node_offset`. -/
def setNodeOffset (p : Params) (offset : U64) : R Params := do
  assert (decide (offset.toNat < 2 ^ 48))
  return { p with nodeOffset := offset }

/-- src/lib.rs:268-271 `Params::node_depth`. -/
def setNodeDepth (p : Params) (depth : U8) : Params := { p with nodeDepth := depth }

/-- src/lib.rs:273-277 `Params::inner_hash_length`. -/
def setInnerHashLength (p : Params) (length : Nat) : R Params := do
  assert (decide (length ≤ OUTBYTES))
  return { p with innerHashLength := BitVec.ofNat 8 length }

/-- src/lib.rs:279-282 `Params::last_node`. -/
def setLastNode (p : Params) (lastNode : Bool) : Params := { p with lastNode := lastNode }

end Params

/-- src/lib.rs:468-473 `struct Hash`. -/
structure Hash where
  bytes : Vector U8 32
  len : U8
deriving DecidableEq

/-- The algorithm of the external crate `constant_time_eq` 0.1.3: compare lengths, then OR together the
XORs of corresponding bytes. Only its value is modelled, not its timing.
Called at src/lib.rs:498, 505. -/
def constantTimeEq (a b : List U8) : Bool :=
  a.length == b.length &&
    (List.zipWith (· ^^^ ·) a b).foldl (· ||| ·) (0 : U8) == 0

/-- `ArrayString<[u8; cap]>::push` of the external crate arrayvec: panics when full.
Called at src/lib.rs:489-490. -/
def arrayStringPush (cap : Nat) (s : List Char) (c : Char) : R (List Char) :=
  if s.length < cap then pure (s ++ [c]) else throw .capacity

/-- src/lib.rs:487 `b"0123456789abcdef"` indexed and cast to `char`. -/
def hexTable (i : Nat) : R Char :=
  match "0123456789abcdef".toList[i]? with
  | some c => pure c
  | none => throw .indexOutOfRange

/-- The loop of src/lib.rs:488-491. -/
def bytesToHexLoop : List U8 → List Char → R (List Char)
  | [], s => pure s
  | b :: bs, s => do
    let s ← arrayStringPush (2 * OUTBYTES) s (← hexTable (b >>> 4).toNat)
    let s ← arrayStringPush (2 * OUTBYTES) s (← hexTable (b &&& 0xf).toNat)
    bytesToHexLoop bs s

/-- src/lib.rs:485-493 `bytes_to_hex`. -/
def bytesToHex (bytes : List U8) : R (List Char) := bytesToHexLoop bytes []

namespace Hash

/-- src/lib.rs:476-478 `Hash::as_bytes` (also `AsRef<[u8]>`, src/lib.rs:511-515). -/
def asBytes (h : Hash) : R (List U8) := sliceTo h.bytes.toList h.len.toNat

/-- src/lib.rs:480-482 `Hash::to_hex`. -/
def toHex (h : Hash) : R (List Char) := do bytesToHex (← h.asBytes)

/-- src/lib.rs:496-500 `impl PartialEq for Hash`. -/
def eqHash (a b : Hash) : R Bool := do
  return constantTimeEq (← a.asBytes) (← b.asBytes)

/-- src/lib.rs:503-507 `impl PartialEq<[u8]> for Hash`. -/
def eqSlice (a : Hash) (b : List U8) : R Bool := do
  return constantTimeEq (← a.asBytes) b

/-- src/lib.rs:517-521 `impl Debug for Hash`. -/
def debug (h : Hash) : R (List Char) := do
  return "Hash(0x".toList ++ (← h.toHex) ++ ")".toList

end Hash
end Blake2s
