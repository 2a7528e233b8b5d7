import Verif.Model.Leak
import Verif.Spec
/-!
# What a `Hash` holds and what it shows (C57)

The digest consists of the first bytes of the last chaining value (RFC 7693, section 3.3, last line of the
pseudo code). Here are all of them, and what can be done with a `Hash`.
-/

namespace Spec

/-- The 32 bytes of the last chaining value of BLAKE2s. -/
def uncut (p : Params) (key : List Byte) (lastNode : Bool) (msg : List Byte) : List Byte :=
  digestBytes (absorb p.init 0 (keyBlock key ++ msg) lastNode) 32

/-- The 32 bytes of the last chaining value of BLAKE2sp: that of the root. -/
def Sp.uncut (digestLength : Byte) (key : List Byte) (msg : List Byte) : List Byte :=
  digestBytes
    (absorb (Sp.nodeParams digestLength (BitVec.ofNat 8 key.length) 0 1).init 0
      ((List.finRange 8).flatMap (Sp.leaf digestLength key msg)) true) 32

end Spec

namespace Blake2s

/-- The bytes of a `Hash` that are part of the digest. -/
def Hash.shown (h : Hash) : List U8 := h.bytes.toList.take h.len.toNat

/-- The bytes of a `Hash` that are not. -/
def Hash.hidden (h : Hash) : List U8 := h.bytes.toList.drop h.len.toNat

end Blake2s
