import Verif.SpecTrace
import Verif.Vocab
/-!
# The compressions performed by a keyed `blake2sp::State`

`Sp.keyedHash` (`Verif/Vocab.lean`) says what a `blake2sp::State` with a key really returns. Here are the
inputs of the compression function that occur on the way.
-/

namespace Spec

/-- The compressions performed by `chain`, first to last. -/
def chainTrace (h : Fin 8 → Word) (off : Nat) (data : List Byte) (n : Nat) : List FInput :=
  (List.range n).map fun k => ⟨chain h off data k, blockWords ((data.drop (64 * k)).take 64),
    BitVec.ofNat 64 (off + 64 * (k + 1)), false, false⟩

end Spec

namespace Blake2s.Sp

/-- The compressions performed by leaf `i` of a keyed state. -/
def keyedLeafTrace (hashLength : U8) (key : List U8) (rows : Nat) (msg : List U8) (i : Fin 8) :
    List Spec.FInput :=
  let first := Spec.Sp.leafInput i (msg.take (512 * rows))
  let rest := Spec.Sp.leafInput i (msg.drop (512 * rows))
  let h0 := (Spec.Sp.nodeParams hashLength (BitVec.ofNat 8 key.length) (BitVec.ofNat 48 i.val) 0).init
  Spec.chainTrace h0 64 first rows ++
    Spec.absorbTrace (Spec.chain h0 64 first rows) (64 * rows) (Spec.keyBlock key ++ rest) (i.val == 7)

/-- The compressions performed by a keyed state that passed on `rows` rows of `msg` before `finalize`:
those of the leaves, then those of the root. -/
def keyedTrace (hashLength : U8) (key : List U8) (rows : Nat) (msg : List U8) : List Spec.FInput :=
  (List.finRange 8).flatMap (keyedLeafTrace hashLength key rows msg) ++
  Spec.absorbTrace (Spec.Sp.nodeParams hashLength (BitVec.ofNat 8 key.length) 0 1).init 0
    ((List.finRange 8).flatMap (keyedLeaf hashLength key rows msg)) true

end Blake2s.Sp
