import Verif.Spec
/-!
# The compressions performed by a BLAKE2s or BLAKE2sp computation

`Spec.absorb` and the two hash functions again, but listing the inputs of the compression function
instead of computing its outputs. Used to say what a collision of the hash function comes down to.
-/

namespace Spec

/-- One input of the compression function. The offset counter is a 64-bit number. -/
structure FInput where
  h : Fin 8 → Word
  m : Fin 16 → Word
  t : BitVec 64
  final : Bool
  lastNode : Bool

/-- The output of the compression function. -/
def FInput.output (x : FInput) : Fin 8 → Word := F x.h x.m x.t.toNat x.final x.lastNode

/-- The compressions performed by `absorb`, first to last. -/
def absorbTrace (h : Fin 8 → Word) (off : Nat) (data : List Byte) (lastNode : Bool) : List FInput :=
  if data.length ≤ 64 then
    [⟨h, blockWords data, BitVec.ofNat 64 (off + data.length), true, lastNode⟩]
  else
    let x : FInput := ⟨h, blockWords (data.take 64), BitVec.ofNat 64 (off + 64), false, false⟩
    x :: absorbTrace x.output (off + 64) (data.drop 64) lastNode
termination_by data.length
decreasing_by simp; omega

/-- The compressions performed to hash `msg` with BLAKE2s. -/
def hashTrace (p : Params) (key : List Byte) (lastNode : Bool) (msg : List Byte) : List FInput :=
  absorbTrace p.init 0 (keyBlock key ++ msg) lastNode

/-- The compressions performed by leaf `i` of BLAKE2sp. -/
def Sp.leafTrace (digestLength : Byte) (key msg : List Byte) (i : Fin 8) : List FInput :=
  absorbTrace (nodeParams digestLength (BitVec.ofNat 8 key.length) (BitVec.ofNat 48 i.val) 0).init 0
    (keyBlock key ++ leafInput i.val msg) (i.val == 7)

/-- The compressions performed to hash `msg` with BLAKE2sp: those of the leaves, then those of the
root. -/
def Sp.hashTrace (digestLength : Byte) (key msg : List Byte) : List FInput :=
  (List.finRange 8).flatMap (leafTrace digestLength key msg) ++
  absorbTrace (nodeParams digestLength (BitVec.ofNat 8 key.length) 0 1).init 0
    ((List.finRange 8).flatMap (leaf digestLength key msg)) true

/-- Two different inputs of the compression function, one from each list, have the same output. -/
def Collide (a b : List FInput) : Prop :=
  ∃ x ∈ a, ∃ y ∈ b, x ≠ y ∧ x.output = y.output

/-- What equal digests of `n` bytes come down to: two different inputs of the compression function have the
same output; or the two last ones, whose outputs are cut to `n` bytes, differ and their outputs agree in
those `n` bytes. -/
def CollideTo (n : Nat) (a b : List FInput) : Prop :=
  Collide a b ∨ ∃ x y, a.getLast? = some x ∧ b.getLast? = some y ∧ x ≠ y ∧
    digestBytes x.output n = digestBytes y.output n

end Spec
