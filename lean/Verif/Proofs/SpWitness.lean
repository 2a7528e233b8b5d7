import Verif.Proofs.Fast
import Verif.Vocab
/-!
# Keyed BLAKE2sp in a release build: a concrete failure

961 zero bytes under the one-byte key `[1]`, fed in one call. The kernel evaluates; nothing else is trusted.
-/

namespace Blake2s.Sp

open Fast (Sim)

set_option maxRecDepth 100000

/-- A release build without SIMD. -/
def plain : Env := ⟨false, false, false, false, false, false⟩

/-- `Params::new().key(&[1])`. -/
def keyed1 : Params :=
  { Params.default with
    keyLength := 1
    key := Vector.ofFn fun i : Fin 32 => if i.val = 0 then 1 else 0 }

theorem keyed1_accepted : keyed1.Accepted := ⟨[.key [1]], by decide +kernel⟩

theorem keyed1_keyBytes : keyed1.keyBytes = [1] := by decide +kernel

/-- `keyedLeaf`, for evaluation. -/
def fastKeyedLeaf (n : Nat) (hl : U8) (key : List U8) (rows : Nat) (msg : List U8) (i : Fin 8) : List U8 :=
  ((Fast.bytes (Fast.absorb n
    (Fast.chain (Fast.ofFn (Spec.Sp.nodeParams hl (BitVec.ofNat 8 key.length) (BitVec.ofNat 48 i.val) 0).init)
      64 (Spec.Sp.leafInput i (msg.take (512 * rows))) rows) (64 * rows)
    (Spec.keyBlock key ++ Spec.Sp.leafInput i (msg.drop (512 * rows))) (i.val == 7))).take 32).map
      (BitVec.ofNat 8)

/-- `keyedHash`, for evaluation. -/
def fastKeyedHash (n : Nat) (hl : U8) (key : List U8) (rows : Nat) (msg : List U8) : List U8 :=
  ((Fast.bytes (Fast.absorb 3 (Fast.ofFn (Spec.Sp.nodeParams hl (BitVec.ofNat 8 key.length) 0 1).init) 0
    ((List.finRange 8).flatMap (fastKeyedLeaf n hl key rows msg)) true)).take hl.toNat).map (BitVec.ofNat 8)

theorem keyedHash_eq (n : Nat) (hl : U8) (key : List U8) (rows : Nat) (msg : List U8)
    (h : ∀ i : Fin 8, (Spec.keyBlock key ++ Spec.Sp.leafInput i (msg.drop (512 * rows))).length ≤
      64 * (n + 1)) :
    keyedHash hl key rows msg = fastKeyedHash n hl key rows msg := by
  have e : keyedLeaf hl key rows msg = fastKeyedLeaf n hl key rows msg := by
    funext i
    exact (((Sim.ofFn _).chain 64 _ rows).absorb n (64 * rows) _ (i.val == 7) (h i)).digest 32
  unfold keyedHash
  rw [e]
  refine ((Sim.ofFn _).absorb 3 0 _ true (Fast.leaves_length ?_)).digest _
  intro i
  unfold fastKeyedLeaf
  rw [List.length_map, List.length_take]
  exact Nat.min_le_left _ _

/-- What the code computes for 961 bytes in one call, after one row, is not the BLAKE2sp digest. -/
theorem witness : keyedHash 32 [1] 1 (List.replicate 961 0) ≠ Spec.Sp.hash 32 [1] (List.replicate 961 0) := by
  rw [keyedHash_eq 1 32 [1] 1 _ (by decide +kernel), Fast.spHash_eq 2 32 [1] _ (by decide +kernel)]
  decide +kernel

end Blake2s.Sp
