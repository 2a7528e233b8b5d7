import Verif.Vocab
/-!
# A client that builds BLAKE2sp from the public BLAKE2s interface

Not code of the crate: the client that src/blake2sp.rs:98-103 speaks of. It does what `with_params`
(src/blake2sp.rs:104-157) and `finalize` (src/blake2sp.rs:332-388) do, but does not overwrite fields of the
states (src/blake2sp.rs:128, 146-147), which only the crate can.
-/

namespace Blake2s.PublicSp

/-- The setters called for one node of the tree (src/blake2sp.rs:105-135). -/
def nodeSetters (d : Nat) (key : List U8) (off : Fin 8) (depth : U8) (last : Bool) : List Setter :=
  [.hashLength d, .key key, .fanout 8, .maxDepth 2, .nodeOffset (BitVec.ofNat 64 off.val), .nodeDepth depth,
    .innerHashLength 32, .lastNode last]

/-- One node of the tree: the setters, `to_state`, `update`, `finalize` and `as_bytes`. -/
def publicNode (E : Env) (d : Nat) (key : List U8) (off : Fin 8) (depth : U8) (last : Bool) (data : List U8) :
    R (List U8) := do
  let p ← Params.new.setAll (nodeSetters d key off depth last)
  let h ← hashOne E p data
  h.asBytes

/-- The tree: eight leaves, each given the bytes that are dealt to it, and the root, given their digests. -/
def publicSp (E : Env) (d : Nat) (key msg : List U8) : R (List U8) := do
  let l0 ← publicNode E d key 0 0 false (Spec.Sp.leafInput 0 msg)
  let l1 ← publicNode E d key 1 0 false (Spec.Sp.leafInput 1 msg)
  let l2 ← publicNode E d key 2 0 false (Spec.Sp.leafInput 2 msg)
  let l3 ← publicNode E d key 3 0 false (Spec.Sp.leafInput 3 msg)
  let l4 ← publicNode E d key 4 0 false (Spec.Sp.leafInput 4 msg)
  let l5 ← publicNode E d key 5 0 false (Spec.Sp.leafInput 5 msg)
  let l6 ← publicNode E d key 6 0 false (Spec.Sp.leafInput 6 msg)
  let l7 ← publicNode E d key 7 0 true (Spec.Sp.leafInput 7 msg)
  publicNode E d key 0 1 true (l0 ++ l1 ++ l2 ++ l3 ++ l4 ++ l5 ++ l6 ++ l7)

end Blake2s.PublicSp
