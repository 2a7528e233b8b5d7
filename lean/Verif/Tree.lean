import Verif.SpecTrace
import Verif.Vocab
/-!
# Tree hashing with the public parameters

The setters `fanout`, `max_depth`, `max_leaf_length`, `node_offset`, `node_depth`, `inner_hash_length` and `last_node`
(src/lib.rs:246-282) have no effect of their own: they are there for callers who hash trees as in section 2.10 of the BLAKE2 paper.
This file describes such trees (`Spec.Tree`) and such a caller (`treeRun`), which is not code of the crate.
-/

namespace Spec

/-- A tree to be hashed. A leaf has depth 0 and holds part of the message; the caller chooses where in the tree a node says it is.
-/
inductive Tree where
  | leaf (offset : BitVec 48) (last : Bool) (data : List Byte)
  | node (offset : BitVec 48) (depth : Byte) (last : Bool) (children : List Tree)

/-- The parameters of a node: the common ones, and its position. -/
def Params.at (p : Params) (offset : BitVec 48) (depth : Byte) : Params :=
  { p with nodeOffset := offset, nodeDepth := depth }

mutual

/-- The hash of a tree: a leaf hashes its data, any other node the hashes of its children. -/
def Tree.hash (p : Params) (key : List Byte) : Tree → List Byte
  | .leaf offset last data => Spec.hash (p.at offset 0) key last data
  | .node offset depth last children => Spec.hash (p.at offset depth) key last (Tree.hashes p key children).flatten

/-- The hashes of several trees. -/
def Tree.hashes (p : Params) (key : List Byte) : List Tree → List (List Byte)
  | [] => []
  | t :: ts => t.hash p key :: Tree.hashes p key ts

end

mutual

/-- All inputs of the compression function in the computation of the hash of a tree. -/
def Tree.trace (p : Params) (key : List Byte) : Tree → List FInput
  | .leaf offset last data => hashTrace (p.at offset 0) key last data
  | .node offset depth last children =>
    Tree.traces p key children ++ hashTrace (p.at offset depth) key last (Tree.hashes p key children).flatten

def Tree.traces (p : Params) (key : List Byte) : List Tree → List FInput
  | [] => []
  | t :: ts => t.trace p key ++ Tree.traces p key ts

end

mutual

/-- The message: the data of the leaves, from left to right. -/
def Tree.message : Tree → List Byte
  | .leaf _ _ data => data
  | .node _ _ _ children => Tree.messages children

def Tree.messages : List Tree → List Byte
  | [] => []
  | t :: ts => t.message ++ Tree.messages ts

end

mutual

/-- All nodes are given less than 2^63 bytes. (Rust has no longer slices.) -/
def Tree.Small : Tree → Prop
  | .leaf _ _ data => data.length < 2 ^ 63
  | .node _ _ _ children => 32 * children.length < 2 ^ 63 ∧ Tree.AllSmall children

def Tree.AllSmall : List Tree → Prop
  | [] => True
  | t :: ts => t.Small ∧ Tree.AllSmall ts

end

mutual

/-- No node but the leaves says that it has depth 0. -/
def Tree.Marked : Tree → Prop
  | .leaf _ _ _ => True
  | .node _ depth _ children => depth ≠ 0 ∧ Tree.AllMarked children

def Tree.AllMarked : List Tree → Prop
  | [] => True
  | t :: ts => t.Marked ∧ Tree.AllMarked ts

end

/-- What equal hashes of `n` bytes of two trees come down to: two different inputs of the compression function have the same
output, or two that are marked as final, whose outputs are cut to `n` bytes, agree in those `n` bytes. -/
def Tree.CollideTo (n : Nat) (a b : List FInput) : Prop :=
  Collide a b ∨ ∃ x ∈ a, ∃ y ∈ b, x.final = true ∧ y.final = true ∧ x ≠ y ∧ digestBytes x.output n = digestBytes y.output n

end Spec

namespace Blake2s

/-- One node: the position is set, and the pieces are fed to a new state. -/
def treeNode (E : Env) (p : Params) (offset : BitVec 48) (depth : U8) (last : Bool) (pieces : List (List U8)) :
    R (List U8) := do
  let p ← p.setAll [.nodeOffset (offset.setWidth 64), .nodeDepth depth, .lastNode last]
  let s ← p.toState E
  let (s, _) ← s.run E (pieces.map .update)
  let (_, h) ← s.finalize E
  h.asBytes

mutual

/-- The caller: `p` holds the common parameters. -/
def treeRun (E : Env) (p : Params) : Spec.Tree → R (List U8)
  | .leaf offset last data => treeNode E p offset 0 last [data]
  | .node offset depth last children => do
    let digests ← treeRuns E p children
    treeNode E p offset depth last digests

def treeRuns (E : Env) (p : Params) : List Spec.Tree → R (List (List U8))
  | [] => pure []
  | t :: ts => do
    let d ← treeRun E p t
    let ds ← treeRuns E p ts
    return d :: ds

end

end Blake2s
