import Verif.Vocab
/-!
# Model of the reference implementation in the crate's own tests

src/blake2sp.rs:471-540: BLAKE2sp written with the tree parameters of the public BLAKE2s API, without
buffering or vector code. The crate's test compares it with `blake2sp` on twenty inputs.
-/

namespace Blake2s.Sp

/-- `Blake2sParams::new()`, some setters, `to_state()`, as in src/blake2sp.rs:477-525. -/
def stateWith (E : Env) (setters : List Blake2s.Setter) : R Blake2s.State := do
  (← Blake2s.Params.new.setAll setters).toState E

/-- `input.chunks(BLOCKBYTES)` (src/blake2sp.rs:527): pieces of 64 bytes, the last one shorter. -/
def chunks (input : List U8) : List (List U8) :=
  if _h : input = [] then [] else input.take BLOCKBYTES :: chunks (input.drop BLOCKBYTES)
termination_by input.length
decreasing_by
  have := List.length_pos_iff.mpr _h
  rw [List.length_drop]
  exact Nat.sub_lt this (by decide)

/-- The loop of src/blake2sp.rs:527-529; `i` is the enumeration index. -/
def feedChunks (E : Env) (i : Nat) (leaves : Vector Blake2s.State 8) :
    List (List U8) → R (Vector Blake2s.State 8)
  | [] => pure leaves
  | chunk :: rest => do
    let leaf ← leaves[i % 8].update E chunk
    feedChunks E (i + 1) (leaves.set (i % 8) leaf) rest

/-- The loop of src/blake2sp.rs:537-539. -/
def feedRoot (E : Env) (root : Blake2s.State) : List Blake2s.State → R Blake2s.State
  | [] => pure root
  | leaf :: rest => do
    let (_, h) ← leaf.finalize E
    let root ← root.update E (← h.asBytes)
    feedRoot E root rest

/-- src/blake2sp.rs:474-541 `blake2sp_reference`. -/
def reference (E : Env) (input : List U8) : R Hash := do
  let leaf0 ← stateWith E [.fanout 8, .maxDepth 2, .nodeOffset 0, .innerHashLength OUTBYTES]
  let leaf1 ← stateWith E [.fanout 8, .maxDepth 2, .nodeOffset 1, .innerHashLength OUTBYTES]
  let leaf2 ← stateWith E [.fanout 8, .maxDepth 2, .nodeOffset 2, .innerHashLength OUTBYTES]
  let leaf3 ← stateWith E [.fanout 8, .maxDepth 2, .nodeOffset 3, .innerHashLength OUTBYTES]
  let leaf4 ← stateWith E [.fanout 8, .maxDepth 2, .nodeOffset 4, .innerHashLength OUTBYTES]
  let leaf5 ← stateWith E [.fanout 8, .maxDepth 2, .nodeOffset 5, .innerHashLength OUTBYTES]
  let leaf6 ← stateWith E [.fanout 8, .maxDepth 2, .nodeOffset 6, .innerHashLength OUTBYTES]
  let leaf7 ← stateWith E [.fanout 8, .maxDepth 2, .nodeOffset 7, .innerHashLength OUTBYTES,
    .lastNode true]
  let leaves ← feedChunks E 0 #v[leaf0, leaf1, leaf2, leaf3, leaf4, leaf5, leaf6, leaf7] (chunks input)
  let root ← stateWith E [.fanout 8, .maxDepth 2, .nodeDepth 1, .innerHashLength OUTBYTES,
    .lastNode true]
  let root ← feedRoot E root leaves.toList
  let (_, hash) ← root.finalize E
  return hash

end Blake2s.Sp
