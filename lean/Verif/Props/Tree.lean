import Verif.Proofs.Tree
import Verif.Props.Cases
/-!
# Tree hashing with the public parameters (C60)

`Spec.Tree`, its hash, and the caller `treeRun` are in Verif/Tree.lean.
-/

namespace Blake2s

/-! Two leaves and a root. -/

/-- Common parameters: fanout 2, depth 3, leaves of 4 bytes, inner hashes of 32 bytes. -/
def binaryParams : Params :=
  { Params.new with fanout := 2, maxDepth := 3, maxLeafLength := 4, innerHashLength := 32 }

theorem binaryParams_accepted : binaryParams.Accepted :=
  ⟨[.fanout 2, .maxDepth 3, .maxLeafLength 4, .innerHashLength 32], rfl⟩

/-- 1, 2, 3, 4, 5, 6 in two leaves. -/
def binaryTree : Spec.Tree :=
  .node 0 1 true [.leaf 0 false [1, 2, 3, 4], .leaf 1 true [5, 6]]

/-- The same message as one leaf. -/
def flatTree : Spec.Tree := .leaf 0 true [1, 2, 3, 4, 5, 6]

theorem binaryTree_small : binaryTree.Small := by
  simp [binaryTree, Spec.Tree.Small, Spec.Tree.AllSmall]

theorem binaryTree_marked : binaryTree.Marked := by
  simp [binaryTree, Spec.Tree.Marked, Spec.Tree.AllMarked]

theorem flatTree_small : flatTree.Small := by simp [flatTree, Spec.Tree.Small]

theorem flatTree_marked : flatTree.Marked := by simp [flatTree, Spec.Tree.Marked]

/-- The value agrees with another implementation (Python's hashlib). -/
example : treeRun releasePlain binaryParams binaryTree = .ok [44, 108, 84, 225, 220, 45, 46, 7, 12, 213, 100, 107, 172, 77,
    238, 57, 44, 40, 129, 42, 106, 183, 240, 205, 82, 178, 87, 116, 7, 249, 121, 173] := by
  decide +kernel

/-- C60: a caller who hashes a tree through the public parameters gets the hash of the tree, on every platform and build, and
without panics. -/
theorem C60_hash (E : Env) (hE : E.WF) (p : Params) (hp : p.Accepted) (t : Spec.Tree) (h : t.Small) :
    treeRun E p t = .ok (t.hash p.values p.keyBytes) :=
  treeRun_ok hE hp t h

example : treeRun debugAvx2 binaryParams binaryTree = .ok (binaryTree.hash binaryParams.values []) :=
  C60_hash debugAvx2 (by decide) _ binaryParams_accepted _ binaryTree_small

/-- C60: two different trees (with different shapes, node positions, last-node flags or data), or the same tree with different
common parameters or keys, have different hashes unless two different inputs of the compression function, one of each
computation, have the same output, or are both final and have the same output as far as digests show it; provided that inner
nodes say that they are not at depth 0. -/
theorem C60_collision_any (E E' : Env) (hE : E.WF) (hE' : E'.WF) (p q : Params) (hp : p.Accepted) (hq : q.Accepted)
    (t t' : Spec.Tree) (ht : t.Small) (ht' : t'.Small) (m : t.Marked) (m' : t'.Marked)
    (differ : (p.values.at 0 0, p.keyBytes, t) ≠ (q.values.at 0 0, q.keyBytes, t'))
    (equal : treeRun E p t = treeRun E' q t') :
    Spec.Tree.CollideTo p.hashLength.toNat (t.trace p.values p.keyBytes) (t'.trace q.values q.keyBytes) := by
  rw [treeRun_ok hE hp t ht, treeRun_ok hE' hq t' ht'] at equal
  have vp := hp.valid
  have vq := hq.valid
  have e := Except.ok.inj equal
  have hl := congrArg List.length e
  rw [Spec.Tree.hash_length_any _ vp.hl.2, Spec.Tree.hash_length_any _ vq.hl.2] at hl
  rcases Spec.Tree.near (p := p.values) (q := q.values) vp.hl.1 vp.hl.2 rfl hl.symm vp.keyBytes_length vq.keyBytes_length
    (by rw [vp.keyBytes_length]; exact vp.kl) (by rw [vq.keyBytes_length]; exact vq.kl) t t' ht ht' m m'
    e with ⟨a, b, c⟩ | d
  · exact absurd (by rw [a, b, c]) differ
  · exact d

example (equal : treeRun debugAvx2 { binaryParams with hashLength := 16 } binaryTree =
      treeRun releasePlain { binaryParams with hashLength := 16 } flatTree) :
    Spec.Tree.CollideTo 16 (binaryTree.trace { binaryParams with hashLength := 16 }.values [])
      (flatTree.trace { binaryParams with hashLength := 16 }.values []) :=
  have acc : { binaryParams with hashLength := 16 }.Accepted :=
    ⟨[.fanout 2, .maxDepth 3, .maxLeafLength 4, .innerHashLength 32, .hashLength 16], rfl⟩
  C60_collision_any debugAvx2 releasePlain (by decide) (by decide) _ _ acc acc _ _
    binaryTree_small flatTree_small binaryTree_marked flatTree_marked (by simp [binaryTree, flatTree]) equal

/-- C60: for 32-byte hashes the last case is a case of the other. -/
theorem C60_collision (E E' : Env) (hE : E.WF) (hE' : E'.WF) (p q : Params) (hp : p.Accepted) (hq : q.Accepted)
    (h32 : p.hashLength = 32) (t t' : Spec.Tree) (ht : t.Small) (ht' : t'.Small)
    (m : t.Marked) (m' : t'.Marked)
    (differ : (p.values.at 0 0, p.keyBytes, t) ≠ (q.values.at 0 0, q.keyBytes, t'))
    (equal : treeRun E p t = treeRun E' q t') :
    Spec.Collide (t.trace p.values p.keyBytes) (t'.trace q.values q.keyBytes) := by
  have h := C60_collision_any E E' hE hE' p q hp hq t t' ht ht' m m' differ equal
  rw [h32] at h
  exact h.full

example (equal : treeRun debugAvx2 binaryParams binaryTree = treeRun releasePlain binaryParams flatTree) :
    Spec.Collide (binaryTree.trace binaryParams.values []) (flatTree.trace binaryParams.values []) :=
  C60_collision debugAvx2 releasePlain (by decide) (by decide) _ _ binaryParams_accepted binaryParams_accepted rfl _ _
    binaryTree_small flatTree_small binaryTree_marked flatTree_marked (by simp [binaryTree, flatTree]) equal

/-- C60: so different messages, however they are cut into trees, have different hashes unless there is a collision. -/
theorem C60_message (E : Env) (hE : E.WF) (p : Params) (hp : p.Accepted) (h32 : p.hashLength = 32) (t t' : Spec.Tree)
    (ht : t.Small) (ht' : t'.Small) (m : t.Marked) (m' : t'.Marked) (differ : t.message ≠ t'.message)
    (equal : treeRun E p t = treeRun E p t') :
    Spec.Collide (t.trace p.values p.keyBytes) (t'.trace p.values p.keyBytes) :=
  C60_collision E E hE hE p p hp hp h32 t t' ht ht' m m'
    (fun e => differ (congrArg (fun x : Spec.Params × List U8 × Spec.Tree => x.2.2.message) e)) equal

example (equal : treeRun debugAvx2 binaryParams binaryTree = treeRun debugAvx2 binaryParams (.leaf 0 true [1])) :
    Spec.Collide (binaryTree.trace binaryParams.values []) ((Spec.Tree.leaf 0 true [1]).trace binaryParams.values []) :=
  C60_message debugAvx2 (by decide) _ binaryParams_accepted rfl _ _ binaryTree_small (by simp [Spec.Tree.Small])
    binaryTree_marked (by simp [Spec.Tree.Marked])
    (by simp [binaryTree, Spec.Tree.message, Spec.Tree.messages]) equal

/-- C60: the depth is needed. A caller who leaves it at 0 for an inner node gets the hash of a leaf that holds the hashes of the
children, which is another tree with another message. -/
theorem C60_depth_needed (E : Env) (hE : E.WF) (p : Params) (hp : p.Accepted) (offset : BitVec 48) (last : Bool)
    (children : List Spec.Tree) (h : (Spec.Tree.node offset 0 last children).Small) :
    treeRun E p (.node offset 0 last children) =
      treeRun E p (.leaf offset last (Spec.Tree.hashes p.values p.keyBytes children).flatten) := by
  have hl := Spec.Tree.hashes_flatten_le p.values hp.valid.hl.2 p.keyBytes children
  have h' := h
  rw [Spec.Tree.Small] at h'
  rw [treeRun_ok hE hp _ h, treeRun_ok hE hp _ (by rw [Spec.Tree.Small]; omega), Spec.Tree.hash, Spec.Tree.hash]

/-- Two messages, of 1 byte and of 32 bytes, with the same hash. -/
example : ∃ data : List U8, data.length = 32 ∧
    treeRun releasePlain binaryParams (.node 0 0 true [.leaf 0 true [7]]) =
      treeRun releasePlain binaryParams (.leaf 0 true data) := by
  refine ⟨(Spec.Tree.hashes binaryParams.values binaryParams.keyBytes [.leaf 0 true [7]]).flatten, ?_,
    C60_depth_needed releasePlain (by decide) _ binaryParams_accepted 0 true _ (by
      simp [Spec.Tree.Small, Spec.Tree.AllSmall])⟩
  simp only [Spec.Tree.hashes, List.flatten_cons, List.flatten_nil, List.append_nil]
  exact Spec.Tree.hash_length _ rfl _ _

/-- C60: BLAKE2sp is such a tree: eight leaves, the last one marked, under a root at depth 1. -/
theorem C60_blake2sp (msg : List U8) :
    Spec.Sp.blake2sp msg = (Spec.Tree.node 0 1 true ((List.finRange 8).map fun i =>
      .leaf (BitVec.ofNat 48 i.val) (i.val == 7) (Spec.Sp.leafInput i.val msg))).hash
        (Spec.Sp.nodeParams 32 0 0 0) [] := by
  have one : ∀ (o : BitVec 48) (d : U8) (l : Bool) (m : List U8),
      Spec.hash ((Spec.Sp.nodeParams 32 0 0 0).at o d) [] l m =
        Spec.digestBytes (Spec.absorb (Spec.Sp.nodeParams 32 0 o d).init 0 (Spec.keyBlock [] ++ m) l) 32 := by
    intro o d l m
    unfold Spec.hash
    rw [show (Spec.Sp.nodeParams 32 0 0 0).at o d = Spec.Sp.nodeParams 32 0 o d from rfl,
      show (Spec.Sp.nodeParams 32 0 o d).digestLength.toNat = 32 from rfl]
  have key : ∀ l : List (Fin 8), (Spec.Tree.hashes (Spec.Sp.nodeParams 32 0 0 0) [] (l.map fun i =>
      .leaf (BitVec.ofNat 48 i.val) (i.val == 7) (Spec.Sp.leafInput i.val msg))).flatten =
      l.flatMap (Spec.Sp.leaf 32 [] msg) := by
    intro l
    induction l with
    | nil => rfl
    | cons i l ih =>
      simp only [List.map_cons, Spec.Tree.hashes, List.flatten_cons, List.flatMap_cons, ih, Spec.Tree.hash, one]
      unfold Spec.Sp.leaf
      rw [show BitVec.ofNat 8 ([] : List U8).length = 0 from rfl]
  rw [Spec.Tree.hash, key, one]
  unfold Spec.Sp.blake2sp Spec.Sp.hash
  rw [show BitVec.ofNat 8 ([] : List U8).length = 0 from rfl, show Spec.keyBlock [] = [] from rfl, List.nil_append,
    show (32 : U8).toNat = 32 from rfl]

example : Spec.Sp.blake2sp bytes1500 = (Spec.Tree.node 0 1 true ((List.finRange 8).map fun i =>
    .leaf (BitVec.ofNat 48 i.val) (i.val == 7) (Spec.Sp.leafInput i.val bytes1500))).hash
      (Spec.Sp.nodeParams 32 0 0 0) [] :=
  C60_blake2sp bytes1500

end Blake2s
