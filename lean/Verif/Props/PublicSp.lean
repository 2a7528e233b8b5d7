import Verif.Props.Single
import Verif.Props.Params
import Verif.Props.Program
import Verif.Props.Collision
import Verif.Proofs.PublicSp
/-!
# C53: BLAKE2sp from the public BLAKE2s interface

src/blake2sp.rs:98-103 says "you can't actually build BLAKE2bp out of the BLAKE2b public interface. (You can
make it work for the basic default-length-no-key case, but you can't implement either of those parameters
correctly.)" The same is said here of BLAKE2sp and BLAKE2s, node by node, for any client.
-/

namespace Blake2s.PublicSp

/-- What a node built through the public interface returns: BLAKE2s of key block and data under the parameters
of that node, *as many bytes as its digest-length parameter says*. -/
theorem C53_node (E : Env) (hE : E.WF) (d : Nat) (hd : 1 ≤ d ∧ d ≤ 32) (key : List U8) (hk : key.length ≤ 32)
    (off : Fin 8) (depth : U8) (last : Bool) (data : List U8)
    (hfit : E.overflowChecks = true → (Spec.keyBlock key ++ data).length < 2 ^ 64) :
    publicNode E d key off depth last data = .ok (Spec.hash (Spec.Sp.nodeParams (BitVec.ofNat 8 d)
      (BitVec.ofNat 8 key.length) (BitVec.ofNat 48 off.val) depth) key last data) := by
  obtain ⟨p, x, e1, e2, e3⟩ := C02_parameterised E hE (nodeSetters d key off depth last)
    (node_inRange hd hk off depth last) data _ (nodeView d key off depth last).symm hfit
  unfold publicNode
  simp only [e1, e2, e3, bind, Except.bind]

example : publicNode debugAvx2 20 [1, 2, 3] 5 0 false bytes150 =
    .ok (Spec.hash (Spec.Sp.nodeParams 20 3 5 0) [1, 2, 3] false bytes150) :=
  C53_node debugAvx2 (by decide) 20 (by decide) [1, 2, 3] (by decide) 5 0 false bytes150 (fun _ => by
    rw [List.length_append, length150]; decide)

/-- C53, the leaves: the public interface gives the first `d` bytes of a leaf of BLAKE2sp with digest length
`d`, keyed or not; so all 32 bytes that the root has to hash, if and only if `d` is 32. -/
theorem C53_leaf (E : Env) (hE : E.WF) (d : Nat) (hd : 1 ≤ d ∧ d ≤ 32) (key : List U8) (hk : key.length ≤ 32)
    (i : Fin 8) (msg : List U8)
    (hfit : E.overflowChecks = true → (Spec.keyBlock key ++ Spec.Sp.leafInput i.val msg).length < 2 ^ 64) :
    publicNode E d key i 0 (i.val == 7) (Spec.Sp.leafInput i.val msg) =
        .ok ((Spec.Sp.leaf (BitVec.ofNat 8 d) key msg i).take d) ∧
      (publicNode E d key i 0 (i.val == 7) (Spec.Sp.leafInput i.val msg) =
        .ok (Spec.Sp.leaf (BitVec.ofNat 8 d) key msg i) ↔ d = 32) := by
  have e := C53_node E hE d hd key hk i 0 (i.val == 7) _ hfit
  have hn : (BitVec.ofNat 8 d).toNat = d := by rw [BitVec.toNat_ofNat, Nat.mod_eq_of_lt (by omega)]
  have l : (Spec.Sp.leaf (BitVec.ofNat 8 d) key msg i).length = 32 := by
    unfold Spec.Sp.leaf Spec.digestBytes
    rw [List.length_take]
    rfl
  have t : Spec.hash (Spec.Sp.nodeParams (BitVec.ofNat 8 d) (BitVec.ofNat 8 key.length)
      (BitVec.ofNat 48 i.val) 0) key (i.val == 7) (Spec.Sp.leafInput i.val msg) =
      (Spec.Sp.leaf (BitVec.ofNat 8 d) key msg i).take d := by
    unfold Spec.hash Spec.Sp.leaf Spec.digestBytes
    rw [List.take_take, show (Spec.Sp.nodeParams (BitVec.ofNat 8 d) (BitVec.ofNat 8 key.length)
      (BitVec.ofNat 48 i.val) 0).digestLength = BitVec.ofNat 8 d from rfl, hn, Nat.min_eq_left hd.2]
  rw [t] at e
  refine ⟨e, ?_⟩
  rw [e]
  constructor
  · intro h
    have := congrArg List.length (Except.ok.inj h)
    rw [List.length_take, l] at this
    omega
  · rintro rfl
    rw [List.take_of_length_le (Nat.le_of_eq l)]

/-- A leaf of BLAKE2sp-160: the client gets 20 of its 32 bytes. -/
example : publicNode debugAvx2 20 [1, 2, 3] 7 0 true (Spec.Sp.leafInput 7 [9]) =
    .ok ((Spec.Sp.leaf 20 [1, 2, 3] [9] 7).take 20) ∧
    publicNode debugAvx2 20 [1, 2, 3] 7 0 true (Spec.Sp.leafInput 7 [9]) ≠ .ok (Spec.Sp.leaf 20 [1, 2, 3] [9] 7) := by
  have h := C53_leaf debugAvx2 (by decide) 20 (by decide) [1, 2, 3] (by decide) 7 [9] (fun _ => by decide)
  exact ⟨h.1, fun e => absurd (h.2.mp e) (by decide)⟩

/-- A keyed leaf with digest length 32: the client gets all of it. -/
example : publicNode debugAvx2 32 [1, 2, 3] 7 0 true (Spec.Sp.leafInput 7 [9]) =
    .ok (Spec.Sp.leaf 32 [1, 2, 3] [9] 7) :=
  (C53_leaf debugAvx2 (by decide) 32 (by decide) [1, 2, 3] (by decide) 7 [9] (fun _ => by decide)).2.mpr rfl

/-- C53, the root: without a key, the public interface gives BLAKE2sp's root for every digest length, if it is
fed the 32-byte digests of the leaves. -/
theorem C53_root (E : Env) (hE : E.WF) (d : Nat) (hd : 1 ≤ d ∧ d ≤ 32) (msg : List U8) :
    publicNode E d [] 0 1 true ((List.finRange 8).flatMap (Spec.Sp.leaf (BitVec.ofNat 8 d) [] msg)) =
      .ok (Spec.Sp.hash (BitVec.ofNat 8 d) [] msg) := by
  have l : ∀ i, (Spec.Sp.leaf (BitVec.ofNat 8 d) [] msg i).length ≤ 32 := by
    intro i
    unfold Spec.Sp.leaf Spec.digestBytes
    rw [List.length_take]
    exact Nat.min_le_left _ _
  unfold Spec.Sp.hash
  generalize Spec.Sp.leaf (BitVec.ofNat 8 d) [] msg = leaves at l ⊢
  rw [C53_node E hE d hd [] (by decide) 0 1 true _ (fun _ => by
    have := Fast.leaves_length l
    rw [show Spec.keyBlock [] = [] from rfl, List.nil_append]
    omega), root_hash]

example : publicNode releasePlain 20 [] 0 1 true ((List.finRange 8).flatMap (Spec.Sp.leaf 20 [] bytes1500)) =
    .ok (Spec.Sp.hash 20 [] bytes1500) :=
  C53_root releasePlain (by decide) 20 (by decide) bytes1500

/-- C53, what the client gets that puts BLAKE2sp together from the public interface, for all parameters: leaf
digests cut to the digest length, and a root that hashes the key block too. -/
theorem C53_client (E : Env) (hE : E.WF) (d : Nat) (hd : 1 ≤ d ∧ d ≤ 32) (key : List U8) (hk : key.length ≤ 32)
    (msg : List U8) (hfit : E.overflowChecks = true → msg.length < 2 ^ 63) :
    publicSp E d key msg = .ok (Spec.hash
      (Spec.Sp.nodeParams (BitVec.ofNat 8 d) (BitVec.ofNat 8 key.length) 0 1) key true
      ((List.finRange 8).flatMap fun i => (Spec.Sp.leaf (BitVec.ofNat 8 d) key msg i).take d)) := by
  have kb : (Spec.keyBlock key).length ≤ 64 := by
    rw [keyBlock_length key (by omega)]
    split <;> omega
  have hl : ∀ i : Fin 8, publicNode E d key i 0 (i.val == 7) (Spec.Sp.leafInput i.val msg) =
      .ok ((Spec.Sp.leaf (BitVec.ofNat 8 d) key msg i).take d) := fun i =>
    (C53_leaf E hE d hd key hk i msg (fun ho => by
      have h1 := hfit ho
      have h2 : (Spec.Sp.leafInput i.val msg).length ≤ msg.length := by
        unfold Spec.Sp.leafInput
        rw [List.length_map]
        refine Nat.le_trans (List.length_filter_le _ _) ?_
        rw [List.length_zipIdx]
        exact Nat.le_refl _
      rw [List.length_append]
      omega)).1
  have hb : ∀ i, ((Spec.Sp.leaf (BitVec.ofNat 8 d) key msg i).take d).length ≤ 32 := by
    intro i
    rw [List.length_take]
    omega
  rw [tree hl, C53_node E hE d hd key hk 0 1 true _ (fun _ => by
    have := Fast.leaves_length hb
    rw [List.length_append]
    omega), show BitVec.ofNat 48 (0 : Fin 8).val = 0 from rfl]

example : publicSp releasePlain 20 [1, 2, 3] bytes1500 = .ok (Spec.hash (Spec.Sp.nodeParams 20 3 0 1) [1, 2, 3] true
    ((List.finRange 8).flatMap fun i => (Spec.Sp.leaf 20 [1, 2, 3] bytes1500 i).take 20)) :=
  C53_client releasePlain (by decide) 20 (by decide) [1, 2, 3] (by decide) bytes1500 nofun

/-- C53, "the basic default-length-no-key case": the client's digest is BLAKE2sp's, for every message. -/
theorem C53_default (E : Env) (hE : E.WF) (msg : List U8) (hfit : E.overflowChecks = true → msg.length < 2 ^ 63) :
    publicSp E 32 [] msg = .ok (Spec.Sp.blake2sp msg) := by
  rw [C53_client E hE 32 (by decide) [] (by decide) msg hfit]
  have t : ∀ i, (Spec.Sp.leaf (BitVec.ofNat 8 32) [] msg i).take 32 = Spec.Sp.leaf 32 [] msg i := by
    intro i
    apply List.take_of_length_le
    unfold Spec.Sp.leaf Spec.digestBytes
    rw [List.length_take]
    exact Nat.min_le_left _ _
  rw [show (fun i => (Spec.Sp.leaf (BitVec.ofNat 8 32) [] msg i).take 32) = Spec.Sp.leaf 32 [] msg from
    funext t]
  unfold Spec.Sp.blake2sp Spec.Sp.hash
  exact congrArg _ (root_hash _ _)

example : publicSp debugAvx2 32 [] bytes150 = .ok (Spec.Sp.blake2sp bytes150) :=
  C53_default debugAvx2 (by decide) bytes150 (fun _ => by rw [length150]; decide)

/-- C53, "you can't implement either of those parameters correctly", the digest length: a shorter digest of the
empty message, put together by the client, is not BLAKE2sp's, on every platform and build. -/
theorem C53_short_false (E : Env) (hE : E.WF) : publicSp E 16 [] [] ≠ .ok (Spec.Sp.hash 16 [] []) := by
  rw [C53_client E hE 16 (by decide) [] (by decide) [] (fun _ => by decide),
    leaf_fast 0 _ _ _ (by decide +kernel), Fast.spHash_eq 0 _ _ _ (by decide +kernel),
    Fast.hash_eq 3 _ _ _ _ (by decide +kernel)]
  intro h
  exact absurd (Except.ok.inj h) (by decide +kernel)

/-- C53, "either of those parameters", the key: likewise with a key of one byte, where the root of the client
hashes the key block and BLAKE2sp's root does not. -/
theorem C53_keyed_false (E : Env) (hE : E.WF) : publicSp E 32 [1] [] ≠ .ok (Spec.Sp.hash 32 [1] []) := by
  rw [C53_client E hE 32 (by decide) [1] (by decide) [] (fun _ => by decide),
    leaf_fast 1 _ _ _ (by decide +kernel), Fast.spHash_eq 1 _ _ _ (by decide +kernel),
    Fast.hash_eq 4 _ _ _ _ (by decide +kernel)]
  intro h
  exact absurd (Except.ok.inj h) (by decide +kernel)

/-- C53, no client can do better, the digest length: whatever setters were called, if a state starts from the
chaining value of a leaf of BLAKE2sp with digest length `d`, then whatever is called on it, each of its digests has
`d` bytes. -/
theorem C53_leaf_short (E : Env) (hE : E.WF) (p : Params) (hp : p.Accepted) (s0 : State)
    (h0 : p.toState E = .ok s0) (d keyLength : U8) (i : Fin 8)
    (hh : ∀ j : Fin 8, s0.h[j] =
      (Spec.Sp.nodeParams d keyLength (BitVec.ofNat 48 i.val) 0).init j)
    (ops : List Op) (s s' : State) (h : Hash) (hs : Reaches E p ops s) (hf : s.finalize E = .ok (s', h)) :
    ∃ b, h.asBytes = .ok b ∧ b.length = d.toNat := by
  have e : p.values = Spec.Sp.nodeParams d keyLength (BitVec.ofNat 48 i.val) 0 := by
    apply spec_init_injective
    rw [← (toState_start hE hp.valid h0).1]
    funext j
    exact hh j
  have hd : p.hashLength = d := congrArg Spec.Params.digestLength e
  obtain ⟨b, h1, h2⟩ := C23_finalize E hE p hp ops s s' hs h hf
  exact ⟨b, h1, by rw [h2, hd]⟩

/-- The parameters of leaf 5 of BLAKE2sp-160 with a key of three bytes, through the setters. -/
example : ∃ p s0 s s' h b, Params.new.setAll (nodeSetters 20 [1, 2, 3] 5 0 false) = .ok p ∧
    p.toState debugAvx2 = .ok s0 ∧ Reaches debugAvx2 p [.update bytes150, .finalize, .update [1]] s ∧
    s.finalize debugAvx2 = .ok (s', h) ∧ h.asBytes = .ok b ∧ b.length = 20 := by
  obtain ⟨p, e, hv⟩ := setAll_view _ (node_inRange (d := 20) (key := [1, 2, 3]) (by decide) (by decide) 5 0 false)
    Params.new
  have hp : p.Accepted := ⟨_, e⟩
  have hv' : p.values = Spec.Sp.nodeParams 20 3 (BitVec.ofNat 48 (5 : Fin 8).val) 0 :=
    congrArg View.values (hv.trans (nodeView 20 [1, 2, 3] 5 0 false))
  obtain ⟨s, s', h, hs, hf⟩ := finalizes debugAvx2 (by decide) p hp [.update bytes150, .finalize, .update [1]] (by
    simp [fed, length150])
  obtain ⟨s0, _, h0, _⟩ := id hs
  obtain ⟨b, h1, h2⟩ := C53_leaf_short debugAvx2 (by decide) p hp s0 h0 20 3 5 (fun j => by
    rw [← hv', ← (toState_start (by decide) hp.valid h0).1]; rfl) _ s s' h hs hf
  exact ⟨p, s0, s, s', h, b, e, h0, hs, hf, h1, h2⟩

/-- C53, no client can do better, the key: whatever setters were called, if a state starts from the chaining value
of the root of BLAKE2sp with a key, then it starts by absorbing a block of 64 bytes, which that root does not
have: what it hashes is a key block and then the bytes fed. -/
theorem C53_root_keyed (E : Env) (hE : E.WF) (p : Params) (hp : p.Accepted) (s0 : State)
    (h0 : p.toState E = .ok s0) (d keyLength : U8) (hk : keyLength ≠ 0)
    (hh : ∀ j : Fin 8, s0.h[j] = (Spec.Sp.nodeParams d keyLength 0 1).init j) :
    ∃ block : List U8, block.length = 64 ∧ ∀ (ops : List Op) (s s' : State) (h : Hash), Reaches E p ops s →
      s.finalize E = .ok (s', h) → h.asBytes = .ok (Spec.digestBytes
        (Spec.absorb (Spec.Sp.nodeParams d keyLength 0 1).init 0 (block ++ fed ops) (lastFlag p.lastNode ops))
        d.toNat) := by
  have e : p.values = Spec.Sp.nodeParams d keyLength 0 1 := by
    apply spec_init_injective
    rw [← (toState_start hE hp.valid h0).1]
    funext j
    exact hh j
  have hd : p.hashLength = d := congrArg Spec.Params.digestLength e
  have hkl : p.keyLength = keyLength := congrArg Spec.Params.keyLength e
  refine ⟨Spec.keyBlock p.keyBytes, ?_, fun ops s s' h hs hf => ?_⟩
  · rw [keyBlock_length' hp.valid, hkl, if_neg hk]
  · rw [finalize_bytes hE hp hs hf, ← e, ← hd]
    rfl

/-- The parameters of the root of BLAKE2sp-256 with a key of three bytes, through the setters. -/
example : ∃ p s s' h block, Params.new.setAll (nodeSetters 32 [1, 2, 3] 0 1 true) = .ok p ∧
    Reaches debugAvx2 p [.update bytes150] s ∧ s.finalize debugAvx2 = .ok (s', h) ∧
    List.length block = 64 ∧ h.asBytes = .ok (Spec.digestBytes
      (Spec.absorb (Spec.Sp.nodeParams 32 3 0 1).init 0 (block ++ bytes150) true) 32) := by
  obtain ⟨p, e, hv⟩ := setAll_view _ (node_inRange (d := 32) (key := [1, 2, 3]) (by decide) (by decide) 0 1 true)
    Params.new
  have hp : p.Accepted := ⟨_, e⟩
  have hv1 := hv.trans (nodeView 32 [1, 2, 3] 0 1 true)
  have hv' : p.values = Spec.Sp.nodeParams 32 3 0 1 := congrArg View.values hv1
  have hl : p.lastNode = true := congrArg View.lastNode hv1
  obtain ⟨s, s', h, hs, hf⟩ := finalizes debugAvx2 (by decide) p hp [.update bytes150] (by
    simp [fed, length150])
  obtain ⟨s0, _, h0, _⟩ := id hs
  obtain ⟨block, h1, h2⟩ := C53_root_keyed debugAvx2 (by decide) p hp s0 h0 32 3 (by decide) (fun j => by
    rw [← hv', ← (toState_start (by decide) hp.valid h0).1]; rfl)
  have h3 := h2 _ s s' h hs hf
  rw [show fed [.update bytes150] = bytes150 from List.append_nil _,
    show lastFlag p.lastNode [.update bytes150] = p.lastNode from rfl, hl] at h3
  exact ⟨p, s, s', h, block, e, hs, hf, h1, h3⟩

end Blake2s.PublicSp
