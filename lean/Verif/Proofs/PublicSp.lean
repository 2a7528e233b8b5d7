import Verif.PublicSp
import Verif.Proofs.Setters
import Verif.Proofs.Fast
/-!
# Lemmas for C53
-/

namespace Blake2s.PublicSp

/-- The values that the setters of a node leave behind. -/
theorem nodeView (d : Nat) (key : List U8) (off : Fin 8) (depth : U8) (last : Bool) :
    (nodeSetters d key off depth last).foldl Setter.effect ⟨Spec.sequential 32 0, [], false⟩ =
      ⟨Spec.Sp.nodeParams (BitVec.ofNat 8 d) (BitVec.ofNat 8 key.length) (BitVec.ofNat 48 off.val) depth, key,
        last⟩ := by
  have h : BitVec.ofNat 48 (BitVec.ofNat 64 off.val).toNat = BitVec.ofNat 48 off.val := by
    rw [BitVec.toNat_ofNat, Nat.mod_eq_of_lt (by omega)]
  simp only [nodeSetters, List.foldl, Setter.effect, h]
  rfl

theorem node_inRange {d : Nat} {key : List U8} (hd : 1 ≤ d ∧ d ≤ 32) (hk : key.length ≤ 32) (off : Fin 8)
    (depth : U8) (last : Bool) : ∀ c ∈ nodeSetters d key off depth last, c.InRange := by
  intro c hc
  simp only [nodeSetters, List.mem_cons, List.not_mem_nil, or_false] at hc
  rcases hc with rfl | rfl | rfl | rfl | rfl | rfl | rfl | rfl
  · exact hd
  · exact hk
  · trivial
  · decide
  · show (BitVec.ofNat 64 off.val).toNat < 2 ^ 48
    rw [BitVec.toNat_ofNat]
    omega
  · trivial
  · show (32 : Nat) ≤ 32
    decide
  · trivial

/-- The root of BLAKE2sp without a key as a BLAKE2s instance. -/
theorem root_hash (d : U8) (leaves : Fin 8 → List U8) :
    Spec.hash (Spec.Sp.nodeParams d (BitVec.ofNat 8 ([] : List U8).length) (BitVec.ofNat 48 (0 : Fin 8).val) 1) []
        true ((List.finRange 8).flatMap leaves) =
      Spec.digestBytes (Spec.absorb (Spec.Sp.nodeParams d (BitVec.ofNat 8 ([] : List U8).length) 0 1).init 0
        ((List.finRange 8).flatMap leaves) true) d.toNat := by
  generalize (List.finRange 8).flatMap leaves = data
  have h : Spec.keyBlock [] ++ data = data := by
    rw [show Spec.keyBlock [] = [] from rfl, List.nil_append]
  unfold Spec.hash
  rw [h]
  rfl

theorem tree {E : Env} {d : Nat} {key msg : List U8} {f : Fin 8 → List U8}
    (hl : ∀ i : Fin 8, publicNode E d key i 0 (i.val == 7) (Spec.Sp.leafInput i.val msg) = .ok (f i)) :
    publicSp E d key msg = publicNode E d key 0 1 true ((List.finRange 8).flatMap f) := by
  have h0 : publicNode E d key 0 0 false (Spec.Sp.leafInput 0 msg) = .ok (f 0) := hl 0
  have h1 : publicNode E d key 1 0 false (Spec.Sp.leafInput 1 msg) = .ok (f 1) := hl 1
  have h2 : publicNode E d key 2 0 false (Spec.Sp.leafInput 2 msg) = .ok (f 2) := hl 2
  have h3 : publicNode E d key 3 0 false (Spec.Sp.leafInput 3 msg) = .ok (f 3) := hl 3
  have h4 : publicNode E d key 4 0 false (Spec.Sp.leafInput 4 msg) = .ok (f 4) := hl 4
  have h5 : publicNode E d key 5 0 false (Spec.Sp.leafInput 5 msg) = .ok (f 5) := hl 5
  have h6 : publicNode E d key 6 0 false (Spec.Sp.leafInput 6 msg) = .ok (f 6) := hl 6
  have h7 : publicNode E d key 7 0 true (Spec.Sp.leafInput 7 msg) = .ok (f 7) := hl 7
  have er : List.finRange 8 = [0, 1, 2, 3, 4, 5, 6, 7] := by decide
  unfold publicSp
  simp only [h0, h1, h2, h3, h4, h5, h6, h7, bind, Except.bind, er, List.flatMap_cons, List.flatMap_nil,
    List.append_assoc, List.append_nil]

theorem leaf_fast (n : Nat) (hl : U8) (key msg : List U8)
    (h : ∀ i : Fin 8, (Spec.keyBlock key ++ Spec.Sp.leafInput i.val msg).length ≤ 64 * (n + 1)) :
    Spec.Sp.leaf hl key msg = Fast.leaf n hl key msg :=
  funext fun i => ((Fast.Sim.ofFn _).absorb n 0 _ (i.val == 7) (h i)).digest 32

end Blake2s.PublicSp
