import Verif.Proofs.Truncated

/-! Lemmas for C62: digests that agree in their first bytes. -/

namespace Spec

open Blake2s (spec_init_injective)

theorem take_digestBytes (h : Fin 8 → Word) {n k : Nat} (hn : n ≤ k) : (digestBytes h k).take n = digestBytes h n := by
  unfold digestBytes
  rw [List.take_take, Nat.min_eq_left hn]

theorem hash_prefix {p p' : Params} {key key' msg msg' : List Byte} {ln ln' : Bool} {n : Nat}
    (hk : key.length = p.keyLength.toNat) (hk' : key'.length = p'.keyLength.toNat)
    (hn : n ≤ p.digestLength.toNat) (hn' : n ≤ p'.digestLength.toNat)
    (hm : (keyBlock key ++ msg).length < 2 ^ 64) (hm' : (keyBlock key' ++ msg').length < 2 ^ 64)
    (e : (hash p key ln msg).take n = (hash p' key' ln' msg').take n) :
    (p = p' ∧ key = key' ∧ ln = ln' ∧ msg = msg') ∨
      CollideTo n (hashTrace p key ln msg) (hashTrace p' key' ln' msg') := by
  unfold hash at e
  rw [take_digestBytes _ hn, take_digestBytes _ hn'] at e
  rcases absorb_near _ _ _ _ _ ln ln' hm hm' e with ⟨e1, e2, e3⟩ | c
  · left
    have ep := spec_init_injective e1
    obtain ⟨ek, em⟩ := keyBlock_append_inj (by rw [hk, hk', ep]) e2
    exact ⟨ep, ek, e3, em⟩
  · exact .inr c

theorem Sp.nodeParams_length {l l' k k' : Byte} {o o' : BitVec 48} {d d' : Byte}
    (e : (Sp.nodeParams l k o d).init = (Sp.nodeParams l' k' o' d').init) : l = l' ∧ k = k' :=
  have h := spec_init_injective e
  ⟨congrArg (fun p : Params => p.digestLength) h, congrArg (fun p : Params => p.keyLength) h⟩

theorem Sp.hash_prefix {l l' : Byte} {msg msg' : List Byte} {n : Nat} (hn : n ≤ l.toNat) (hn' : n ≤ l'.toNat)
    (hl : l.toNat ≤ 32) (hm : msg.length < 2 ^ 64) (hm' : msg'.length < 2 ^ 64)
    (e : (hash l [] msg).take n = (hash l' [] msg').take n) :
    (l = l' ∧ msg = msg') ∨ CollideTo n (hashTrace l [] msg) (hashTrace l' [] msg') := by
  have e' := e
  unfold hash at e
  rw [take_digestBytes _ hn, take_digestBytes _ hn'] at e
  rcases absorb_near _ _ _ _ _ true true (by rw [leaves_length]; decide)
    (by rw [leaves_length]; decide) e with ⟨e1, e2, _⟩ | c
  · obtain rfl := (Sp.nodeParams_length e1).1
    have h : hash l [] msg = hash l [] msg' := by
      unfold hash
      rw [e2]
    rcases Sp.hash_near hl hl hm hm' h with h | c | ⟨x, y, hx, hy, hne, q⟩
    · exact .inl ⟨rfl, h⟩
    · exact .inr (.inl c)
    · refine .inr (.inr ⟨x, y, hx, hy, hne, ?_⟩)
      rw [← take_digestBytes _ hn, ← take_digestBytes _ hn, q]
  · exact .inr (c.append _ _)

end Spec

namespace Blake2s.Sp

open Spec (CollideTo absorb_near take_digestBytes)

theorem keyed_prefix {l l' : U8} {key key' msg msg' : List U8} {r r' n : Nat} (hn : n ≤ l.toNat) (hn' : n ≤ l'.toNat)
    (h0 : key ≠ []) (h0' : key' ≠ []) (hk : key.length ≤ 32) (hk' : key'.length ≤ 32)
    (hr : 512 * r ≤ msg.length) (hr' : 512 * r' ≤ msg'.length)
    (hm : 64 + msg.length < 2 ^ 64) (hm' : 64 + msg'.length < 2 ^ 64)
    (e : (keyedHash l key r msg).take n = (keyedHash l' key' r' msg').take n) :
    (l = l' ∧ r = r' ∧ key = key' ∧ msg = msg') ∨
      CollideTo n (keyedTrace l key r msg) (keyedTrace l' key' r' msg') := by
  unfold keyedHash at e
  rw [take_digestBytes _ hn, take_digestBytes _ hn'] at e
  rcases absorb_near _ _ _ _ _ true true (by rw [keyedLeaves_length]; decide)
    (by rw [keyedLeaves_length]; decide) e with ⟨e1, e2, _⟩ | c
  · obtain ⟨rfl, ek⟩ := Spec.Sp.nodeParams_length e1
    have hkl : key.length = key'.length := by
      have := congrArg BitVec.toNat ek
      simp only [BitVec.toNat_ofNat] at this
      omega
    rcases keyed_leaves h0 h0' hk hkl hr hr' hm hm' e2 with h | c
    · exact .inl ⟨rfl, h⟩
    · exact .inr (.inl c)
  · exact .inr (c.append _ _)

theorem keyed_unkeyed_prefix {l l' : U8} {key msg msg' : List U8} {r n : Nat} (hn : n ≤ l.toNat) (hn' : n ≤ l'.toNat)
    (h0 : key ≠ []) (hk : key.length ≤ 32)
    (e : (keyedHash l key r msg).take n = (Spec.Sp.hash l' [] msg').take n) :
    CollideTo n (keyedTrace l key r msg) (Spec.Sp.hashTrace l' [] msg') := by
  unfold keyedHash Spec.Sp.hash at e
  rw [take_digestBytes _ hn, take_digestBytes _ hn'] at e
  rcases absorb_near _ _ _ _ _ true true (by rw [keyedLeaves_length]; decide)
    (by rw [Spec.Sp.leaves_length]; decide) e with ⟨e1, _, _⟩ | c
  · have := congrArg BitVec.toNat (Spec.Sp.nodeParams_length e1).2
    simp only [BitVec.toNat_ofNat, List.length_nil] at this
    have h1 : key.length = 0 := by omega
    exact absurd (List.length_eq_zero_iff.mp h1) h0
  · exact c.append _ _

/-- BLAKE2s and BLAKE2sp with a key, whatever it really computes; without one is the case `key' = []`, `r = 0`. -/
theorem cross_prefix {p : Spec.Params} {l : U8} {key msg key' msg' : List U8} {ln : Bool} {r n : Nat}
    (hn : n ≤ p.digestLength.toNat) (hn' : n ≤ l.toNat) (hm : (Spec.keyBlock key ++ msg).length < 2 ^ 64)
    (e : (Spec.hash p key ln msg).take n = (keyedHash l key' r msg').take n) :
    (p = Spec.Sp.nodeParams l (BitVec.ofNat 8 key'.length) 0 1 ∧ ln = true ∧
      Spec.keyBlock key ++ msg = (List.finRange 8).flatMap (keyedLeaf l key' r msg')) ∨
    CollideTo n (Spec.hashTrace p key ln msg) (keyedTrace l key' r msg') := by
  unfold Spec.hash keyedHash at e
  rw [take_digestBytes _ hn, take_digestBytes _ hn'] at e
  rcases absorb_near _ _ _ _ _ ln true hm
    (by rw [keyedLeaves_length]; decide) e with ⟨e1, e2, e3⟩ | c
  · exact .inl ⟨Blake2s.spec_init_injective e1, e3, e2⟩
  · exact .inr (c.append [] _)

end Blake2s.Sp
