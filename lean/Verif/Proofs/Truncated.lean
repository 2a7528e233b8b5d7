import Verif.Proofs.KeyedCollision
/-!
# Collisions of digests of any length
-/

namespace Spec

open Blake2s (spec_init_injective)

/-- The last compression of a trace gives the result. -/
theorem absorbTrace_getLast (h : Fin 8 → Word) (off : Nat) (data : List Byte) (ln : Bool) :
    ∃ x, (absorbTrace h off data ln).getLast? = some x ∧ x.output = absorb h off data ln := by
  rw [absorbTrace, absorb]
  by_cases c : data.length ≤ 64
  · rw [if_pos c, if_pos c]
    exact ⟨_, rfl, output_mk ..⟩
  · rw [if_neg c, if_neg c]
    obtain ⟨x, hx, ho⟩ := absorbTrace_getLast
      (F h (blockWords (data.take 64)) (off + 64) false false) (off + 64) (data.drop 64) ln
    refine ⟨x, ?_, ho⟩
    simp only [output_mk]
    rw [List.getLast?_cons, hx]
    rfl
termination_by data.length
decreasing_by simp; omega

theorem getLast_append {α : Type} {a b : List α} {x : α} (h : b.getLast? = some x) :
    (a ++ b).getLast? = some x := by
  rw [List.getLast?_append, h]
  rfl

theorem CollideTo.append {n : Nat} {a b : List FInput} (h : CollideTo n a b) (a' b' : List FInput) :
    CollideTo n (a' ++ a) (b' ++ b) := by
  rcases h with c | ⟨x, y, hx, hy, h⟩
  · exact .inl (c.mono (fun _ => List.mem_append_right _) (fun _ => List.mem_append_right _))
  · exact .inr ⟨x, y, getLast_append hx, getLast_append hy, h⟩

/-- For whole digests the second case is a case of the first. -/
theorem CollideTo.full {a b : List FInput} (h : CollideTo 32 a b) : Collide a b := by
  rcases h with c | ⟨x, y, hx, hy, hne, e⟩
  · exact c
  · exact ⟨x, List.mem_of_getLast? hx, y, List.mem_of_getLast? hy, hne, digest32_inj e⟩

theorem absorb_near (n : Nat) (h h' : Fin 8 → Word) (d d' : List Byte) (ln ln' : Bool)
    (hd : d.length < 2 ^ 64) (hd' : d'.length < 2 ^ 64)
    (e : digestBytes (absorb h 0 d ln) n = digestBytes (absorb h' 0 d' ln') n) :
    (h = h' ∧ d = d' ∧ ln = ln') ∨
      CollideTo n (absorbTrace h 0 d ln) (absorbTrace h' 0 d' ln') := by
  obtain ⟨x, hx, ox⟩ := absorbTrace_getLast h 0 d ln
  obtain ⟨y, hy, oy⟩ := absorbTrace_getLast h' 0 d' ln'
  by_cases q : x = y
  · rcases absorb_collision h h' d d' ln ln' hd hd' (by rw [← ox, ← oy, q]) with c | c
    · exact .inl c
    · exact .inr (.inl c)
  · exact .inr (.inr ⟨x, y, hx, hy, q, by rw [ox, oy, e]⟩)

theorem digestBytes_length (h : Fin 8 → Word) (n : Nat) (hn : n ≤ 32) : (digestBytes h n).length = n := by
  unfold digestBytes
  rw [List.length_take, Nat.min_eq_left]
  exact hn

theorem hash_near {p p' : Params} {key key' msg msg' : List Byte} {ln ln' : Bool}
    (hk : key.length = p.keyLength.toNat) (hk' : key'.length = p'.keyLength.toNat)
    (hd : p.digestLength.toNat ≤ 32) (hd' : p'.digestLength.toNat ≤ 32)
    (hm : (keyBlock key ++ msg).length < 2 ^ 64) (hm' : (keyBlock key' ++ msg').length < 2 ^ 64)
    (e : hash p key ln msg = hash p' key' ln' msg') :
    (p = p' ∧ key = key' ∧ ln = ln' ∧ msg = msg') ∨
      CollideTo p.digestLength.toNat (hashTrace p key ln msg) (hashTrace p' key' ln' msg') := by
  unfold hash at e
  have el := congrArg List.length e
  rw [digestBytes_length _ _ hd, digestBytes_length _ _ hd'] at el
  rw [← el] at e
  rcases absorb_near _ _ _ _ _ ln ln' hm hm' e with ⟨e1, e2, e3⟩ | c
  · left
    have ep := spec_init_injective e1
    obtain ⟨ek, em⟩ := keyBlock_append_inj (by rw [hk, hk', ep]) e2
    exact ⟨ep, ek, e3, em⟩
  · exact .inr c

namespace Sp

theorem hash_near {l l' : Byte} {msg msg' : List Byte} (hl : l.toNat ≤ 32) (hl' : l'.toNat ≤ 32)
    (hm : msg.length < 2 ^ 64) (hm' : msg'.length < 2 ^ 64)
    (e : hash l [] msg = hash l' [] msg') :
    msg = msg' ∨ CollideTo l.toNat (hashTrace l [] msg) (hashTrace l' [] msg') := by
  unfold hash at e
  have el := congrArg List.length e
  rw [digestBytes_length _ _ hl, digestBytes_length _ _ hl'] at el
  obtain rfl := BitVec.eq_of_toNat_eq el
  rcases absorb_near _ _ _ _ _ true true (by rw [leaves_length]; decide)
    (by rw [leaves_length]; decide) e with ⟨_, e2, _⟩ | c
  · have el := leaves_inj (fun i => leaf_length ..) (fun i => leaf_length ..) e2
    by_cases q : ∀ i : Fin 8, leafInput i msg = leafInput i msg'
    · exact .inl (leafInput_inj msg msg' q)
    · right
      obtain ⟨i, hi⟩ := Classical.not_forall.mp q
      have := leafInput_length_le i msg
      have := leafInput_length_le i msg'
      rcases absorb_collision _ _ _ _ _ _ (by rw [show keyBlock [] = [] from rfl, List.nil_append]; omega)
        (by rw [show keyBlock [] = [] from rfl, List.nil_append]; omega)
        (digest32_inj (el i)) with ⟨_, e3, _⟩ | c
      · exact absurd e3 hi
      · exact .inl (c.mono
          (fun x hx => List.mem_append_left _ (List.mem_flatMap.mpr ⟨i, List.mem_finRange i, hx⟩))
          (fun x hx => List.mem_append_left _ (List.mem_flatMap.mpr ⟨i, List.mem_finRange i, hx⟩)))
  · exact .inr (c.append _ _)

end Sp
end Spec

namespace Blake2s.Sp

open Spec (CollideTo absorb_near digestBytes_length)

theorem keyed_near {l l' : U8} {key key' msg msg' : List U8} {n n' : Nat}
    (hl : l.toNat ≤ 32) (hl' : l'.toNat ≤ 32)
    (h0 : key ≠ []) (h0' : key' ≠ []) (hk : key.length ≤ 32) (hk' : key'.length ≤ 32)
    (hn : 512 * n ≤ msg.length) (hn' : 512 * n' ≤ msg'.length)
    (hm : 64 + msg.length < 2 ^ 64) (hm' : 64 + msg'.length < 2 ^ 64)
    (e : keyedHash l key n msg = keyedHash l' key' n' msg') :
    (n = n' ∧ key = key' ∧ msg = msg') ∨
      CollideTo l.toNat (keyedTrace l key n msg) (keyedTrace l' key' n' msg') := by
  unfold keyedHash at e
  have el := congrArg List.length e
  rw [digestBytes_length _ _ hl, digestBytes_length _ _ hl'] at el
  obtain rfl := BitVec.eq_of_toNat_eq el
  rcases absorb_near _ _ _ _ _ true true (by rw [keyedLeaves_length]; decide)
    (by rw [keyedLeaves_length]; decide) e with ⟨e1, e2, _⟩ | c
  · have hkl : key.length = key'.length := by
      have := congrArg (fun p : Spec.Params => p.keyLength.toNat) (spec_init_injective e1)
      simp only [Spec.Sp.nodeParams, BitVec.toNat_ofNat] at this
      omega
    rcases keyed_leaves h0 h0' hk hkl hn hn' hm hm' e2 with h | c
    · exact .inl h
    · exact .inr (.inl c)
  · exact .inr (c.append _ _)

theorem keyed_unkeyed_near {l l' : U8} {key msg msg' : List U8} {n : Nat}
    (hl : l.toNat ≤ 32) (hl' : l'.toNat ≤ 32) (h0 : key ≠ [])
    (hk : key.length ≤ 32) (e : keyedHash l key n msg = Spec.Sp.hash l' [] msg') :
    CollideTo l.toNat (keyedTrace l key n msg) (Spec.Sp.hashTrace l' [] msg') := by
  unfold keyedHash Spec.Sp.hash at e
  have el := congrArg List.length e
  rw [digestBytes_length _ _ hl, digestBytes_length _ _ hl'] at el
  obtain rfl := BitVec.eq_of_toNat_eq el
  rcases absorb_near _ _ _ _ _ true true (by rw [keyedLeaves_length]; decide)
    (by rw [Spec.Sp.leaves_length]; decide) e with ⟨e1, _, _⟩ | c
  · have := congrArg (fun p : Spec.Params => p.keyLength.toNat) (spec_init_injective e1)
    simp only [Spec.Sp.nodeParams, BitVec.toNat_ofNat, List.length_nil] at this
    have h1 : key.length = 0 := by omega
    exact absurd (List.length_eq_zero_iff.mp h1) h0
  · exact c.append _ _

/-- BLAKE2s and BLAKE2sp with a key, whatever it really computes; without one is the case `key' = []`,
`n = 0`. -/
theorem cross_near {p : Spec.Params} {l : U8} {key msg key' msg' : List U8} {ln : Bool} {n : Nat}
    (hd : p.digestLength.toNat ≤ 32) (hl : l.toNat ≤ 32)
    (hm : (Spec.keyBlock key ++ msg).length < 2 ^ 64)
    (e : Spec.hash p key ln msg = keyedHash l key' n msg') :
    (p = Spec.Sp.nodeParams l (BitVec.ofNat 8 key'.length) 0 1 ∧ ln = true ∧
      Spec.keyBlock key ++ msg = (List.finRange 8).flatMap (keyedLeaf l key' n msg')) ∨
    CollideTo p.digestLength.toNat (Spec.hashTrace p key ln msg) (keyedTrace l key' n msg') := by
  unfold Spec.hash keyedHash at e
  have el := congrArg List.length e
  rw [digestBytes_length _ _ hd, digestBytes_length _ _ hl] at el
  rw [← el] at e
  rcases absorb_near _ _ _ _ _ ln true hm
    (by rw [keyedLeaves_length]; decide) e with ⟨e1, e2, e3⟩ | c
  · exact .inl ⟨spec_init_injective e1, e3, e2⟩
  · exact .inr (c.append [] _)

end Blake2s.Sp
