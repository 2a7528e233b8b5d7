import Verif.Proofs.SpStart
import Verif.Props.Params
/-!
# Properties of `blake2sp::Params`: C20, C21 and C22 again
-/

namespace Blake2s.Sp

/-! ## C20 -/

/-- C20 for `blake2sp::Params`: a setter call with an argument in the documented range is accepted and
replaces exactly its own parameter. -/
theorem C20_sp_accepts (p : Params) (hp : p.Accepted) (c : Setter) (h : c.InRange) :
    ∃ q, p.set c = .ok q ∧ q.Accepted ∧ q.view = c.effect p.view := by
  obtain ⟨q, e, _, hv⟩ := Abstract.sp_set_pos hp.valid h
  refine ⟨q, e, ?_, hv⟩
  obtain ⟨calls, hc⟩ := hp
  refine ⟨calls ++ [c], ?_⟩
  have app : ∀ (a : List Setter) (r : Params), r.setAll a = .ok p → r.setAll (a ++ [c]) = .ok q := by
    intro a
    induction a with
    | nil =>
      intro r hr; cases hr
      show (do (← p.set c).setAll []) = _
      rw [e]; rfl
    | cons d ds ih =>
      intro r hr
      show (do (← r.set d).setAll (ds ++ [c])) = _
      have hr : (do (← r.set d).setAll ds) = .ok p := hr
      cases hd : r.set d with
      | error f => rw [hd] at hr; cases hr
      | ok r' => rw [hd] at hr; exact ih r' hr
  exact app calls _ hc

example : ∃ q, keyedParams.set (.key [4, 5]) = .ok q ∧ q.Accepted ∧ q.view = ⟨20, [4, 5]⟩ :=
  C20_sp_accepts keyedParams keyedParams_accepted (.key [4, 5]) (by decide)

/-- C20 for `blake2sp::Params`: every other argument makes the setter panic. -/
theorem C20_sp_rejects (p : Params) (c : Setter) (h : ¬ c.InRange) :
    p.set c = .error .assertFailed := Abstract.sp_set_neg p h

example : keyedParams.set (.hashLength 33) = .error .assertFailed ∧
    keyedParams.set (.key (List.replicate 33 0)) = .error .assertFailed :=
  ⟨C20_sp_rejects _ _ (by decide), C20_sp_rejects _ _ (by decide)⟩

/-- C20 for `blake2sp::Params`: the starting point is a 32-byte digest and no key. -/
theorem C20_sp_new : Params.new.view = ⟨32, []⟩ := rfl

/-- C20 for `blake2sp::Params`: a `Params` is determined by its view. -/
theorem C20_sp_view_injective (p q : Params) (hp : p.Accepted) (hq : q.Accepted)
    (h : p.view = q.view) : p = q := by
  obtain ⟨h1, h2⟩ := View.mk.inj h
  have hkey : p.key = q.key := by rw [← hp.padded_key, ← hq.padded_key, h2]
  have hkl : p.keyLength = q.keyLength := by rw [← hp.valid.keyLength_eq, ← hq.valid.keyLength_eq, h2]
  cases p; cases q
  simp only at *
  subst_vars
  rfl

/-- A longer key, set and then replaced, leaves nothing behind. -/
example : ∃ p q : Params, Params.new.set (.key [9, 9, 9, 9]) = .ok p ∧ p.set (.key []) = .ok q ∧
    q = Params.new := by
  obtain ⟨p, hp, ap, vp⟩ := C20_sp_accepts Params.new ⟨[], rfl⟩ (.key [9, 9, 9, 9]) (by decide)
  obtain ⟨q, hq, aq, vq⟩ := C20_sp_accepts p ap (.key []) (by decide)
  refine ⟨p, q, hp, hq, C20_sp_view_injective q Params.new aq ⟨[], rfl⟩ ?_⟩
  rw [vq, vp]
  rfl

example : (Setter.key [1, 2, 3]).InRange ∧ ¬ (Setter.key (List.replicate 33 0)).InRange ∧
    ¬ (Setter.hashLength 0).InRange ∧ (Setter.hashLength 32).InRange ∧
    (∃ p : Params, p.Accepted ∧ p.view = ⟨32, [1, 2, 3]⟩) := by
  refine ⟨by decide, by decide, by decide, by decide, ?_⟩
  obtain ⟨q, _, h, hv⟩ := C20_sp_accepts Params.new ⟨[], rfl⟩ (.key [1, 2, 3]) (by decide)
  exact ⟨q, h, hv⟩

/-! ## C21 -/

/-- C21 for `blake2sp::Params`: an accepted call is overridden without trace by a later call of the
same setter: a hash length by a hash length, a key by a key. -/
theorem C21_sp_last_wins (p q : Params) :
    (∀ m n, p.set (.hashLength m) = .ok q → q.set (.hashLength n) = p.set (.hashLength n)) ∧
    (∀ k l, p.set (.key k) = .ok q → q.set (.key l) = p.set (.key l)) := by
  constructor
  · intro m n h
    simp only [Params.set, setHashLength_eq] at h ⊢
    split at h
    · cases h; rfl
    · cases h
  · intro k l h
    simp only [Params.set, setKey_eq] at h ⊢
    split at h
    · cases h; rfl
    · cases h

/-- C21 for `blake2sp::Params`: the two setters commute (including whether the pair panics). -/
theorem C21_sp_commute (p : Params) (n : Nat) (k : List U8) :
    (do (← p.set (.hashLength n)).set (.key k)) = (do (← p.set (.key k)).set (.hashLength n)) := by
  simp only [Params.set, setHashLength_eq, setKey_eq]
  by_cases h1 : 1 ≤ n ∧ n ≤ 32 <;> by_cases h2 : k.length ≤ 32 <;>
    simp [h1, h2, bind, Except.bind]

example : (do (← keyedParams.set (.hashLength 0)).set (.key [5])) =
    (do (← keyedParams.set (.key [5])).set (.hashLength 0)) :=
  C21_sp_commute _ _ _

example : ∃ q, Params.new.set (.key [1, 2, 3, 4]) = .ok q ∧ q.view ≠ Params.new.view ∧
    q.set (.key []) = Params.new.set (.key []) := by
  obtain ⟨q, h, _, hv⟩ := C20_sp_accepts Params.new ⟨[], rfl⟩ (.key [1, 2, 3, 4]) (by decide)
  refine ⟨q, h, ?_, (C21_sp_last_wins Params.new q).2 _ _ h⟩
  rw [hv]; decide

/-! ## C22 -/

/-- C22 for BLAKE2sp: two leaves, of one state or of two, that start from the same chaining value have
the same position, and their states the same hash length and key length. -/
theorem C22_sp_leaves (E : Env) (hE : E.WF) (p q : Params) (hp : p.Accepted) (hq : q.Accepted)
    (s t : State) (hs : p.toState E = .ok s) (ht : q.toState E = .ok t) (i j : Fin 8)
    (h : s.leaves[i].h = t.leaves[j].h) :
    i = j ∧ p.hashLength = q.hashLength ∧ p.keyLength = q.keyLength := by
  have := node_inj (((toState_start hE hp.valid hs).1 i).1.symm.trans
    ((congrArg toFn h).trans ((toState_start hE hq.valid ht).1 j).1))
  refine ⟨?_, this.1, this.2.1⟩
  have h3 := congrArg BitVec.toNat this.2.2.1
  rw [BitVec.toNat_ofNat, BitVec.toNat_ofNat, Nat.mod_eq_of_lt (by omega),
    Nat.mod_eq_of_lt (by omega)] at h3
  exact Fin.ext h3

/-- The leaves at one position, under two keys of one length. -/
example : ∃ s t, keyedParams.toState releasePlain = .ok s ∧ otherParams.toState releasePlain = .ok t ∧
    s.leaves[(3 : Fin 8)].h = t.leaves[(3 : Fin 8)].h ∧ s.leaves[(3 : Fin 8)].h ≠ t.leaves[(4 : Fin 8)].h := by
  obtain ⟨s, hs, _⟩ := withParams_ok releasePlain (by decide) _ keyedParams_accepted.valid
  obtain ⟨t, ht, _⟩ := withParams_ok releasePlain (by decide) _ otherParams_accepted.valid
  have e : (keyedParams.toState releasePlain).map (fun s => s.leaves[(3 : Fin 8)].h) =
      (otherParams.toState releasePlain).map (fun s => s.leaves[(3 : Fin 8)].h) := by
    decide +kernel
  rw [show keyedParams.toState releasePlain = .ok s from hs,
    show otherParams.toState releasePlain = .ok t from ht] at e
  exact ⟨s, t, hs, ht, Except.ok.inj e, fun h => absurd (C22_sp_leaves releasePlain (by decide) _ _
    keyedParams_accepted otherParams_accepted s t hs ht 3 4 h).1 (by decide)⟩

/-- C22 for BLAKE2sp: two roots that start from the same chaining value belong to states with the same
hash length and key length. -/
theorem C22_sp_roots (E : Env) (hE : E.WF) (p q : Params) (hp : p.Accepted) (hq : q.Accepted)
    (s t : State) (hs : p.toState E = .ok s) (ht : q.toState E = .ok t)
    (h : s.root.h = t.root.h) : p.hashLength = q.hashLength ∧ p.keyLength = q.keyLength := by
  have := node_inj ((toState_start hE hp.valid hs).2.symm.trans
    ((congrArg toFn h).trans (toState_start hE hq.valid ht).2))
  exact ⟨this.1, this.2.1⟩

example : ∃ s t, keyedParams.toState debugAvx2 = .ok s ∧ shortParams.toState debugAvx2 = .ok t ∧
    s.root.h ≠ t.root.h := by
  obtain ⟨s, hs, _⟩ := withParams_ok debugAvx2 (by decide) _ keyedParams_accepted.valid
  obtain ⟨t, ht, _⟩ := withParams_ok debugAvx2 (by decide) _ shortParams_accepted.valid
  exact ⟨s, t, hs, ht, fun h => absurd (C22_sp_roots debugAvx2 (by decide) _ _
    keyedParams_accepted shortParams_accepted s t hs ht h).2 (by decide)⟩

/-- C22 for BLAKE2sp: no leaf starts from the chaining value of a root. -/
theorem C22_sp_leaf_root (E : Env) (hE : E.WF) (p q : Params) (hp : p.Accepted) (hq : q.Accepted)
    (s t : State) (hs : p.toState E = .ok s) (ht : q.toState E = .ok t) (i : Fin 8) :
    s.leaves[i].h ≠ t.root.h := by
  intro h
  have := node_inj (((toState_start hE hp.valid hs).1 i).1.symm.trans
    ((congrArg toFn h).trans (toState_start hE hq.valid ht).2))
  exact absurd this.2.2.2 (by decide)

example : ∃ s, keyedParams.toState debugAvx2 = .ok s ∧ s.leaves[(0 : Fin 8)].h ≠ s.root.h := by
  obtain ⟨s, hs, _⟩ := withParams_ok debugAvx2 (by decide) _ keyedParams_accepted.valid
  exact ⟨s, hs, C22_sp_leaf_root debugAvx2 (by decide) _ _ keyedParams_accepted keyedParams_accepted s s hs hs 0⟩

/-- C22 across the two APIs: a BLAKE2s state starts from the chaining value of a BLAKE2sp leaf or root
only if its parameters were set to exactly those of that node; in particular its fanout is 8 and its
maximum depth is 2. -/
theorem C22_sp_blake2s (E : Env) (hE : E.WF) (p : Params) (hp : p.Accepted) (s : State)
    (hs : p.toState E = .ok s) (q : Blake2s.Params) (hq : q.Accepted) (t : Blake2s.State)
    (ht : q.toState E = .ok t) :
    (∀ i : Fin 8, t.h = s.leaves[i].h →
      q.values = Spec.Sp.nodeParams p.hashLength p.keyLength (BitVec.ofNat 48 i.val) 0) ∧
    (t.h = s.root.h → q.values = Spec.Sp.nodeParams p.hashLength p.keyLength 0 1) := by
  constructor
  · intro i h
    apply spec_init_injective
    rw [← (Blake2s.toState_start hE hq.valid ht).1, ← ((toState_start hE hp.valid hs).1 i).1, h]
  · intro h
    apply spec_init_injective
    rw [← (Blake2s.toState_start hE hq.valid ht).1, ← (toState_start hE hp.valid hs).2, h]

/-- No plain BLAKE2s state starts like a node of the tree. -/
example : ∃ s t, keyedParams.toState debugAvx2 = .ok s ∧ Blake2s.keyedParams.toState debugAvx2 = .ok t ∧
    (∀ i : Fin 8, t.h ≠ s.leaves[i].h) ∧ t.h ≠ s.root.h := by
  obtain ⟨s, hs, _⟩ := withParams_ok debugAvx2 (by decide) _ keyedParams_accepted.valid
  obtain ⟨t, ht, _⟩ := Blake2s.withParams_ok debugAvx2 (by decide) _ Blake2s.keyedParams_accepted.valid
  have h := C22_sp_blake2s debugAvx2 (by decide) _ keyedParams_accepted s hs _ Blake2s.keyedParams_accepted t ht
  exact ⟨s, t, hs, ht,
    fun i e => absurd (congrArg Spec.Params.fanout (h.1 i e)) (show Blake2s.keyedParams.values.fanout ≠ 8 by decide),
    fun e => absurd (congrArg Spec.Params.fanout (h.2 e)) (by decide)⟩

/-- C22 for BLAKE2sp: two different keys of the same length leave different first blocks in the buffer
of every leaf. -/
theorem C22_sp_first_block (E : Env) (hE : E.WF) (p q : Params) (hp : p.Accepted) (hq : q.Accepted)
    (s t : State) (hs : p.toState E = .ok s) (ht : q.toState E = .ok t)
    (hl : p.keyLength = q.keyLength) (hk : p.keyBytes ≠ q.keyBytes) (i j : Fin 8) :
    s.leaves[i].buf.toList.take s.leaves[i].buflen.toNat ≠
      t.leaves[j].buf.toList.take t.leaves[j].buflen.toNat := by
  rw [((toState_start hE hp.valid hs).1 i).2, ((toState_start hE hq.valid ht).1 j).2]
  intro h
  apply hk
  have hlen : p.keyBytes.length = q.keyBytes.length := by
    rw [hp.valid.keyBytes_length, hq.valid.keyBytes_length, hl]
  unfold Spec.keyBlock at h
  by_cases h0 : p.keyBytes = []
  · rw [h0] at hlen ⊢
    exact (List.length_eq_zero_iff.mp hlen.symm).symm
  · have h1 : q.keyBytes ≠ [] := by
      intro h1; rw [h1] at hlen; exact h0 (List.length_eq_zero_iff.mp hlen)
    rw [if_neg h0, if_neg h1] at h
    exact List.append_inj_left h hlen

example : ∃ s t, keyedParams.toState debugAvx2 = .ok s ∧ otherParams.toState debugAvx2 = .ok t ∧
    s.leaves[(2 : Fin 8)].buf.toList.take s.leaves[(2 : Fin 8)].buflen.toNat ≠
      t.leaves[(5 : Fin 8)].buf.toList.take t.leaves[(5 : Fin 8)].buflen.toNat := by
  obtain ⟨s, hs, _⟩ := withParams_ok debugAvx2 (by decide) _ keyedParams_accepted.valid
  obtain ⟨t, ht, _⟩ := withParams_ok debugAvx2 (by decide) _ otherParams_accepted.valid
  exact ⟨s, t, hs, ht, C22_sp_first_block debugAvx2 (by decide) _ _ keyedParams_accepted otherParams_accepted
    s t hs ht (by decide) (by decide) 2 5⟩

example (E : Env) (hE : E.WF) : ∃ (p q : Params) (s t : State), p.Accepted ∧ q.Accepted ∧
    p.toState E = .ok s ∧ q.toState E = .ok t ∧ p.keyLength = q.keyLength ∧
    p.keyBytes ≠ q.keyBytes := by
  obtain ⟨p, _, hp, vp⟩ := C20_sp_accepts Params.new ⟨[], rfl⟩ (.key [1, 2]) (by decide)
  obtain ⟨q, _, hq, vq⟩ := C20_sp_accepts Params.new ⟨[], rfl⟩ (.key [1, 3]) (by decide)
  obtain ⟨s, hs, _⟩ := withParams_ok E hE p hp.valid
  obtain ⟨t, ht, _⟩ := withParams_ok E hE q hq.valid
  have ep : p.keyBytes = [1, 2] := congrArg View.key vp
  have eq : q.keyBytes = [1, 3] := congrArg View.key vq
  refine ⟨p, q, s, t, hp, hq, hs, ht, ?_, ?_⟩
  · rw [← hp.valid.keyLength_eq, ← hq.valid.keyLength_eq, ep, eq]; rfl
  · rw [ep, eq]; decide

end Blake2s.Sp
