import Verif.Props.Cases
import Verif.Proofs.ParamsInj
/-!
# Properties of `Params`: C20, C21, C22, C39
-/

namespace Blake2s

/-! ## C20 -/

/-- C20: a setter call with an argument in the documented range is accepted and replaces exactly its
own parameter. -/
theorem C20_accepts (p : Params) (c : Setter) (h : c.InRange) :
    ∃ q, p.set c = .ok q ∧ q.view = c.effect p.view := by
  exact ⟨_, set_pos p h, put_view p c h⟩

example : ∃ q, saltedParams.set (.key [4, 5]) = .ok q ∧
    q.view = ⟨{ saltedParams.values with keyLength := 2 }, [4, 5], true⟩ :=
  C20_accepts saltedParams (.key [4, 5]) (by decide)

/-- C20: every other argument makes the setter panic. -/
theorem C20_rejects (p : Params) (c : Setter) (h : ¬ c.InRange) :
    p.set c = .error .assertFailed := set_neg p h

example : saltedParams.set (.hashLength 33) = .error .assertFailed ∧
    saltedParams.set (.maxDepth 0) = .error .assertFailed ∧
    saltedParams.set (.salt [1, 2, 3, 4, 5, 6, 7, 8, 9]) = .error .assertFailed :=
  ⟨C20_rejects _ _ (by decide), C20_rejects _ _ (by decide), C20_rejects _ _ (by decide)⟩

/-- C20: the starting point is the documented default. -/
theorem C20_new : Params.new.view = ⟨Spec.sequential 32 0, [], false⟩ := rfl

/-- C20: a `Params` is determined by its view, so nothing hidden survives in it. -/
theorem C20_view_injective (p q : Params) (hp : p.Accepted) (hq : q.Accepted)
    (h : p.view = q.view) : p = q := by
  have vp := hp.valid
  have vq := hq.valid
  obtain ⟨h1, h2, h3⟩ := View.mk.inj h
  have hkey : p.key = q.key := by rw [← vp.padded_key, ← vq.padded_key, h2]
  have hoff : p.nodeOffset = q.nodeOffset := by
    have h4 : p.nodeOffset.setWidth 48 = q.nodeOffset.setWidth 48 :=
      congrArg Spec.Params.nodeOffset h1
    have h5 := congrArg BitVec.toNat h4
    rw [BitVec.toNat_setWidth, BitVec.toNat_setWidth, Nat.mod_eq_of_lt vp.off,
      Nat.mod_eq_of_lt vq.off] at h5
    exact BitVec.eq_of_toNat_eq h5
  simp only [Params.values] at h1
  obtain ⟨e1, e2, e3, e4, e5, _, e7, e8, e9, e10⟩ := Spec.Params.mk.inj h1
  cases p; cases q
  simp only at *
  subst_vars
  rfl

/-- A longer key and a longer salt, set and then replaced, leave nothing behind. -/
example : ∃ p : Params, Params.new.setAll (.key [9, 9, 9, 9, 9] :: .salt [7, 7] :: someCalls) = .ok p ∧
    p = keyedParams := by
  obtain ⟨p, e, hv⟩ := setAll_view (.key [9, 9, 9, 9, 9] :: .salt [7, 7] :: someCalls) (by decide) Params.new
  refine ⟨p, e, C20_view_injective p keyedParams ⟨_, e⟩ keyedParams_accepted ?_⟩
  rw [hv]
  rfl

example : (Setter.key [1, 2, 3]).InRange ∧ ¬ (Setter.key (List.replicate 33 0)).InRange ∧
    ¬ (Setter.hashLength 0).InRange ∧ ¬ (Setter.nodeOffset (BitVec.ofNat 64 (2 ^ 48))).InRange := by
  refine ⟨?_, ?_, ?_, ?_⟩ <;> simp [Setter.InRange]

/-! ## C21 -/

/-- C21: an accepted call is overridden without trace by a later call of the same setter. -/
theorem C21_last_wins (p q : Params) (c d : Setter) (hk : c.kind = d.kind) (h : p.set c = .ok q) :
    q.set d = p.set d := by
  obtain ⟨hc, rfl⟩ := set_ok_iff.mp h
  by_cases hd : d.InRange
  · rw [set_pos _ hd, set_pos _ hd]
    congr 1
    cases c <;> cases d <;> first | rfl | (exfalso; revert hk; simp [Setter.kind])
  · rw [set_neg _ hd, set_neg _ hd]

example : ∃ q, keyedParams.set (.key [9, 8, 7, 6]) = .ok q ∧ q.set (.key [5]) = keyedParams.set (.key [5]) := by
  obtain ⟨q, h, _⟩ := C20_accepts keyedParams (.key [9, 8, 7, 6]) (by decide)
  exact ⟨q, h, C21_last_wins keyedParams q (.key [9, 8, 7, 6]) (.key [5]) rfl h⟩

/-- C21: calls of different setters commute (including whether the pair panics). -/
theorem C21_commute (p : Params) (c d : Setter) (hk : c.kind ≠ d.kind) :
    (do (← p.set c).set d) = (do (← p.set d).set c) := by
  by_cases hc : c.InRange <;> by_cases hd : d.InRange
  · rw [set_pos p hc, set_pos p hd]
    show (p.put c).set d = (p.put d).set c
    rw [set_pos _ hc, set_pos _ hd]
    congr 1
    cases c <;> cases d <;> first | rfl | (exfalso; revert hk; simp [Setter.kind])
  · rw [set_pos p hc, set_neg p hd]
    exact set_neg _ hd
  · rw [set_neg p hc, set_pos p hd]
    exact (set_neg _ hc).symm
  · rw [set_neg p hc, set_neg p hd]
    rfl

example : (do (← keyedParams.set (.key [5])).set (.maxDepth 0)) =
    (do (← keyedParams.set (.maxDepth 0)).set (.key [5])) :=
  C21_commute _ _ _ (by decide)

/-- C21: a salt shorter than eight bytes means the same as with zeros appended. -/
theorem C21_salt_padding (p : Params) (s : List U8) (k : Nat) (h : s.length + k ≤ 8) :
    p.set (.salt s) = p.set (.salt (s ++ List.replicate k 0)) := by
  have e : padded 8 (s ++ List.replicate k 0) = padded 8 s := by
    apply Vector.ext
    intro i hi
    simp only [padded, Vector.getElem_ofFn, List.getD_eq_getElem?_getD, List.getElem?_append]
    split
    · rfl
    · rename_i hb
      rw [List.getElem?_eq_none (l := s) (by omega), List.getElem?_replicate]
      split <;> rfl
  rw [Params.set, Params.set, setSalt_eq, setSalt_eq, if_pos (by omega), if_pos (by simp; omega), e]

example : keyedParams.set (.salt [1, 2]) = keyedParams.set (.salt ([1, 2] ++ List.replicate 6 0)) :=
  C21_salt_padding _ _ _ (by decide)

/-- C21: a personalisation shorter than eight bytes means the same as with zeros appended. -/
theorem C21_personal_padding (p : Params) (s : List U8) (k : Nat) (h : s.length + k ≤ 8) :
    p.set (.personal s) = p.set (.personal (s ++ List.replicate k 0)) := by
  have e : padded 8 (s ++ List.replicate k 0) = padded 8 s := by
    apply Vector.ext
    intro i hi
    simp only [padded, Vector.getElem_ofFn, List.getD_eq_getElem?_getD, List.getElem?_append]
    split
    · rfl
    · rename_i hb
      rw [List.getElem?_eq_none (l := s) (by omega), List.getElem?_replicate]
      split <;> rfl
  rw [Params.set, Params.set, setPersonal_eq, setPersonal_eq, if_pos (by omega),
    if_pos (by simp; omega), e]

example : keyedParams.set (.personal [1, 2]) = keyedParams.set (.personal ([1, 2] ++ List.replicate 3 0)) :=
  C21_personal_padding _ _ _ (by decide)

/-- C21, for whole sequences: an accepted call followed, anywhere later, by a call of the same setter
can be deleted from the sequence. -/
theorem C21_sequence_last_wins (p q : Params) (c : Setter) (later : List Setter)
    (hc : p.set c = .ok q) (hl : ∃ d ∈ later, d.kind = c.kind) :
    p.setAll (c :: later) = p.setAll later := by
  have key : ∀ (later : List Setter) (p q : Params), p.set c = .ok q →
      (∃ d ∈ later, d.kind = c.kind) → q.setAll later = p.setAll later := by
    intro later
    induction later with
    | nil => rintro p q _ ⟨d, hd, _⟩; cases hd
    | cons d ds ih =>
      intro p q hc hl
      by_cases hk : c.kind = d.kind
      · unfold Params.setAll
        rw [C21_last_wins p q c d hk hc]
      · have hl' : ∃ e ∈ ds, e.kind = c.kind := by
          obtain ⟨e, he, hek⟩ := hl
          rcases List.mem_cons.mp he with rfl | he
          · exact absurd hek.symm hk
          · exact ⟨e, he, hek⟩
        have hcomm := C21_commute p c d hk
        rw [hc] at hcomm
        unfold Params.setAll
        have h1 : q.set d = (do (← p.set d).set c) := hcomm
        cases hd : p.set d with
        | error f => rw [h1, hd]; rfl
        | ok p' =>
          rw [hd] at h1
          have h2 : q.set d = p'.set c := h1
          cases hq : p'.set c with
          | error f =>
            -- `c` was accepted on `p`, and acceptance does not depend on the current parameters
            exfalso
            by_cases hr : c.InRange
            · obtain ⟨q', e, _⟩ := C20_accepts p' c hr
              rw [e] at hq; cases hq
            · rw [C20_rejects p c hr] at hc; cases hc
          | ok q' =>
            rw [h2, hq]
            exact ih p' q' hq hl'
  show (do (← p.set c).setAll later) = _
  rw [hc]
  exact key later p q hc hl

example : ∃ q, Params.new.set (.hashLength 9) = .ok q ∧
    Params.new.setAll (.hashLength 9 :: someCalls) = Params.new.setAll someCalls := by
  obtain ⟨q, h, _⟩ := C20_accepts Params.new (.hashLength 9) (by decide)
  exact ⟨q, h, C21_sequence_last_wins Params.new q _ someCalls h ⟨.hashLength 20, by decide, rfl⟩⟩

/-- C21, for whole sequences: the order of calls of pairwise different setters is irrelevant. -/
theorem C21_sequence_order (p : Params) (a b : List Setter) (hab : a.Perm b)
    (hd : (a.map Setter.kind).Nodup) : p.setAll a = p.setAll b := by
  induction hab generalizing p with
  | nil => rfl
  | cons c _ ih =>
    unfold Params.setAll
    have hd' := (List.nodup_cons.mp (show List.Nodup (_ :: _) from hd)).2
    cases h : p.set c with
    | error f => rfl
    | ok q => exact ih q hd'
  | swap c d l =>
    have hk : c.kind ≠ d.kind := by
      have := (List.nodup_cons.mp (show List.Nodup (d.kind :: c.kind :: _) from hd)).1
      intro h; apply this; rw [h]; exact List.mem_cons_self
    unfold Params.setAll Params.setAll
    have e := C21_commute p c d hk
    show (p.set d >>= fun x => x.set c >>= fun y => y.setAll l) =
      (p.set c >>= fun x => x.set d >>= fun y => y.setAll l)
    rw [← bind_assoc, ← bind_assoc, e]
  | trans h1 _ ih1 ih2 =>
    rw [ih1 p hd, ih2 p ((h1.map _).nodup_iff.mp hd)]

example : Params.new.setAll someCalls.reverse = Params.new.setAll someCalls :=
  C21_sequence_order _ _ _ someCalls.reverse_perm (by decide)

example : ∃ q, Params.new.set (.key [1, 2, 3, 4]) = .ok q ∧
    (Setter.key [1, 2, 3, 4]).kind = (Setter.key [9]).kind ∧
    (Setter.key [1, 2, 3, 4]).kind ≠ (Setter.salt [9]).kind :=
  ⟨_, rfl, by decide, by decide⟩

/-! ## C22 -/

/-- C22: two accepted parameter sets whose states start from the same chaining value agree on every
parameter of the parameter block. -/
theorem C22_chaining_value (E : Env) (hE : E.WF) (p q : Params) (hp : p.Accepted) (hq : q.Accepted)
    (s t : State) (hs : p.toState E = .ok s) (ht : q.toState E = .ok t) (h : s.h = t.h) :
    p.values = q.values := by
  apply spec_init_injective
  rw [← (toState_start hE hp.valid hs).1, ← (toState_start hE hq.valid ht).1, h]

/-- Different keys of one length and different last-node flags are all that two such sets can differ in. -/
example : ∃ s t, keyedParams.toState releasePlain = .ok s ∧ otherParams.toState releasePlain = .ok t ∧
    s.h = t.h ∧ keyedParams.values = otherParams.values := by
  obtain ⟨s, hs, _⟩ := withParams_ok releasePlain (by decide) _ keyedParams_accepted.valid
  obtain ⟨t, ht, _⟩ := withParams_ok releasePlain (by decide) _ otherParams_accepted.valid
  have e : (keyedParams.toState releasePlain).map State.h = (otherParams.toState releasePlain).map State.h := by
    decide +kernel
  have h : s.h = t.h := by
    rw [show keyedParams.toState releasePlain = .ok s from hs,
      show otherParams.toState releasePlain = .ok t from ht] at e
    exact Except.ok.inj e
  exact ⟨s, t, hs, ht, h, C22_chaining_value releasePlain (by decide) _ _ keyedParams_accepted
    otherParams_accepted s t hs ht h⟩

/-- C22: two different keys of the same length leave different first blocks in the buffer. -/
theorem C22_first_block (E : Env) (hE : E.WF) (p q : Params) (hp : p.Accepted) (hq : q.Accepted)
    (s t : State) (hs : p.toState E = .ok s) (ht : q.toState E = .ok t)
    (hl : p.keyLength = q.keyLength) (hk : p.keyBytes ≠ q.keyBytes) :
    s.buf.toList.take s.buflen.toNat ≠ t.buf.toList.take t.buflen.toNat := by
  rw [(toState_start hE hp.valid hs).2, (toState_start hE hq.valid ht).2]
  intro h
  apply hk
  have hlen : p.keyBytes.length = q.keyBytes.length := by
    rw [hp.valid.keyBytes_length, hq.valid.keyBytes_length, hl]
  unfold Spec.keyBlock at h
  by_cases h0 : p.keyBytes = []
  · rw [h0] at hlen ⊢
    exact (List.length_eq_zero_iff.mp hlen.symm).symm
  · have h1 : q.keyBytes ≠ [] := by
      intro h1; rw [h1] at hlen; exact h0 (List.length_eq_zero_iff.mp hlen)
    rw [if_neg h0, if_neg h1] at h
    exact List.append_inj_left h hlen

example : ∃ s t, keyedParams.toState debugAvx2 = .ok s ∧ otherParams.toState debugAvx2 = .ok t ∧
    s.buf.toList.take s.buflen.toNat ≠ t.buf.toList.take t.buflen.toNat := by
  obtain ⟨s, hs, _⟩ := withParams_ok debugAvx2 (by decide) _ keyedParams_accepted.valid
  obtain ⟨t, ht, _⟩ := withParams_ok debugAvx2 (by decide) _ otherParams_accepted.valid
  exact ⟨s, t, hs, ht, C22_first_block debugAvx2 (by decide) _ _ keyedParams_accepted otherParams_accepted
    s t hs ht (by decide) (by decide)⟩

example : ∃ p q : Params, p.Accepted ∧ q.Accepted ∧ p.values ≠ q.values ∧
    p.keyLength ≠ q.keyLength :=
  ⟨Params.new, Params.new.put (.key [7]), ⟨[], rfl⟩, ⟨[.key [7]], by
    show (do (← Params.new.set (.key [7])).setAll []) = _
    rw [set_pos _ (by simp [Setter.InRange])]; rfl⟩, by decide, by decide⟩

end Blake2s
