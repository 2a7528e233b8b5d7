import Verif.Proofs.RefineExact
/-!
# BLAKE2sp states that cannot be told apart
-/

namespace Blake2s.Sp

/-- Two states with the same abstract content. -/
def SameSp (E : Env) (p : Params) (s t : State) : Prop :=
  ∃ n data, AbsN E p n data s ∧ AbsN E p n data t ∧ (E.debugAssertions = true → p.keyLength ≠ 0 → n = 0)

/-- Two results of calls that agree, and after which the states agree. -/
def SameEnds (E : Env) (p : Params) {α : Type} (x y : R (State × α)) : Prop :=
  (∃ f, x = .error f ∧ y = .error f) ∨
    ∃ s t a, x = .ok (s, a) ∧ y = .ok (t, a) ∧ SameSp E p s t

theorem SameSp.update {E : Env} {p : Params} (v : p.Valid) {s t : State} (h : SameSp E p s t) (input : List U8) :
    (∃ f, s.update E input = .error f ∧ t.update E input = .error f) ∨
    ∃ s' t', s.update E input = .ok s' ∧ t.update E input = .ok t' ∧ SameSp E p s' t' := by
  obtain ⟨n, data, a, b, hr⟩ := h
  by_cases c : E.debugAssertions = true ∧ p.keyLength ≠ 0 ∧ rowsTaken (data.length - 512 * n) input.length ≠ 0
  · obtain ⟨hd, hk, hlt⟩ := c
    have h0 := hr hd hk
    have hb : ¬ Buffered data.length input.length := by
      rw [← rowsTaken_zero]
      rw [h0, Nat.mul_zero, Nat.sub_zero] at hlt
      exact hlt
    exact .inl ⟨_, Abs.update_panics hd v hk ⟨n, a, fun _ => h0⟩ input hb,
      Abs.update_panics hd v hk ⟨n, b, fun _ => h0⟩ input hb⟩
  · generalize hg : n + rowsTaken (data.length - 512 * n) input.length = goal
    have hd : E.debugAssertions = true → n < goal → p.keyLength = 0 := by
      intro h1 h2
      exact Classical.byContradiction fun h3 => c ⟨h1, h3, by omega⟩
    have hn : E.debugAssertions = true → p.keyLength ≠ 0 → goal = 0 := by
      intro h1 h2
      have h3 := hr h1 h2
      have h4 : ¬ n < goal := fun h => h2 (hd h1 h)
      omega
    rcases a.update v input goal hg.symm hd with ⟨s', es, as⟩ | ⟨es, bad⟩
    · rcases b.update v input goal hg.symm hd with ⟨t', et, bt⟩ | ⟨et, bad⟩
      · exact .inr ⟨s', t', es, et, goal, _, as, bt, hn⟩
      · exact absurd bad as.fits
    · rcases b.update v input goal hg.symm hd with ⟨t', et, bt⟩ | ⟨et, _⟩
      · exact absurd bad bt.fits
      · exact .inl ⟨_, es, et⟩

theorem DigestN.unique {p : Params} {n : Nat} {msg : List U8} {a b : Hash} (ha : DigestN p n msg a)
    (hb : DigestN p n msg b) : a = b := by
  obtain ⟨a1, a2⟩ := a
  obtain ⟨b1, b2⟩ := b
  obtain ⟨h1, h2⟩ := ha
  obtain ⟨h3, h4⟩ := hb
  simp only at h1 h2 h3 h4
  have : a1.toList = b1.toList := h1.trans h3.symm
  rw [Vector.toList_inj.mp this, h2, h4]

theorem SameSp.finalize {E : Env} {p : Params} {s t : State} (h : SameSp E p s t) :
    SameEnds E p (s.finalize E) (t.finalize E) := by
  obtain ⟨n, data, a, b, hr⟩ := h
  rcases a.finalize with ⟨⟨_, d⟩, e, rfl, dn, nl⟩ | ⟨e, bad⟩
  · rcases b.finalize with ⟨⟨_, d'⟩, e', rfl, dn', -⟩ | ⟨e', bad⟩
    · have ed : d' = d := dn'.unique dn
      have e' : State.finalize E _ = .ok (_, d') := e'
      rw [ed] at e'
      exact .inr ⟨_, _, d, e, e', n, data, a, b, hr⟩
    · exact absurd bad nl
  · rcases b.finalize with ⟨⟨_, d'⟩, e', rfl, dn', nl⟩ | ⟨e', _⟩
    · exact absurd bad nl
    · exact .inl ⟨_, e, e'⟩

theorem SameSp.run {E : Env} {p : Params} (v : p.Valid) (ops : List Op) : ∀ {s t : State}, SameSp E p s t →
    SameEnds E p (s.run E ops) (t.run E ops) := by
  induction ops with
  | nil => exact fun {s t} h => .inr ⟨s, t, [], rfl, rfl, h⟩
  | cons op ops ih =>
    intro s t h
    cases op with
    | update b =>
      show SameEnds E p (s.update E b >>= _) (t.update E b >>= _)
      rcases h.update v b with ⟨f, e1, e2⟩ | ⟨s', t', e1, e2, q⟩
      · rw [e1, e2]; exact .inl ⟨f, rfl, rfl⟩
      · rw [e1, e2]; exact ih q
    | write b =>
      show SameEnds E p (s.write E b >>= _) (t.write E b >>= _)
      unfold State.write
      rcases h.update v b with ⟨f, e1, e2⟩ | ⟨s', t', e1, e2, q⟩
      · rw [e1, e2]; exact .inl ⟨f, rfl, rfl⟩
      · rw [e1, e2]; exact ih q
    | flush => exact ih h
    | finalize =>
      show SameEnds E p (s.finalize E >>= fun x => x.1.run E ops >>= fun y => pure (y.1, x.2 :: y.2))
        (t.finalize E >>= fun x => x.1.run E ops >>= fun y => pure (y.1, x.2 :: y.2))
      rcases h.finalize with ⟨f, e1, e2⟩ | ⟨s', t', d, e1, e2, q⟩
      · rw [e1, e2]; exact .inl ⟨f, rfl, rfl⟩
      · rw [e1, e2]
        show SameEnds E p (s'.run E ops >>= fun y => pure (y.1, d :: y.2))
          (t'.run E ops >>= fun y => pure (y.1, d :: y.2))
        rcases ih q with ⟨f, e3, e4⟩ | ⟨s2, t2, l, e3, e4, q'⟩
        · rw [e3, e4]; exact .inl ⟨f, rfl, rfl⟩
        · rw [e3, e4]; exact .inr ⟨s2, t2, d :: l, rfl, rfl, q'⟩
    | forcePortable =>
      obtain ⟨n, data, a, b, hr⟩ := h
      exact ih ⟨n, data, a.forcePortable, b.forcePortable, hr⟩

theorem SameSp.sim {E : Env} {p : Params} (v : p.Valid) {s t : State} (h : SameSp E p s t) :
    ∃ x, Exact.SpSim E s x ∧ Exact.SpSim E t x := by
  obtain ⟨n, data, a, b, hr⟩ := h
  have hk : p.keyBytes ≠ [] → p.keyLength ≠ 0 := (Abstract.sp_keyed v).mpr
  exact ⟨⟨p.hashLength, p.keyBytes, data, n⟩, ⟨p, v, rfl, a, fun h1 h2 => hr h1 (hk h2)⟩,
    ⟨p, v, rfl, b, fun h1 h2 => hr h1 (hk h2)⟩⟩

theorem SameSp.count {E : Env} {p : Params} (v : p.Valid) {s t : State} (h : SameSp E p s t) :
    s.getCount E = t.getCount E := by
  obtain ⟨x, a, b⟩ := h.sim v
  rw [Exact.sp_count_sim a, Exact.sp_count_sim b]

theorem SameSp.debug {E : Env} {p : Params} (v : p.Valid) {s t : State} (h : SameSp E p s t) :
    s.debug E = t.debug E := by
  obtain ⟨x, a, b⟩ := h.sim v
  rw [Exact.sp_debug_sim a, Exact.sp_debug_sim b]

theorem Reaches.rows_zero {E : Env} {p : Params} {a : List Op} {s : State} (hE : E.WF) (v : p.Valid)
    (hs : Reaches E p a s) (hd : E.debugAssertions = true) (hk : p.keyLength ≠ 0) : rowsAfter 0 0 a = 0 := by
  rw [rowsAfter_zero]
  apply Classical.byContradiction
  intro hb
  obtain ⟨s0, hs', h0, h1⟩ := hs
  obtain ⟨s', e, q⟩ := AbsN.new E hE p v
  have : s' = s0 := by rw [e] at h0; cases h0; rfl
  subst this
  rw [run_panics hd v hk a ⟨0, q, fun _ => rfl⟩ (by simp) hb] at h1
  cases h1

theorem Reaches.same {E : Env} {p : Params} {a b : List Op} {s t : State} (hE : E.WF) (v : p.Valid)
    (hs : Reaches E p a s) (ht : Reaches E p b t) (hf : fed a = fed b) (hr : rowsAfter 0 0 a = rowsAfter 0 0 b) :
    SameSp E p s t := by
  have as := hs.absN hE v
  have bt := ht.absN hE v
  rw [← hf, ← hr] at bt
  exact ⟨_, _, as, bt, hs.rows_zero hE v⟩

end Blake2s.Sp
