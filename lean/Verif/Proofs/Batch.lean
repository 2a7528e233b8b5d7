import Verif.Proofs.Eight
import Verif.Proofs.History
/-!
# Rows of eight states that cannot be told apart
-/

namespace Blake2s

/-- Two states with the same abstract content. -/
def SameState (E : Env) (s t : State) : Prop :=
  ∃ c d data, Rep E c data s ∧ Rep E d data t ∧ c.h0 = d.h0 ∧ c.lastNode = d.lastNode ∧
    c.hashLength = d.hashLength

theorem SameState.count {E : Env} {s t : State} (h : SameState E s t) : s.getCount = t.getCount := by
  obtain ⟨c, d, data, rs, rt, -⟩ := h
  rw [rs.count, rt.count]

theorem SameState.debug {E : Env} {s t : State} (h : SameState E s t) : s.debug = t.debug := by
  obtain ⟨c, d, data, ⟨_, ws, _⟩, ⟨_, wt, _⟩, h0, h1, h2⟩ := h
  unfold State.debug
  rw [ws.count, wt.count, ws.hl, wt.hl, ws.ln, wt.ln, h1, h2]

theorem SameState.run {E : Env} {s t : State} (h : SameState E s t) (ops : List Op) :
    (∃ f, s.run E ops = .error f ∧ t.run E ops = .error f) ∨
    ∃ s' t' hs, s.run E ops = .ok (s', hs) ∧ t.run E ops = .ok (t', hs) ∧ SameState E s' t' := by
  obtain ⟨c, d, data, rs, rt, h0, h1, h2⟩ := h
  rcases run_ends ops rs with ⟨x, hx, rx, ax⟩ | ⟨hx, bx⟩
  · rcases run_ends ops rt with ⟨y, hy, ry, ay⟩ | ⟨hy, bx⟩
    · have e : x.2 = y.2 := Cfg.all_unique h0 h1 h2 ax ay
      refine .inr ⟨x.1, y.1, x.2, hx, by rw [hy, e], _, _, _, rx, ry, ?_, ?_, ?_⟩
      · rw [after_h0, after_h0, h0]
      · rw [after_lastNode, after_lastNode, h1]
      · rw [after_hashLength, after_hashLength, h2]
    · exact absurd bx rx.notTooLong
  · rcases run_ends ops rt with ⟨y, hy, ry, ay⟩ | ⟨hy, _⟩
    · exact absurd bx ry.notTooLong
    · exact .inl ⟨_, hx, hy⟩

theorem SameState.supported {E : Env} {s t : State} (h : SameState E s t) :
    s.compressFn.Supported E ∧ t.compressFn.Supported E := by
  obtain ⟨c, d, data, ⟨_, ws, _⟩, ⟨_, wt, _⟩, -⟩ := h
  exact ⟨by rw [ws.fn]; exact ws.sup, by rw [wt.fn]; exact wt.sup⟩

theorem update8_same {E : Env} {s t : Vector State 8} (h : ∀ i : Fin 8, SameState E s[i] t[i])
    (input : Vector (List U8) 8) :
    (∃ f, update8 E s input = .error f ∧ update8 E t input = .error f) ∨
    ∃ s' t', update8 E s input = .ok s' ∧ update8 E t input = .ok t' ∧ ∀ i : Fin 8, SameState E s'[i] t'[i] := by
  obtain ⟨c, h⟩ := Classical.axiomOfChoice h
  obtain ⟨d, h⟩ := Classical.axiomOfChoice h
  obtain ⟨data, h⟩ := Classical.axiomOfChoice h
  have es := update8_ends c data s input (fun i => (h i).1)
  have et := update8_ends d data t input (fun i => (h i).2.1)
  rcases es with ⟨x, hx, rx⟩ | ⟨hx, i, bx⟩
  · rcases et with ⟨y, hy, ry⟩ | ⟨hy, i, bx⟩
    · exact .inr ⟨x, y, hx, hy, fun i => ⟨_, _, _, rx i, ry i, (h i).2.2⟩⟩
    · exact absurd bx (rx i).notTooLong
  · rcases et with ⟨y, hy, ry⟩ | ⟨hy, _⟩
    · exact absurd bx (ry i).notTooLong
    · exact .inl ⟨_, hx, hy⟩

theorem finalize8_same {E : Env} {s t : Vector State 8} (h : ∀ i : Fin 8, SameState E s[i] t[i]) :
    ∃ s' t' hs, finalize8 E s = .ok (s', hs) ∧ finalize8 E t = .ok (t', hs) ∧
      ∀ i : Fin 8, SameState E s'[i] t'[i] := by
  obtain ⟨s', hs, es, fs⟩ := finalize8_ok (E := E) s (fun i => (h i).supported.1)
  obtain ⟨t', ht, et, ft⟩ := finalize8_ok (E := E) t (fun i => (h i).supported.2)
  have key : ∀ i : Fin 8, hs[i] = ht[i] ∧ SameState E s'[i] t'[i] := by
    intro i
    have hrs : s[i].run E [.finalize] = .ok (s'[i], [hs[i]]) := by
      show (s[i].finalize E >>= _) = _
      rw [fs i]; rfl
    have hrt : t[i].run E [.finalize] = .ok (t'[i], [ht[i]]) := by
      show (t[i].finalize E >>= _) = _
      rw [ft i]; rfl
    rcases (h i).run [.finalize] with ⟨f, e, -⟩ | ⟨x, y, l, e1, e2, q⟩
    · rw [hrs] at e; cases e
    · rw [hrs] at e1
      rw [hrt] at e2
      cases e1
      injection e2 with e2
      injection e2 with e2 e3
      subst e2
      injection e3 with e3
      exact ⟨e3.symm, q⟩
  have e : hs = ht := Vector.ext fun i hi => (key ⟨i, hi⟩).1
  subst e
  exact ⟨s', t', hs, es, et, fun i => (key i).2⟩

theorem run8_same {E : Env} (ops : List Op8) : ∀ {s t : Vector State 8},
    (∀ i : Fin 8, SameState E s[i] t[i]) → seen8 (run8 E s ops) = seen8 (run8 E t ops) := by
  have suff : ∀ (ops : List Op8) {s t : Vector State 8}, (∀ i : Fin 8, SameState E s[i] t[i]) →
      (∃ f, run8 E s ops = .error f ∧ run8 E t ops = .error f) ∨
      ∃ s' t' hs, run8 E s ops = .ok (s', hs) ∧ run8 E t ops = .ok (t', hs) ∧
        ∀ i : Fin 8, SameState E s'[i] t'[i] := by
    intro ops
    induction ops with
    | nil => exact fun {s t} h => .inr ⟨s, t, [], rfl, rfl, h⟩
    | cons op ops ih =>
      intro s t h
      cases op with
      | one i op =>
        rw [run8, run8]
        rcases (h i).run [op] with ⟨f, e1, e2⟩ | ⟨x, y, l, e1, e2, q⟩
        · rw [e1, e2]
          exact .inl ⟨f, rfl, rfl⟩
        · rw [e1, e2]
          have h' : ∀ j : Fin 8, SameState E (s.set i x)[j] (t.set i y)[j] := by
            intro j
            by_cases hj : i = j
            · subst hj
              simpa using q
            · have hv : i.val ≠ j.val := fun e => hj (Fin.ext e)
              simpa [Vector.getElem_set, hv] using h j
          rcases ih h' with ⟨f, e3, e4⟩ | ⟨x', y', l', e3, e4, q'⟩
          · refine .inl ⟨f, ?_, ?_⟩
            · show (run8 E (s.set i x) ops >>= _) = _
              rw [e3]; rfl
            · show (run8 E (t.set i y) ops >>= _) = _
              rw [e4]; rfl
          · refine .inr ⟨x', y', l ++ l', ?_, ?_, q'⟩
            · show (run8 E (s.set i x) ops >>= _) = _
              rw [e3]; rfl
            · show (run8 E (t.set i y) ops >>= _) = _
              rw [e4]; rfl
      | update8 input =>
        rw [run8, run8]
        rcases update8_same h input with ⟨f, e1, e2⟩ | ⟨x, y, e1, e2, q⟩
        · rw [e1, e2]
          exact .inl ⟨f, rfl, rfl⟩
        · rw [e1, e2]
          exact ih q
      | finalize8 =>
        rw [run8, run8]
        obtain ⟨x, y, l, e1, e2, q⟩ := finalize8_same h
        rw [e1, e2]
        rcases ih q with ⟨f, e3, e4⟩ | ⟨x', y', l', e3, e4, q'⟩
        · refine .inl ⟨f, ?_, ?_⟩
          · show (run8 E x ops >>= _) = _
            rw [e3]; rfl
          · show (run8 E y ops >>= _) = _
            rw [e4]; rfl
        · refine .inr ⟨x', y', l.toList ++ l', ?_, ?_, q'⟩
          · show (run8 E x ops >>= _) = _
            rw [e3]; rfl
          · show (run8 E y ops >>= _) = _
            rw [e4]; rfl
  intro s t h
  rcases suff ops h with ⟨f, e1, e2⟩ | ⟨x, y, l, e1, e2, q⟩
  · rw [e1, e2]
  · rw [e1, e2]
    have c1 : x.map State.getCount = y.map State.getCount := by
      ext1 i hi
      simpa using (q ⟨i, hi⟩).count
    have c2 : x.map State.debug = y.map State.debug := by
      ext1 i hi
      simpa using (q ⟨i, hi⟩).debug
    show Except.ok (_, _, _) = Except.ok (_, _, _)
    rw [c1, c2]

end Blake2s
