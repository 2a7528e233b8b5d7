import Verif.Proofs.RelWorld
import Verif.Proofs.SpHistory
/-!
# BLAKE2sp: `update` never touches the root
-/

namespace Blake2s.Sp

theorem fillBuf_root {E : Env} {s t : State} {a b : List U8} (h : s.fillBuf E a = .ok (t, b)) :
    t.root = s.root := by
  unfold State.fillBuf at h
  simp only [bind, Except.bind] at h
  repeat' split at h
  all_goals first | cases h; rfl | cases h

theorem updateBuffered_root {E : Env} {s t : State} {a b : List U8}
    (h : s.updateBuffered E a = .ok (t, b)) : t.root = s.root := by
  unfold State.updateBuffered at h
  split at h
  · cases h1 : s.fillBuf E a with
    | error f => rw [h1] at h; cases h
    | ok q =>
      obtain ⟨s1, a1⟩ := q
      rw [h1] at h
      simp only [bind, Except.bind] at h
      rw [← fillBuf_root h1]
      repeat' split at h
      all_goals first | cases h; rfl | cases h
  · cases h; rfl

theorem update_keeps_root {E : Env} {s t : State} {a : List U8} (h : s.update E a = .ok t) :
    t.root = s.root := by
  unfold State.update at h
  cases h1 : s.updateBuffered E a with
  | error f => rw [h1] at h; cases h
  | ok q =>
    obtain ⟨s1, a1⟩ := q
    rw [h1] at h
    simp only [bind, Except.bind] at h
    cases h2 : State.updateLoop E s1.compress8Fn (a1.length + 1) s1.leaves a1 with
    | error f => rw [h2] at h; cases h
    | ok q =>
      obtain ⟨l, a2⟩ := q
      rw [h2] at h
      simp only [] at h
      cases h3 : ({ s1 with leaves := l } : State).fillBuf E a2 with
      | error f => rw [h3] at h; cases h
      | ok q =>
        obtain ⟨s3, a3⟩ := q
        rw [h3] at h
        simp only [] at h
        split at h
        · cases h
        · cases h
          rw [fillBuf_root h3, ← updateBuffered_root h1]

theorem toState_root {E : Env} (hE : E.WF) {p : Params} (v : p.Valid) {s : State}
    (h : p.toState E = .ok s) : s.root.hashLength = p.hashLength := by
  obtain ⟨s', e, c, cr, fn, r, hc, h1, h2, h3⟩ := AbsN.new E hE p v
  rw [h] at e
  cases e
  obtain ⟨k, w, _⟩ := r.root
  rw [w.hl, h3]

/-- Along a history, the root keeps its hash length and the state stays in order. -/
theorem run_root {E : Env} (e : ERel E E) (ops : List Op) {s t : State} {hs : List Hash}
    (r : SpRel False E E s s) (h : s.run E ops = .ok (t, hs)) :
    SpRel False E E t t ∧ t.root.hashLength = s.root.hashLength := by
  have up : ∀ (input : List U8) (ops : List Op)
      (_ : ∀ {s t : State} {hs : List Hash}, SpRel False E E s s → s.run E ops = .ok (t, hs) →
        SpRel False E E t t ∧ t.root.hashLength = s.root.hashLength) {s t : State} {hs : List Hash}
      (_ : SpRel False E E s s) (_ : (s.update E input >>= fun s => s.run E ops) = .ok (t, hs)),
      SpRel False E E t t ∧ t.root.hashLength = s.root.hashLength := by
    intro input ops ih s t hs r h
    rcases update_both e r (DRel.refl False input) with ⟨a, b, e1, e2, q⟩ | ⟨f, _, e1, _⟩
    · rw [e1] at e2
      cases e2
      rw [e1] at h
      obtain ⟨h1, h2⟩ := ih q h
      exact ⟨h1, by rw [h2, update_keeps_root e1]⟩
    · rw [e1] at h; cases h
  induction ops generalizing s t hs with
  | nil => cases h; exact ⟨r, rfl⟩
  | cons op ops ih =>
    cases op with
    | update input => exact up input ops ih r h
    | write input =>
      refine up input ops ih (hs := hs) r ?_
      simp only [State.run, State.write] at h
      cases h1 : s.update E input with
      | error f => rw [h1] at h; cases h
      | ok q => rw [h1] at h; exact h
    | flush => exact ih r h
    | finalize =>
      unfold State.run at h
      rcases finalize_both e r with ⟨⟨_, q⟩, _, h1, _, rfl, _⟩ | ⟨f, _, h1, _⟩
      rotate_left
      · rw [h1] at h; cases h
      · rw [h1] at h
        simp only [bind, Except.bind] at h
        split at h
        · cases h
        · rename_i x hx
          cases h
          exact ih r hx
    | forcePortable => 
      obtain ⟨h1, h2⟩ := ih (s := s.forcePortable) (forcePortable_rel r) h
      exact ⟨h1, h2⟩

end Blake2s.Sp
