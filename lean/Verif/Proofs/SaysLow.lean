import Verif.Proofs.Says
import Verif.Proofs.SpHistory
import Verif.Proofs.LeakWorld
/-!
# Messages depend on the lengths only
-/

namespace Blake2s

/-- Two computations with the same messages that both fault in the same way, or both return, related values. -/
def MLow {α : Type} (m m' : Tr α) (Q : α → α → Prop) : Prop :=
  messages m.2 = messages m'.2 ∧
    ((∃ a b, m.1 = .ok a ∧ m'.1 = .ok b ∧ Q a b) ∨ ∃ f, m.1 = .error f ∧ m'.1 = .error f)

variable {α β : Type}

theorem Low.mlow {m m' : Tr α} {Q : α → α → Prop} (h : Low m m' Q) : MLow m m' Q :=
  ⟨by rw [h.1], h.2⟩

theorem MLow.pure {Q : α → α → Prop} {a b : α} (h : Q a b) : MLow (Pure.pure a) (Pure.pure b) Q :=
  (Low.pure h).mlow

theorem MLow.bind {m m' : Tr α} {Q : α → α → Prop} (h : MLow m m' Q) {f f' : α → Tr β}
    {P : β → β → Prop} (k : ∀ a b, Q a b → MLow (f a) (f' b) P) : MLow (m >>= f) (m' >>= f') P := by
  rcases m with ⟨r, t⟩
  rcases m' with ⟨r', t'⟩
  obtain ⟨ht, hr⟩ := h
  have ht : messages t = messages t' := ht
  rcases hr with ⟨a, b, ha, hb, q⟩ | ⟨f, ha, hb⟩
  · have ha : r = .ok a := ha
    have hb : r' = .ok b := hb
    subst ha
    subst hb
    obtain ⟨kt, kr⟩ := k a b q
    refine ⟨?_, kr⟩
    show messages (t ++ _) = messages (t' ++ _)
    rw [messages_append, messages_append, kt, ht]
  · have ha : r = .error f := ha
    have hb : r' = .error f := hb
    subst ha
    subst hb
    exact ⟨ht, .inr ⟨f, rfl, rfl⟩⟩

theorem Says.ok {m : Tr α} {a : α} (h : Says m) (e : m.1 = .ok a) : messages m.2 = [] := by
  obtain ⟨r, t⟩ := m
  have e : r = .ok a := e
  subst e
  exact h

theorem messages_after {m : Tr α} {f : α → Tr β} {a : α} (h : Says m) (e : m.1 = .ok a) :
    messages (m >>= f).2 = messages (f a).2 := by
  have hm := h.ok e
  obtain ⟨r, t⟩ := m
  have e : r = .ok a := e
  subst e
  show messages (t ++ (f a).2) = _
  rw [messages_append, show messages t = [] from hm, List.nil_append]

theorem messages_assert {c : Bool} {s : String} {f : Unit → Tr β} (h : c = false) :
    messages (assertT c s >>= f).2 = [s] := by
  subst h
  rfl

theorem messages_assert_ok {c : Bool} {s : String} {f : Unit → Tr β} (h : c = true) :
    messages (assertT c s >>= f).2 = messages (f ()).2 := by
  subst h
  rfl

theorem toHexT_mlow {h g : Hash} (r : g.len = h.len) : MLow h.toHexT g.toHexT (fun _ _ => True) := by
  have l := asBytesT_low r
  obtain ⟨lt, ⟨a, b, ha, hb, -⟩ | ⟨f, ha, hb⟩⟩ := l
  · have ha' : h.asBytes = .ok a := by rw [← ha, Hash.asBytesT_fst]
    have hb' : g.asBytes = .ok b := by rw [← hb, Hash.asBytesT_fst]
    have e1 : h.toHexT.1 = .ok (hexOf a) := by
      have := asBytes_le ha'
      rw [Hash.toHexT_fst]
      unfold Hash.toHex
      rw [ha']
      show bytesToHexLoop a [] = _
      rw [bytesToHexLoop_ok a [] (by simp; omega)]
      rfl
    have e2 : g.toHexT.1 = .ok (hexOf b) := by
      have := asBytes_le hb'
      rw [Hash.toHexT_fst]
      unfold Hash.toHex
      rw [hb']
      show bytesToHexLoop b [] = _
      rw [bytesToHexLoop_ok b [] (by simp; omega)]
      rfl
    exact ⟨by rw [h.says_toHex.ok e1, g.says_toHex.ok e2], .inl ⟨_, _, e1, e2, trivial⟩⟩
  · unfold Hash.toHexT
    have q : Low h.asBytesT g.asBytesT Eq := ⟨lt, .inr ⟨f, ha, hb⟩⟩
    exact (Low.bind (P := fun _ _ => True) q fun _ _ h => by
      cases h; exact (Low.refl _).mono fun _ _ _ => trivial).mlow

theorem callT_mlow (E : Env) {w v : World} (r : WLow w v) {c d : Call} (h : d.shape = c.shape) :
    MLow (w.callT E c) (v.callT E d) (fun y z => WLow y.1 z.1) := by
  by_cases hc : c.printsHex = false
  · exact (callT_low E r h hc).mlow
  · obtain ⟨e, -⟩ := fill_of_shape h
    rw [e]
    cases c with
    | toHex x => exact MLow.bind (toHexT_mlow (r.hash x)) fun _ _ _ => .pure r
    | debugHash x =>
      refine MLow.bind (Q := fun _ _ => True) ?_ fun _ _ _ => .pure r
      exact MLow.bind (toHexT_mlow (r.hash x)) fun _ _ _ => .pure trivial
    | _ => exact absurd rfl hc

theorem runT_mlow (E : Env) {w v : World} (r : WLow w v) {cs ds : List Call}
    (h : ds.map Call.shape = cs.map Call.shape) :
    MLow (w.runT E cs) (v.runT E ds) (fun y z => WLow y.1 z.1) := by
  induction cs generalizing ds w v with
  | nil =>
    cases ds with
    | nil => exact .pure r
    | cons => cases h
  | cons c cs ih =>
    cases ds with
    | nil => cases h
    | cons d ds =>
      obtain ⟨h1, h2⟩ := List.cons.inj h
      unfold World.runT
      refine .bind (callT_mlow E r h1) ?_
      rintro ⟨w1, o⟩ ⟨v1, o'⟩ q
      refine .bind (ih q h2) ?_
      rintro ⟨w2, os⟩ ⟨v2, os'⟩ q
      exact .pure q

theorem programT_mlow (E : Env) {cs ds : List Call} (h : ds.map Call.shape = cs.map Call.shape) :
    MLow (programT E cs) (programT E ds) (fun _ _ => True) := by
  unfold programT
  refine .bind (Low.refl _).mlow fun w v e => ?_
  cases e
  refine .bind (runT_mlow E (.refl w) h) ?_
  rintro ⟨w2, os⟩ ⟨v2, os'⟩ q
  exact .pure trivial

theorem messages_bind_pure {m : Tr α} {f : α → β} : messages (m >>= fun a => pure (f a)).2 = messages m.2 := by
  obtain ⟨r, t⟩ := m
  cases r with
  | error e => rfl
  | ok a =>
    show messages (t ++ []) = _
    rw [List.append_nil]

/-- After calls that end normally, only the next call can say something. -/
theorem runT_last (E : Env) (c : Call) : ∀ (cs : List Call) (w w' : World) (os : List Out),
    w.run E cs = .ok (w', os) → messages (w.runT E (cs ++ [c])).2 = messages (w'.callT E c).2
  | [], w, w', os, h => by
    cases h
    exact messages_bind_pure (m := w.callT E c) (f := fun x => (x.1, [x.2]))
  | d :: cs, w, w', os, h => by
    rw [World.run] at h
    cases e : w.call E d with
    | error f => rw [e] at h; cases h
    | ok x =>
      obtain ⟨w1, o⟩ := x
      rw [e] at h
      cases e2 : w1.run E cs with
      | error f =>
        have h' : (Except.error f : R (World × List Out)) = .ok (w', os) := by
          rw [← h]
          show _ = (w1.run E cs >>= _)
          rw [e2]
          rfl
        cases h'
      | ok y =>
        obtain ⟨w2, os2⟩ := y
        have h' : (Except.ok (w2, o :: os2) : R (World × List Out)) = .ok (w', os) := by
          rw [← h]
          show _ = (w1.run E cs >>= _)
          rw [e2]
          rfl
        cases h'
        rw [List.cons_append, World.runT]
        refine (messages_after (World.says_call E w d) (by rw [World.callT_fst]; exact e)).trans ?_
        refine Eq.trans ?_ (runT_last E c cs w1 w' os2 e2)
        exact messages_bind_pure (f := fun x : World × List Out => (x.1, o :: x.2))

theorem programT_last (E : Env) (c : Call) (cs : List Call) {w0 w : World} {os : List Out}
    (h0 : World.init E = .ok w0) (h : w0.run E cs = .ok (w, os)) :
    messages (leakage E (cs ++ [c])) = messages (w.callT E c).2 := by
  unfold leakage programT
  refine (messages_after (World.says_init E) (by rw [World.initT_fst]; exact h0)).trans ?_
  refine Eq.trans ?_ (runT_last E c cs w0 w os h)
  exact messages_bind_pure (f := fun x : World × List Out => x.2)

theorem program_ok {E : Env} {cs : List Call} {outs : List Out} (h : program E cs = .ok outs) :
    ∃ w0 w os, World.init E = .ok w0 ∧ w0.run E cs = .ok (w, os) ∧ os = outs := by
  unfold program at h
  cases e : World.init E with
  | error f => rw [e] at h; cases h
  | ok w0 =>
    cases e2 : w0.run E cs with
    | error f =>
      have h' : (Except.error f : R (List Out)) = .ok outs := by
        rw [← h, e]
        show _ = (w0.run E cs >>= _)
        rw [e2]
        rfl
      cases h'
    | ok y =>
      have h' : (Except.ok y.2 : R (List Out)) = .ok outs := by
        rw [← h, e]
        show _ = (w0.run E cs >>= _)
        rw [e2]
        rfl
      exact ⟨w0, y.1, y.2, rfl, e2, by cases h'; rfl⟩

/-! ## Keyed BLAKE2sp states in debug builds -/

/-- The computation panics with this message. -/
def Fails (m : Tr α) (s : String) : Prop := (∃ f, m.1 = .error f) ∧ messages m.2 = [s]

theorem Fails.stop {m : Tr α} {f : α → Tr β} {s : String} (h : Fails m s) : Fails (m >>= f) s := by
  obtain ⟨r, t⟩ := m
  obtain ⟨⟨e, h⟩, hm⟩ := h
  have h : r = .error e := h
  subst h
  exact ⟨⟨e, rfl⟩, hm⟩

theorem Fails.after {m : Tr α} {f : α → Tr β} {a : α} {s : String} (h : Says m) (e : m.1 = .ok a)
    (hf : Fails (f a) s) : Fails (m >>= f) s := by
  refine ⟨?_, (messages_after h e).trans hf.2⟩
  obtain ⟨r, t⟩ := m
  have e : r = .ok a := e
  subst e
  exact hf.1

theorem Fails.ite {c : Bool} {a b : Tr α} {s : String} (hc : c = true) (h : Fails a s) :
    Fails (if c = true then a else b) s := by
  rw [if_pos hc]; exact h

namespace Sp

theorem compress8T_fails {E : Env} (hd : E.debugAssertions = true) (row : Vector U8 512)
    (lf : Vector Blake2s.State 8) (fn : Compress8Fn) (h : lf[0].buflen = 64) :
    Fails (State.compress8T E row lf fn) (notEqualMessage 0 64) := by
  unfold State.compress8T
  have e : (debugAssertT E (decide (0 = lf[0].buflen)) (notEqualMessage 0 lf[0].buflen.toNat)) =
      (.error .debugAssertFailed, [.branch false, .panic (notEqualMessage 0 64)]) := by
    unfold debugAssertT debugAssert
    rw [hd, h]
    rfl
  refine Fails.stop ?_
  rw [e]
  exact ⟨⟨_, rfl⟩, rfl⟩

theorem Abs.update_fails {E : Env} (hd : E.debugAssertions = true) {p : Params} (v : p.Valid)
    (hk : p.keyLength ≠ 0) {total : List U8} {s : State} (a : Abs E p total s) (input : List U8)
    (hb : ¬ Buffered total.length input.length) :
    Fails (s.updateT E input) (notEqualMessage 0 64) := by
  obtain ⟨n, ⟨c, cr, fn, ⟨rows, held, hn, root, hfn, sup⟩, -⟩, hn0⟩ := a
  have hpre : (Spec.keyBlock p.keyBytes).length = 64 := by rw [keyBlock_length' v, if_neg hk]
  have hn0 : n = 0 := hn0 hk
  subst hn0
  have hl := held.len
  have hbl : s.leaves[0].buflen = 64 := by
    have w := rows.buflen 0
    rw [hpre] at w
    exact BitVec.eq_of_toNat_eq w
  unfold State.updateT
  unfold Buffered at hb
  by_cases h0 : s.buflen.toNat > 0
  · refine Fails.stop ?_
    unfold State.updateBufferedT
    have held1 : Held (total ++ input) 0 total.length s := by
      refine ⟨held.len, held.le, ?_, by simp⟩
      rw [held.buf, List.take_length, List.take_left]
    obtain ⟨s1, t, e, ht, held2, hbl1, el, er, ef⟩ := fillBuf_ok (E := E) held1 input
      (by rw [List.drop_left])
    rw [if_neg (by omega)] at hb
    have hne : (input.drop t).isEmpty = false := by
      cases hh : (input.drop t).isEmpty with
      | false => rfl
      | true =>
        have := List.length_eq_zero_iff.mpr (List.isEmpty_iff.mp hh)
        rw [List.length_drop] at this
        have hle := held2.le
        omega
    refine Fails.after (says_test _) rfl (Fails.ite (decide_eq_true h0) ?_)
    refine Fails.after (State.says_fillBuf _ _ _) (by rw [State.fillBufT_fst]; exact e) ?_
    refine Fails.after (says_test _) rfl (Fails.ite (by rw [hne]; rfl) ?_)
    exact Fails.stop (compress8T_fails hd _ _ _ (by rw [el]; exact hbl))
  · rw [if_pos (by omega)] at hb
    have e0 : (s.updateBufferedT E input).1 = .ok (s, input) := by
      rw [State.updateBufferedT_fst]
      unfold State.updateBuffered
      rw [if_neg h0]
      rfl
    refine Fails.after (State.says_updateBuffered _ _ _) e0 ?_
    refine Fails.stop ?_
    rw [State.updateLoopT]
    refine Fails.after (says_test _) rfl (Fails.ite (decide_eq_true (by unfold BLOCKBYTES; omega)) ?_)
    obtain ⟨w, e, hw⟩ := arrayRef_ok input 0 512 (by omega)
    refine Fails.after (says_arrayRefT _ _ _) e ?_
    exact Fails.stop (compress8T_fails hd _ _ _ hbl)

end Sp

end Blake2s
