import Verif.ExactUnwind
import Verif.Proofs.RefineExact
import Verif.Proofs.UnwindWorld
/-!
# Programs that catch panics follow the exact machine
-/

namespace Blake2s.Sp

open M (lift get modify lane Agree)

theorem compress8U_panics {E : Env} (hd : E.debugAssertions = true) (row : Vector U8 512)
    (lf : Vector Blake2s.State 8) (fn : Compress8Fn) (h : lf[0].buflen ≠ 0) :
    State.compress8U E row fn lf = (.error .debugAssertFailed, lf) := by
  unfold State.compress8U
  have : debugAssert E (decide (0 = lf[0].buflen)) = .error .debugAssertFailed := by
    unfold debugAssert
    rw [hd, decide_eq_false (fun e => h e.symm)]
    rfl
  rw [M.get_bind, this]
  rfl

theorem leavesU_panics {E : Env} (hd : E.debugAssertions = true) (row : Vector U8 512)
    (s : State) (fn : Compress8Fn) (h : s.leaves[0].buflen ≠ 0) :
    State.leavesU (State.compress8U E row fn) s = (.error .debugAssertFailed, s) := by
  unfold State.leavesU
  rw [compress8U_panics hd row s.leaves fn h]

/-- What a keyed state holds after the debug assertion in `update` has failed. -/
theorem AbsN.interrupted {E : Env} (hd : E.debugAssertions = true) {p : Params} (v : p.Valid)
    (hk : p.keyLength ≠ 0) {total : List U8} {s : State} (a : AbsN E p 0 total s) (input : List U8)
    (hb : ¬ Buffered total.length input.length) :
    AbsN E p 0 (if total = [] then total else (total ++ input).take 1024)
      (State.updateU E input s).2 := by
  obtain ⟨c, cr, fn, ⟨rows, held, hn, root, hfn, sup⟩, hc⟩ := a
  have hpre : (Spec.keyBlock p.keyBytes).length = 64 := by rw [keyBlock_length' v, if_neg hk]
  have hl := held.len
  have hbl : s.leaves[0].buflen ≠ 0 := by
    have w := rows.buflen 0
    rw [hpre] at w
    intro h
    have : s.leaves[(0 : Fin 8)].buflen = 0 := h
    rw [this] at w
    simp at w
  unfold Buffered at hb
  by_cases h0 : s.buflen.toNat > 0
  · have hne0 : total ≠ [] := by
      intro h
      rw [h] at hl
      simp at hl
      omega
    rw [if_neg hne0]
    have held1 : Held (total ++ input) 0 total.length s := by
      refine ⟨held.len, held.le, ?_, by simp⟩
      rw [held.buf, List.take_length, List.take_left]
    obtain ⟨s1, t, e, ht, held2, hbl1, el, er, ef⟩ := fillBuf_ok (E := E) held1 input
      (by rw [List.drop_left])
    rw [if_neg (by omega)] at hb
    have hle := held2.le
    have hlen := held.le
    have hne : (input.drop t).isEmpty = false := by
      cases hh : (input.drop t).isEmpty with
      | false => rfl
      | true =>
        have := List.length_eq_zero_iff.mpr (List.isEmpty_iff.mp hh)
        rw [List.length_drop] at this
        omega
    have e1 : State.fillBufU E input s = (.ok (input.drop t), s1) := by
      have := State.fillBuf_agree E s input
      rw [e] at this
      exact this
    have e2 : State.updateBufferedU E input s = (.error .debugAssertFailed, s1) := by
      unfold State.updateBufferedU
      rw [M.get_bind, if_pos h0, M.bind_ok e1, hne]
      simp only [Bool.not_false, if_true]
      rw [M.get_bind]
      have := leavesU_panics hd (subArray s1.buf 0 512) s1 s1.compress8Fn (by rw [el]; exact hbl)
      rw [M.bind_error (congrArg Prod.fst this), this]
    have e3 : (State.updateU E input s).2 = s1 := by
      unfold State.updateU
      rw [M.bind_error (congrArg Prod.fst e2), e2]
    rw [e3]
    have hmt : total.length + t = 1024 := by omega
    have h1024 : ((total ++ input).take 1024).length = 1024 := by
      rw [List.length_take, List.length_append]
      omega
    refine ⟨c, cr, fn, ⟨?_, ?_, fun h => absurd h (by omega), by rw [er]; exact root,
      by rw [ef]; exact hfn, sup⟩, hc⟩
    · rw [el]
      exact ⟨rows.weak, Nat.zero_le _⟩
    · rw [hmt] at held2
      refine ⟨by rw [h1024]; exact held2.len, held2.le, ?_, Nat.le_refl _⟩
      rw [held2.buf, List.take_length]
  · have hz : total = [] := List.length_eq_zero_iff.mp (by omega)
    rw [if_pos hz]
    rw [if_pos (by omega)] at hb
    obtain ⟨w, e, hw⟩ := arrayRef_ok input 0 512 (by omega)
    have e1 : State.updateBufferedU E input s = (.ok input, s) := by
      unfold State.updateBufferedU
      rw [M.get_bind, if_neg h0]
      rfl
    have e2 : State.updateLoopU E (input.length + 1) input s = (.error .debugAssertFailed, s) := by
      unfold State.updateLoopU BLOCKBYTES
      rw [if_pos (by omega), e, M.lift_bind_ok, M.get_bind]
      have := leavesU_panics hd w s s.compress8Fn hbl
      rw [M.bind_error (congrArg Prod.fst this), this]
    have e3 : (State.updateU E input s).2 = s := by
      unfold State.updateU
      rw [M.bind_ok e1, M.bind_error (congrArg Prod.fst e2), e2]
    rw [e3]
    exact ⟨c, cr, fn, ⟨rows, held, hn, root, hfn, sup⟩, hc⟩

end Blake2s.Sp

namespace Blake2s.Exact

open Abstract (sp_keyed)

theorem sp_interrupted {E : Env} {s : Sp.State} {x : SpState} (h : SpSim E s x) (input : List U8)
    (e : x.update (buildOf E) input = .error .debugAssertFailed) :
    SpSim E (Sp.State.updateU E input s).2 (x.interrupted input) := by
  obtain ⟨p, v, pv, a, hr⟩ := h
  have ek : p.keyBytes = x.key := congrArg Sp.View.key pv
  have kk : p.keyLength ≠ 0 ↔ x.key ≠ [] := by rw [sp_keyed v, ek]
  unfold SpState.update at e
  by_cases c1 : (buildOf E).debugAssertions = true ∧ x.key ≠ [] ∧ x.rows < x.rowsWith input
  · obtain ⟨hd, hk, hlt⟩ := c1
    have h0 := hr hd hk
    unfold SpState.rowsWith at hlt
    rw [h0] at a
    have := a.interrupted hd v (kk.mpr hk) input (by
      rw [← Sp.rowsTaken_zero]
      rw [h0, Nat.mul_zero, Nat.sub_zero] at hlt
      omega)
    unfold SpState.interrupted
    by_cases hf : x.fed = []
    · rw [if_pos hf] at this ⊢
      exact ⟨p, v, pv, by rw [h0]; exact this, hr⟩
    · rw [if_neg hf] at this ⊢
      have h0' : ({ x with fed := (x.fed ++ input).take 1024 } : SpState).rows = 0 := h0
      refine ⟨p, v, pv, ?_, hr⟩
      rw [h0']
      exact this
  · rw [if_neg c1] at e
    split at e <;> cases e

theorem sp_update_fault {b : Build} {x : SpState} {input : List U8} {f : Fault}
    (h : x.update b input = .error f) (hf : f ≠ .debugAssertFailed) :
    b.overflowChecks = true ∧ f = .overflow := by
  unfold SpState.update at h
  split at h
  · cases h; exact absurd rfl hf
  · split at h
    · rename_i q
      cases h
      exact ⟨q.1, rfl⟩
    · cases h

/-- The machine stops only after an overflow. -/
theorem after_none {b : Build} {a : XWorld} {c : Call} {f : Fault} (h : a.call b c = .error f)
    (hn : a.after f c = none) : b.overflowChecks = true ∧ f = .overflow := by
  have sp : ∀ (s : Nat) (input : List U8) (o : Out),
      ((a.spState s).update b input >>= fun x => a.setSpState s x o) = .error f →
      f ≠ .debugAssertFailed → b.overflowChecks = true ∧ f = .overflow := by
    intro s input o h hf
    cases e : (a.spState s).update b input with
    | error g =>
      rw [e] at h
      cases h
      exact sp_update_fault e hf
    | ok x => rw [e] at h; cases h
  have ov : ∀ {s : Abstract.AState} {input : List U8}, s.overflows b.toBuild input = true →
      b.overflowChecks = true := by
    intro s input h
    unfold Abstract.AState.overflows at h
    cases e : b.overflowChecks with
    | true => rfl
    | false => rw [e] at h; cases h
  cases c with
  | update s input =>
    simp only [XWorld.call] at h
    split at h
    · rename_i q; cases h; exact ⟨ov q, rfl⟩
    · cases h
  | write s input =>
    simp only [XWorld.call] at h
    split at h
    · rename_i q; cases h; exact ⟨ov q, rfl⟩
    · cases h
  | update8 s input =>
    simp only [XWorld.call] at h
    split at h
    · rename_i q; cases h; obtain ⟨i, q⟩ := q; exact ⟨ov q, rfl⟩
    · cases h
  | spUpdate s input =>
    simp only [XWorld.after] at hn
    split at hn
    · cases hn
    · rename_i q; exact sp s input .unit h q
  | spWrite s input =>
    simp only [XWorld.after] at hn
    split at hn
    · cases hn
    · rename_i q; exact sp s input (.length input.length) h q
  | _ => cases hn

/-- What a panicking call leaves is what the machine says. -/
theorem after_sim {E : Env} {w : World} {a a' : XWorld} (m : Sim E w a) (c : Call)
    {f : Fault} (ha : a.call (buildOf E) c = .error f) (hw : (World.callU E c w).1 = .error f)
    (h : a.after f c = some a') : Sim E (World.callU E c w).2 a' := by
  have sp : ∀ (s : Nat) (input : List U8) (o : Out),
      ((a.spState s).update (buildOf E) input >>= fun x => a.setSpState s x o) =
        .error .debugAssertFailed →
      (a.spState s).update (buildOf E) input = .error .debugAssertFailed := by
    intro s input o h
    cases e : (a.spState s).update (buildOf E) input with
    | error g => rw [e] at h; cases h; rfl
    | ok x => rw [e] at h; cases h
  by_cases hc : c.stepwise = false
  · have : a.after f c = some a := by
      cases c <;> first | rfl | cases hc
    rw [this] at h
    cases h
    rw [World.left_plain hc hw]
    exact m
  cases c with
  | set p c =>
    cases h
    rw [World.left_set hw]
    exact m
  | spSet p c =>
    cases h
    rw [World.left_spSet hw]
    exact m
  | finalize s d => cases ha
  | finalize8 s d => cases ha
  | spUpdate s input =>
    simp only [XWorld.after] at h
    split at h
    · rename_i q
      subst q
      cases h
      obtain ⟨_, h2⟩ := World.onOne_left (k := fun _ => pure Out.unit) (fun _ _ => ⟨_, rfl⟩) hw
      rw [show (World.callU E (.spUpdate s input) w).2 = _ from h2]
      exact m.setSpState s (sp_interrupted (m.spState s) input (sp s input .unit ha))
    · cases h
  | spWrite s input =>
    simp only [XWorld.after] at h
    split at h
    · rename_i q
      subst q
      cases h
      obtain ⟨_, h2⟩ := World.onOne_left (k := fun _ => pure (Out.length input.length))
        (fun _ _ => ⟨_, rfl⟩) hw
      rw [show (World.callU E (.spWrite s input) w).2 = _ from h2]
      exact m.setSpState s (sp_interrupted (m.spState s) input (sp s input (.length input.length) ha))
    · cases h
  | update s input => cases h
  | write s input => cases h
  | update8 s input => cases h
  | _ => exact absurd rfl hc

/-- The run of a program that catches panics begins as the machine says; it goes on only after an
overflow. -/
theorem runU_eq {E : Env} (hE : E.WF) (cs : List Call) (hl : ∀ c ∈ cs, c.Legal) {w : World}
    {a : XWorld} (m : Sim E w a) :
    ∃ rest, w.runU E cs = a.runCaught (buildOf E) cs ++ rest ∧
      (rest ≠ [] → E.overflowChecks = true ∧
        (a.runCaught (buildOf E) cs).getLast? = some (.error .overflow)) := by
  induction cs generalizing w a with
  | nil => exact ⟨[], rfl, fun h => absurd rfl h⟩
  | cons c cs ih =>
    have hl' : ∀ c ∈ cs, c.Legal := fun c hc => hl c (List.mem_cons_of_mem _ hc)
    have hc := call_step hE m c (hl c List.mem_cons_self)
    have last : ∀ (x : R Out) (l : List (R Out)) (rest : List (R Out)),
        (rest ≠ [] → E.overflowChecks = true ∧ l.getLast? = some (.error .overflow)) →
        (rest ≠ [] → E.overflowChecks = true ∧ (x :: l).getLast? = some (.error .overflow)) := by
      intro x l rest h hr
      refine ⟨(h hr).1, ?_⟩
      rw [List.getLast?_cons, (h hr).2]
      rfl
    unfold World.runU XWorld.runCaught
    cases ha : a.call (buildOf E) c with
    | error f =>
      rw [ha] at hc
      have hw := World.callU_error (show w.call E c = .error f from hc)
      simp only []
      cases hn : a.after f c with
      | none =>
        obtain ⟨h1, rfl⟩ := after_none ha hn
        exact ⟨_, by rw [hw]; rfl, fun _ => ⟨h1, rfl⟩⟩
      | some a' =>
        obtain ⟨rest, h1, h2⟩ := ih hl' (after_sim m c ha hw hn)
        exact ⟨rest, by rw [hw, h1]; rfl, last _ _ _ h2⟩
    | ok q =>
      obtain ⟨a', o⟩ := q
      rw [ha] at hc
      obtain ⟨w', e, m'⟩ := hc
      have hw := World.callU_ok (o := o) (w' := w') e
      obtain ⟨rest, h1, h2⟩ := ih hl' m'
      exact ⟨rest, by rw [hw]; simp only [h1]; rfl, last _ _ _ h2⟩

theorem caught_eq {E : Env} (hE : E.WF) (cs : List Call) (hl : ∀ c ∈ cs, c.Legal) :
    ∃ rest, Blake2s.caught E cs = .ok (caught (buildOf E) cs ++ rest) ∧
      (rest ≠ [] → E.overflowChecks = true ∧
        (caught (buildOf E) cs).getLast? = some (.error .overflow)) := by
  obtain ⟨w, e, m⟩ := init_sim hE
  obtain ⟨rest, h1, h2⟩ := runU_eq hE cs hl m
  refine ⟨rest, ?_, h2⟩
  unfold Blake2s.caught
  rw [e]
  show Except.ok _ = _
  rw [h1]
  rfl

end Blake2s.Exact

namespace Blake2s

theorem init_rel {E : Env} (hE : E.WF) :
    ∃ w k, World.init E = .ok w ∧ WRel False E E k w w := by
  rcases init_both (⟨rfl, rfl, hE, hE⟩ : ERel E E) False with ⟨a, b, e1, e2, r⟩ | ⟨f, _, e1, _⟩
  · rw [e1] at e2
    cases e2
    exact ⟨a, _, e1, r⟩
  · obtain ⟨w, e, _⟩ := Exact.init_sim hE
    rw [e] at e1
    cases e1

theorem caught_remove {E : Env} (hE : E.WF) (pre post : List Call) (c : Call)
    (hl : ∀ c ∈ pre, c.Legal) (hc : c.updates = false) {rs : List (R Out)}
    (h : caught E (pre ++ c :: post) = .ok rs) {f : Fault} (hf : rs[pre.length]? = some (.error f)) :
    caught E (pre ++ post) = .ok (rs.eraseIdx pre.length) := by
  obtain ⟨w, k, e, r⟩ := init_rel hE
  obtain ⟨k', r'⟩ := leftU_rel hE pre r hl
  unfold caught at h ⊢
  rw [e] at h ⊢
  have h : w.runU E (pre ++ c :: post) = rs := Except.ok.inj h
  show Except.ok (w.runU E (pre ++ post)) = _
  rw [World.runU_append] at h ⊢
  subst h
  have hlen := World.runU_length E pre w
  rw [List.getElem?_append_right (by omega), hlen, Nat.sub_self] at hf
  have hf : (World.callU E c (w.leftU E pre)).1 = .error f := Option.some.inj hf
  rw [← hlen, List.eraseIdx_append_of_length_le (Nat.le_refl _), Nat.sub_self]
  show _ = Except.ok (_ ++ (w.leftU E pre |> fun w => (World.callU E c w).2.runU E post))
  simp only []
  rw [World.left_other r' hc hf]

theorem runU_first {E : Env} (cs : List Call) (w : World) :
    (∀ outs w', w.run E cs = .ok (w', outs) → w.runU E cs = outs.map .ok) ∧
    (∀ f, w.run E cs = .error f → ∃ (outs : List Out) (rest : List (R Out)), w.runU E cs = outs.map .ok ++ .error f :: rest) := by
  induction cs generalizing w with
  | nil =>
    refine ⟨fun outs w' h => ?_, fun f h => ?_⟩
    · cases h; rfl
    · cases h
  | cons c cs ih =>
    cases e : w.call E c with
    | error g =>
      have u := World.callU_error e
      refine ⟨fun outs w' h => ?_, fun f h => ?_⟩
      · unfold World.run at h
        rw [e] at h
        cases h
      · unfold World.run at h
        rw [e] at h
        cases h
        refine ⟨[], (World.callU E c w).2.runU E cs, ?_⟩
        show (World.callU E c w).1 :: _ = _
        rw [u]
        rfl
    | ok q =>
      obtain ⟨w1, o⟩ := q
      have u := World.callU_ok e
      obtain ⟨i1, i2⟩ := ih w1
      cases e2 : w1.run E cs with
      | error g =>
        refine ⟨fun outs w' h => ?_, fun f h => ?_⟩
        · unfold World.run at h
          rw [e] at h
          simp only [bind, Except.bind] at h
          rw [e2] at h
          cases h
        · unfold World.run at h
          rw [e] at h
          simp only [bind, Except.bind] at h
          rw [e2] at h
          cases h
          obtain ⟨outs, rest, h⟩ := i2 _ e2
          refine ⟨o :: outs, rest, ?_⟩
          unfold World.runU
          rw [u]
          simp only [h]
          rfl
      | ok q =>
        obtain ⟨w2, os⟩ := q
        refine ⟨fun outs w' h => ?_, fun f h => ?_⟩
        · unfold World.run at h
          rw [e] at h
          simp only [bind, Except.bind] at h
          rw [e2] at h
          cases h
          unfold World.runU
          rw [u]
          simp only [i1 _ _ e2]
          rfl
        · unfold World.run at h
          rw [e] at h
          simp only [bind, Except.bind] at h
          rw [e2] at h
          cases h

theorem caught_first {E : Env} (hE : E.WF) (cs : List Call) :
    (∀ outs, program E cs = .ok outs → caught E cs = .ok (outs.map .ok)) ∧
    (∀ f, program E cs = .error f →
      ∃ (outs : List Out) (rest : List (R Out)), caught E cs = .ok (outs.map .ok ++ .error f :: rest)) := by
  obtain ⟨w, e, _⟩ := Exact.init_sim hE
  obtain ⟨h1, h2⟩ := runU_first (E := E) cs w
  have ec : caught E cs = .ok (w.runU E cs) := by
    unfold caught
    rw [e]
    rfl
  rw [ec]
  unfold program
  rw [e]
  simp only [bind, Except.bind]
  cases er : w.run E cs with
  | error g =>
    refine ⟨fun outs h => ?_, fun f h => ?_⟩
    · cases h
    · cases h
      obtain ⟨outs, rest, h⟩ := h2 _ er
      exact ⟨outs, rest, congrArg _ h⟩
  | ok q =>
    refine ⟨fun outs h => ?_, fun f h => ?_⟩
    · cases h
      rw [h1 _ _ er]
    · cases h

theorem RsRel.panic {E : Env} {x : Prop} {rs rs' : List (R Out)} (h : RsRel E x rs rs') (f : Fault)
    (hf : .error f ∈ rs) : Panic E f := by
  induction rs generalizing rs' with
  | nil => cases hf
  | cons r rs ih =>
    cases rs' with
    | nil => exact h.elim
    | cons r' rs' =>
      obtain ⟨h1, h2⟩ := h
      rcases List.mem_cons.mp hf with hf | hf
      · rcases h1 with ⟨o, o', e, _⟩ | ⟨g, hg, e, _⟩
        · rw [← hf] at e; cases e
        · rw [← hf] at e; cases e; exact hg
      · exact ih h2 hf

theorem RsRel.eq {E : Env} {rs rs' : List (R Out)} (h : RsRel E True rs rs') : rs = rs' := by
  induction rs generalizing rs' with
  | nil =>
    cases rs' with
    | nil => rfl
    | cons r' rs' => exact h.elim
  | cons r rs ih =>
    cases rs' with
    | nil => exact h.elim
    | cons r' rs' =>
      obtain ⟨h1, h2⟩ := h
      rw [ih h2]
      rcases h1 with ⟨o, o', e, e', h⟩ | ⟨g, hg, e, e'⟩
      · rw [e, e', h.eq trivial]
      · rw [e, e']

theorem RsRel.vis {E : Env} {x : Prop} {rs rs' : List (R Out)} (h : RsRel E x rs rs') :
    rs.map (Except.map Out.visible) = rs'.map (Except.map Out.visible) := by
  induction rs generalizing rs' with
  | nil =>
    cases rs' with
    | nil => rfl
    | cons r' rs' => exact h.elim
  | cons r rs ih =>
    cases rs' with
    | nil => exact h.elim
    | cons r' rs' =>
      obtain ⟨h1, h2⟩ := h
      rw [List.map_cons, List.map_cons, ih h2]
      rcases h1 with ⟨o, o', e, e', h⟩ | ⟨g, hg, e, e'⟩
      · rw [e, e']
        simp only [Except.map]
        rw [h.vis]
      · rw [e, e']

end Blake2s
