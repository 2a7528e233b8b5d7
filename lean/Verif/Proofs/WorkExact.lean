import Verif.WorkExact
import Verif.Proofs.WorkSp
import Verif.Proofs.RefineExact
/-!
# The work of a program, by the exact machine
-/

namespace Blake2s.Exact

open Abstract (AState StateSim)

theorem level_of_sim {E : Env} {s : State} {x : AState} (h : StateSim E s x) : s.Level x.counted := by
  obtain ⟨c, ⟨k, w, hk⟩, -⟩ := h
  have h1 := w.len
  have h2 := w.le
  rw [List.length_append] at h1
  unfold State.Level AState.counted
  omega

theorem spLevel_of_sim {E : Env} {s : Sp.State} {x : SpState} (h : SpSim E s x) :
    s.Level (Spec.keyBlock x.key).length x.fed.length x.rows := by
  obtain ⟨p, v, pv, ⟨c, cr, fn, a, hc, -⟩, -⟩ := h
  have ek : p.keyBytes = x.key := congrArg Sp.View.key pv
  rw [ek] at a
  refine ⟨by have := a.held.len; omega, a.held.le, a.more, fun i => ?_, ?_⟩
  · have w := a.rows.weak i
    have h1 := w.len
    have h2 := w.le
    refine ⟨?_, ?_⟩
    · unfold State.Level; omega
    · rw [w.hl]; exact (hc i).2.2
  · obtain ⟨k, w, hk⟩ := a.root
    have h1 := w.len
    unfold State.Level
    simp only [List.length_nil] at h1
    omega

theorem keyed_len {p : Params} (v : p.Valid) : (if p.keyLength = 0 then 0 else 64) =
    (Spec.keyBlock p.view.key).length := (keyBlock_length' v).symm

theorem delta_eq (s : AState) (input : List U8) : delta s.counted input.length = updateWork s input := by
  unfold updateWork
  rw [blocksFor_eq, blocksFor_eq]
  have := delta_spec s.counted input.length
  omega

theorem Quiet.post {α : Type} {m : Tr α} (h : Quiet m) : Post m fun _ k => k = 0 := fun _ _ => h

/-- What comes after a computation and compresses nothing. -/
theorem Post.then {α β : Type} {m : Tr α} {f : α → Tr β} {n : Nat} (h : Post m fun _ k => k = n)
    (k : ∀ a, Quiet (f a)) : Post (m >>= f) fun _ k => k = n :=
  Post.bind h fun _ _ e => fun _ _ => by rw [show blocks (f _).2 = 0 from k _]; exact e

theorem update_work {E : Env} {s : State} {x : AState} (h : StateSim E s x) (input : List U8) :
    Post (s.updateT E input) fun _ k => k = updateWork x input := by
  refine (State.updateT_post E s input (level_of_sim h)).mono fun _ k hk => ?_
  have := hk.2
  unfold updateWork
  rw [blocksFor_eq, blocksFor_eq]
  omega

theorem finalize_work {E : Env} {s : State} {x : AState} (h : StateSim E s x) :
    Post (s.finalizeT E) fun _ k => k = 1 :=
  (State.finalizeT_post E s (level_of_sim h)).mono fun _ _ hk => hk.1

theorem new_work (E : Env) (p : Params) : Post (p.toStateT E) fun _ k => k = 0 :=
  (State.withParamsT_post E p).mono fun _ _ h => h.1

theorem sp_new_work (E : Env) (p : Sp.Params) : Post (p.toStateT E) fun _ k => k = 0 :=
  (Sp.State.withParamsT_post E p).mono fun _ _ h => h.1

theorem quiet_constantTimeEqT (a b : List U8) : Quiet (constantTimeEqT a b) := by
  unfold constantTimeEqT
  refine Quiet.bind (quiet_test _) fun _ => Quiet.ite (Quiet.emit rfl (Quiet.pure _)) (Quiet.pure _)

theorem quiet_push (c : Nat) (s : List Char) (x : Char) : Quiet (arrayStringPushT c s x) :=
  Quiet.emit rfl (Quiet.emit rfl (Quiet.orPanic _ _))

theorem quiet_hexTableT (i : Nat) : Quiet (hexTableT i) := Quiet.emit rfl (Quiet.orPanic _ _)

theorem quiet_bytesToHexLoopT (b : List U8) (s : List Char) : Quiet (bytesToHexLoopT b s) := by
  induction b generalizing s with
  | nil => exact Quiet.emit rfl (Quiet.pure _)
  | cons b bs ih =>
    rw [bytesToHexLoopT]
    refine Quiet.emit rfl ?_
    refine Quiet.bind (quiet_hexTableT _) fun _ => ?_
    refine Quiet.bind (quiet_push _ _ _) fun _ => ?_
    refine Quiet.bind (quiet_hexTableT _) fun _ => ?_
    exact Quiet.bind (quiet_push _ _ _) fun _ => ih _

theorem quiet_toHexT (h : Hash) : Quiet h.toHexT :=
  Quiet.bind (quiet_asBytesT _) fun _ => quiet_bytesToHexLoopT _ _

theorem quiet_debugT (s : State) : Quiet s.debugT :=
  Quiet.emit rfl (Quiet.emit rfl (Quiet.emit rfl (Quiet.pure _)))

theorem quiet_setT (p : Params) (c : Setter) : Quiet (p.setT c) := by
  cases c <;> unfold Params.setT
  case hashLength => exact Sp.State.quiet_setHashLengthT _ _
  case key => exact Sp.State.quiet_setKeyT _ _
  case salt => unfold Params.setSaltT; quiet
  case personal => unfold Params.setPersonalT; quiet
  case maxDepth => exact Sp.State.quiet_setMaxDepthT _ _
  case nodeOffset => exact Sp.State.quiet_setNodeOffsetT _ _
  case innerHashLength => exact Sp.State.quiet_setInnerHashLengthT _ _
  all_goals exact Quiet.pure _

theorem quiet_spSetT (p : Sp.Params) (c : Sp.Setter) : Quiet (p.setT c) := by
  cases c <;> unfold Sp.Params.setT
  case hashLength => unfold Sp.Params.setHashLengthT; quiet
  case key => unfold Sp.Params.setKeyT; quiet

theorem quiet_getCountT (E : Env) (s : Sp.State) : Quiet (s.getCountT E) := by
  unfold Sp.State.getCountT; quiet

theorem quiet_spDebugT (E : Env) (s : Sp.State) : Quiet (s.debugT E) := by
  unfold Sp.State.debugT
  refine Quiet.bind (quiet_getCountT E s) fun _ => Quiet.emit rfl ?_
  refine Quiet.bind (quiet_debugT _) fun _ => ?_
  refine Quiet.bind (quiet_debugT _) fun _ => ?_
  refine Quiet.bind (quiet_debugT _) fun _ => ?_
  refine Quiet.bind (quiet_debugT _) fun _ => ?_
  exact Quiet.bind (quiet_debugT _) fun _ => Quiet.pure _

theorem sp_update_work {E : Env} {s : Sp.State} {x : SpState} (h : SpSim E s x) {input : List U8}
    {x' : SpState} (e : x.update (buildOf E) input = .ok x') :
    Post (s.updateT E input) fun _ k => k = x.updateWork input := by
  intro s' hs
  obtain ⟨j, hj, l⟩ := Sp.State.updateT_post E s input (spLevel_of_sim h) s' hs
  have := sp_update_sim h input
  rw [e] at this
  obtain ⟨s1, e1, h1⟩ := this
  rw [Sp.State.updateT_fst, e1] at hs
  cases hs
  have l1 := (spLevel_of_sim h1).total
  have l0 := l.total
  unfold SpState.update at e
  split at e
  · cases e
  · split at e
    · cases e
    · cases e
      simp only [List.length_append] at l1
      rw [hj]
      unfold SpState.updateWork
      omega

theorem sp_finalize_work {E : Env} {s : Sp.State} {x : SpState} (h : SpSim E s x) :
    Post (s.finalizeT E) fun _ k => k = x.finalizeWork := by
  have l := spLevel_of_sim h
  refine (Sp.State.finalizeT_post E s l.leaf l.root).mono fun _ k hk => ?_
  rw [hk]
  unfold SpState.finalizeWork
  congr 2
  apply List.map_congr_left
  intro i hi
  have hi : i < 8 := List.mem_range.mp hi
  have t := l.total
  have r := l.room
  have e := Sp.State.leafInput_share ⟨i, hi⟩ (x.fed.drop (512 * x.rows)) (b := s.buflen.toNat) (r := 0)
    (by rw [List.length_drop]; omega) r
  simp only at e
  rw [e]
  obtain ⟨p, v, pv, -⟩ := h
  have ek : p.keyBytes = x.key := congrArg Sp.View.key pv
  have kl := Sp.keyBlock_length' v
  rw [ek] at kl
  have : ((Spec.keyBlock x.key).length - 1) / 64 = 0 := by
    rw [kl]; split <;> rfl
  rw [this, Nat.sub_zero, Nat.mul_zero, Nat.zero_add]

theorem blake2s_work (E : Env) (input : List U8) : Post (blake2sT E input) fun _ k => k = blocksFor input.length := by
  have := hashOneT_post E Params.default input
  rw [show (if Params.default.keyLength = 0 then 0 else 64) + input.length = input.length from
    Nat.zero_add _] at this
  exact this

theorem blocksFor_exact {len : Nat} (h : len % 64 = 0) (h0 : len ≠ 0) : blocksFor len = len / 64 := by
  rw [blocksFor_eq]; omega

theorem call_work {E : Env} (hE : E.WF) {w : World} {a : XWorld} (m : Sim E w a) (c : Call) (hl : c.Legal)
    {a' : XWorld} {o : Out} (e : a.call (buildOf E) c = .ok (a', o)) :
    blocks (w.callT E c).2 = a.work (buildOf E) c := by
  have st := call_step hE m c hl
  rw [e] at st
  obtain ⟨w', ew, -⟩ := st
  rw [← World.callT_fst] at ew
  suffices h : Post (w.callT E c) fun _ k => k = a.work (buildOf E) c from h _ ew
  clear ew
  cases c with
  | newParams p => exact Quiet.post (Quiet.pure _)
  | cloneParams dst src => exact Quiet.post (Quiet.pure _)
  | set p c => exact Post.then (Quiet.post (quiet_setT _ _)) fun _ => Quiet.pure _
  | newState s => exact Post.then (new_work E Params.default) fun _ => Quiet.pure _
  | toState s p => exact Post.then (new_work E _) fun _ => Quiet.pure _
  | cloneState dst src => exact Quiet.post (Quiet.pure _)
  | update s input => exact Post.then (update_work (m.state s) input) fun _ => Quiet.pure _
  | write s input =>
    exact Post.then (Post.then (update_work (m.state s) input) fun _ => Quiet.pure _) fun _ => Quiet.pure _
  | flush s => exact Quiet.post (Quiet.pure _)
  | setLastNode s b => exact Quiet.post (Quiet.pure _)
  | finalize s h => exact Post.then (finalize_work (m.state s)) fun _ => Quiet.pure _
  | count s => exact Quiet.post (Quiet.pure _)
  | debugState s => exact Post.then (Quiet.post (quiet_debugT _)) fun _ => Quiet.pure _
  | forcePortable s => exact Quiet.post (Quiet.pure _)
  | blake2s input h => exact Post.then (blake2s_work E input) fun _ => Quiet.pure _
  | update8 s input =>
    refine Post.then ?_ fun _ => Quiet.pure _
    refine (update8T_post E (s.map w.state) input (fun i => (a.state s[i]).counted) fun i => ?_).mono
      fun _ k hk => ?_
    · have := level_of_sim (m.state s[i])
      simpa using this
    · rw [hk]
      simp only [XWorld.work, delta_eq]
  | finalize8 s h => exact Post.then (finalize8T_post E _) fun _ => Quiet.pure _
  | hash4Exact p input h =>
    refine Post.then ?_ fun _ => Quiet.pure _
    simp only [XWorld.call] at e
    split at e
    · rename_i hx
      refine (hash4ExactT_post E (w.params p) input _ hx).mono fun _ k hk => ?_
      rw [hk]
      simp only [XWorld.work, exactWork]
      rw [keyed_len (m.params p).1, (m.params p).2, blocksFor_exact hx.2.1 hx.2.2]
      show _ = 4 * (if E.usesAvx2 = true then _ else _)
      unfold Env.usesAvx2
      split <;> rfl
    · cases e
  | hash8Exact p input h =>
    refine Post.then ?_ fun _ => Quiet.pure _
    simp only [XWorld.call] at e
    split at e
    · rename_i hx
      refine (hash8ExactT_post E (w.params p) input _ hx).mono fun _ k hk => ?_
      rw [hk]
      simp only [XWorld.work, exactWork]
      rw [keyed_len (m.params p).1, (m.params p).2, blocksFor_exact hx.2.1 hx.2.2]
      show _ = 8 * (if E.usesAvx2 = true then _ else _)
      unfold Env.usesAvx2
      split <;> rfl
    · cases e
  | hash8 p input h => exact Post.then (hash8T_post E _ _) fun _ => Quiet.pure _
  | cloneHash dst src => exact Quiet.post (Quiet.pure _)
  | asBytes h => exact Post.then (Quiet.post (quiet_asBytesT _)) fun _ => Quiet.pure _
  | toHex h => exact Post.then (Quiet.post (quiet_toHexT _)) fun _ => Quiet.pure _
  | debugHash h =>
    exact Post.then (Quiet.post (Quiet.bind (quiet_toHexT _) fun _ => Quiet.pure _)) fun _ => Quiet.pure _
  | eqHash x y =>
    exact Post.then (Quiet.post (Quiet.bind (quiet_asBytesT _) fun _ => Quiet.bind (quiet_asBytesT _) fun _ =>
      quiet_constantTimeEqT _ _)) fun _ => Quiet.pure _
  | eqSlice h s =>
    exact Post.then (Quiet.post (Quiet.bind (quiet_asBytesT _) fun _ => quiet_constantTimeEqT _ _))
      fun _ => Quiet.pure _
  | blake2sp input h => exact Post.then (blake2spT_post E input) fun _ => Quiet.pure _
  | spNewParams p => exact Quiet.post (Quiet.pure _)
  | spCloneParams dst src => exact Quiet.post (Quiet.pure _)
  | spSet p c => exact Post.then (Quiet.post (quiet_spSetT _ _)) fun _ => Quiet.pure _
  | spDebugParams p =>
    exact Post.then (Quiet.post (Quiet.emit rfl (Quiet.emit rfl (Quiet.pure _)))) fun _ => Quiet.pure _
  | spNewState s => exact Post.then (sp_new_work E Sp.Params.default) fun _ => Quiet.pure _
  | spToState s p => exact Post.then (sp_new_work E _) fun _ => Quiet.pure _
  | spUpdate s input =>
    refine Post.then ?_ fun _ => Quiet.pure _
    simp only [XWorld.call] at e
    cases hx : (a.spState s).update (buildOf E) input with
    | error f => rw [hx] at e; cases e
    | ok x => exact sp_update_work (m.spState s) hx
  | spWrite s input =>
    refine Post.then (Post.then ?_ fun _ => Quiet.pure _) fun _ => Quiet.pure _
    simp only [XWorld.call] at e
    cases hx : (a.spState s).update (buildOf E) input with
    | error f => rw [hx] at e; cases e
    | ok x => exact sp_update_work (m.spState s) hx
  | spFlush s => exact Quiet.post (Quiet.pure _)
  | spFinalize s h => exact Post.then (sp_finalize_work (m.spState s)) fun _ => Quiet.pure _
  | spCount s => exact Post.then (Quiet.post (quiet_getCountT E _)) fun _ => Quiet.pure _
  | spDebugState s => exact Post.then (Quiet.post (quiet_spDebugT E _)) fun _ => Quiet.pure _
  | spForcePortable s => exact Quiet.post (Quiet.pure _)

theorem blocks_bind {α β : Type} {m : Tr α} {f : α → Tr β} {a : α} (h : m.1 = .ok a) :
    blocks (m >>= f).2 = blocks m.2 + blocks (f a).2 := by
  obtain ⟨r, t⟩ := m
  cases h
  exact blocks_append _ _

theorem blocks_then {α β : Type} {f : α → Tr β} (m : Tr α) (h : ∀ a, Quiet (f a)) :
    blocks (m >>= f).2 = blocks m.2 := by
  cases e : m.1 with
  | error x =>
    obtain ⟨r, t⟩ := m
    cases e
    rfl
  | ok a => rw [blocks_bind e, show blocks (f a).2 = 0 from h a]; rfl

theorem run_work {E : Env} (hE : E.WF) (cs : List Call) (hl : ∀ c ∈ cs, c.Legal) {w : World} {a : XWorld}
    (m : Sim E w a) : (a.workAll (buildOf E) cs).map (fun _ => ()) = (a.run (buildOf E) cs).map (fun _ => ()) ∧
      ∀ n, a.workAll (buildOf E) cs = .ok n → blocks (w.runT E cs).2 = n := by
  induction cs generalizing w a with
  | nil => exact ⟨rfl, fun n h => by cases h; rfl⟩
  | cons c cs ih =>
    have hc := call_step hE m c (hl c List.mem_cons_self)
    unfold XWorld.workAll XWorld.run
    cases ha : a.call (buildOf E) c with
    | error f => exact ⟨rfl, nofun⟩
    | ok q =>
      obtain ⟨a', o⟩ := q
      have hw := call_work hE m c (hl c List.mem_cons_self) ha
      rw [ha] at hc
      obtain ⟨w', e, m'⟩ := hc
      obtain ⟨h1, h2⟩ := ih (fun c hc => hl c (List.mem_cons_of_mem _ hc)) m'
      simp only [bind, Except.bind]
      cases hs : a'.workAll (buildOf E) cs with
      | error f =>
        rw [hs] at h1
        cases hr : a'.run (buildOf E) cs with
        | ok x => rw [hr] at h1; cases h1
        | error g => rw [hr] at h1; cases h1; exact ⟨rfl, nofun⟩
      | ok n =>
        rw [hs] at h1
        cases hr : a'.run (buildOf E) cs with
        | error g => rw [hr] at h1; cases h1
        | ok x =>
          refine ⟨rfl, fun k hk => ?_⟩
          cases hk
          have h2 := h2 n hs
          rw [← World.callT_fst] at e
          unfold World.runT
          rw [blocks_bind e, blocks_then _ fun _ => Quiet.pure _, h2, hw]

theorem program_work {E : Env} (hE : E.WF) (cs : List Call) (hl : ∀ c ∈ cs, c.Legal) :
    (work (buildOf E) cs).map (fun _ => ()) = (Blake2s.program E cs).map (fun _ => ()) ∧
      ∀ n, work (buildOf E) cs = .ok n → blocks (programT E cs).2 = 1 + n := by
  obtain ⟨w, e, m⟩ := init_sim hE
  obtain ⟨h1, h2⟩ := run_work hE cs hl m
  refine ⟨by rw [program_eq hE cs hl]; exact h1, fun n hn => ?_⟩
  have i : Post (World.initT E) fun _ k => k = 1 := by
    refine Post.bind (new_work E Params.default) fun s k hk => ?_
    refine Post.bind (blake2s_work E []) fun h k' hk' => ?_
    refine Post.bind (sp_new_work E Sp.Params.default) fun t k'' hk'' => ?_
    refine Post.pure ?_
    rw [hk, hk', hk'']
    rfl
  rw [← World.initT_fst] at e
  unfold programT
  rw [blocks_bind e, blocks_then _ fun _ => Quiet.pure _, h2 n hn, i w e]

end Blake2s.Exact
