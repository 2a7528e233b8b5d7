import Verif.Proofs.RelWorld
import Verif.Proofs.SpRoot
/-!
# Properties of whole programs: C16, C17, C18, C23, C32, C35, C40

A program is any list of calls of the crate's public functions on any number of objects
(`Verif/Machine.lean`). `Call.Legal` is what the Rust language itself guarantees of a call.
-/

namespace Blake2s

/-- A program that uses most of the API, with keys, eight-way functions and BLAKE2sp. -/
def demo : List Call :=
  [.set 0 (.key [1, 2, 3]), .set 0 (.salt [7]), .toState 0 0, .update 0 [1, 2], .forcePortable 0,
   .cloneState 1 0, .setLastNode 1 true, .write 1 [3], .finalize 0 0, .finalize 1 1, .eqHash 0 1,
   .update8 #v[0, 1, 2, 3, 4, 5, 6, 7] (Vector.replicate 8 [9]),
   .finalize8 #v[0, 1, 2, 3, 4, 5, 6, 7] #v[0, 1, 2, 3, 4, 5, 6, 7],
   .hash4Exact 1 (Vector.replicate 4 (List.replicate 64 5)) #v[8, 9, 10, 11], .asBytes 8,
   .spSet 0 (.hashLength 20), .spToState 0 0, .spUpdate 0 [4], .spFinalize 0 12, .toHex 12,
   .spDebugState 0, .debugState 1, .count 1]

theorem demo_legal : ∀ c ∈ demo, c.Legal := by
  intro c hc
  simp only [demo, List.mem_cons, List.not_mem_nil, or_false] at hc
  rcases hc with rfl | rfl | rfl | rfl | rfl | rfl | rfl | rfl | rfl | rfl | rfl | rfl | rfl | rfl |
    rfl | rfl | rfl | rfl | rfl | rfl | rfl | rfl | rfl
  all_goals (refine ⟨?_, ?_⟩)
  all_goals first | trivial | decide | simp [Call.slices]

theorem demo_unkeyed : NoKeyedExact (fun _ => false) demo := by
  simp [demo, NoKeyedExact, Call.keyed, assign]

/-! ## C35, C16, C17: safety of every program -/

/-- C35: whatever a program does, it can only end normally, by a failed assertion, by the overflow check
of a build that has overflow checks, or by a debug assertion of a build that has them. In particular no
slice index is out of range, no fixed-capacity string overflows and every loop ends. -/
theorem C35_program (E : Env) (hE : E.WF) (calls : List Call) (hl : ∀ c ∈ calls, c.Legal) :
    (∃ outs, program E calls = .ok outs) ∨ program E calls = .error .assertFailed ∨
    (E.overflowChecks = true ∧ program E calls = .error .overflow) ∨
    (E.debugAssertions = true ∧ program E calls = .error .debugAssertFailed) := by
  have := program_both (x := False) (E' := E) ⟨rfl, rfl, hE, hE⟩ _
    (fun _ _ _ c r => call_both ⟨rfl, rfl, hE, hE⟩ r (fun b => DRel.refl _ b) c) calls hl nofun
  rcases this with ⟨a, _, e, _⟩ | ⟨f, hf, e, _⟩
  · exact .inl ⟨a, e⟩
  · rcases hf with ⟨rfl, h⟩ | ⟨rfl, h⟩ | rfl
    · exact .inr (.inr (.inl ⟨h, e⟩))
    · exact .inr (.inr (.inr ⟨h, e⟩))
    · exact .inr (.inl e)

/-- A program that reads digests before computing any, and then fails an assertion. -/
example : program debugAvx2 [.toHex 3, .set 0 (.maxLeafLength 5), .set 0 (.hashLength 33)] = .error .assertFailed := by
  rcases C35_program debugAvx2 (by decide) [.toHex 3, .set 0 (.maxLeafLength 5), .set 0 (.hashLength 33)] (by
    intro c hc
    simp only [List.mem_cons, List.not_mem_nil, or_false] at hc
    rcases hc with rfl | rfl | rfl <;> exact ⟨by simp [Call.slices], trivial⟩) with ⟨o, h⟩ | h | ⟨_, h⟩ | ⟨_, h⟩
  · have : (program debugAvx2 [.toHex 3, .set 0 (.maxLeafLength 5), .set 0 (.hashLength 33)]).isOk = false := by
      decide +kernel
    rw [h] at this; cases this
  · exact h
  · exact absurd h (by decide +kernel)
  · exact absurd h (by decide +kernel)

/-- C35: a release build can only panic by an assertion. -/
theorem C35_release (E : Env) (hE : E.WF) (ho : E.overflowChecks = false)
    (hd : E.debugAssertions = false) (calls : List Call) (hl : ∀ c ∈ calls, c.Legal) :
    (∃ outs, program E calls = .ok outs) ∨ program E calls = .error .assertFailed := by
  rcases C35_program E hE calls hl with h | h | ⟨h, _⟩ | ⟨h, _⟩
  · exact .inl h
  · exact .inr h
  · rw [ho] at h; cases h
  · rw [hd] at h; cases h

/-- C35: `update8` and `finalize8` on reachable states, and `hash8` on unkeyed parameters: `update8`
succeeds exactly if all eight inputs fit and otherwise panics with an arithmetic overflow; the other two
always succeed (`hash8` with inputs that fit). -/
theorem C35_many (E : Env) (hE : E.WF) (p : Vector Params 8) (hp : ∀ i : Fin 8, p[i].Accepted)
    (before : Fin 8 → List Op) (st : Vector State 8)
    (hst : ∀ i : Fin 8, Reaches E p[i] (before i) st[i]) (input : Vector (List U8) 8) :
    ((∀ i : Fin 8, Fits E p[i] ((fed (before i)).length + input[i].length)) →
      ∃ st', update8 E st input = .ok st') ∧
    ((¬ ∀ i : Fin 8, Fits E p[i] ((fed (before i)).length + input[i].length)) →
      update8 E st input = .error .overflow) ∧
    (∃ r, finalize8 E st = .ok r) ∧
    ((∀ i : Fin 8, p[i].keyLength = 0) → (∀ i : Fin 8, Fits E p[i] input[i].length) →
      ∃ hs, hash8 E p input = .ok hs) := by
  refine ⟨fun h => ?_, fun h => ?_, ?_, fun hk h => ?_⟩
  · obtain ⟨st', e, _⟩ := C11_update8 E hE (fun i => p[i]) hp before st hst input h
    exact ⟨st', e⟩
  · obtain ⟨i, hi⟩ := Classical.not_forall.mp h
    exact (C11_update8_panics E hE (fun i => p[i]) hp before st hst input i hi).1
  · obtain ⟨st', hs, e, _⟩ := C12_finalize8 E hE (fun i => p[i]) hp before st hst
    exact ⟨_, e⟩
  · obtain ⟨hs, e, _⟩ := C15_hash8 E hE p hp hk input h
    exact ⟨hs, e⟩

example : ∃ st : Vector State 8, (∀ i : Fin 8, Reaches debugAvx2 (laneParams i) (laneOps i) st[i]) ∧
    (∃ st', update8 debugAvx2 st laneInput = .ok st') ∧ ∃ r, finalize8 debugAvx2 st = .ok r := by
  obtain ⟨st, h⟩ := reaches_lanes debugAvx2 (by decide)
  have e : ∀ i : Fin 8, (Vector.ofFn laneParams)[i] = laneParams i := fun i => by simp
  obtain ⟨h1, -, h2, -⟩ := C35_many debugAvx2 (by decide) (Vector.ofFn laneParams)
    (fun i => by rw [e]; exact laneParams_accepted i) laneOps st (fun i => by rw [e]; exact h i) laneInput
  exact ⟨st, h, h1 fun i => fits_short _ _ (by have := length_laneOps i; have := length_laneInput i; omega), h2⟩

/-- C16: no program makes the crate read outside the slices it was given. -/
theorem C16_program (E : Env) (hE : E.WF) (calls : List Call) (hl : ∀ c ∈ calls, c.Legal) :
    program E calls ≠ .error .outOfBoundsRead := by
  rcases C35_program E hE calls hl with ⟨_, h⟩ | h | ⟨_, h⟩ | ⟨_, h⟩ <;> rw [h] <;> nofun

example : program debugAvx2 demo ≠ .error .outOfBoundsRead := C16_program _ (by decide) _ demo_legal

/-- C17: no program makes the crate execute a SIMD routine that the CPU lacks. -/
theorem C17_program (E : Env) (hE : E.WF) (calls : List Call) (hl : ∀ c ∈ calls, c.Legal) :
    program E calls ≠ .error .illegalInstruction := by
  rcases C35_program E hE calls hl with ⟨_, h⟩ | h | ⟨_, h⟩ | ⟨_, h⟩ <;> rw [h] <;> nofun

example : program debugAvx2 demo ≠ .error .illegalInstruction ∧
    program releasePlain demo ≠ .error .illegalInstruction :=
  ⟨C17_program _ (by decide) _ demo_legal, C17_program _ (by decide) _ demo_legal⟩

/-- Both faults are real possibilities of the model: the routines called directly do fault. -/
example (w : StateWords) (m : Block) :
    CompressFn.sse41.call releasePlain w m 0 0 0 = .error .illegalInstruction := rfl
example (p : Params) (i : Vector (List U8) 8) :
    Hash8ExactFn.avx2.call releasePlain p i = .error .illegalInstruction := rfl

theorem demo_completes : ∃ outs, program releasePlain demo = .ok outs := by
  rcases C35_release releasePlain (by decide) rfl rfl demo demo_legal with h | h
  · exact h
  · exact absurd h (by decide +kernel)

/-! ## C18: platforms -/

/-- C18: a program gives the same outputs, or the same panic, on any two platforms with the same build
profile that select the same back end, whatever else is different (for instance SSE4.1 or not). -/
theorem C18_same_backend (E E' : Env) (hE : E.WF) (hE' : E'.WF)
    (ho : E.overflowChecks = E'.overflowChecks) (hd : E.debugAssertions = E'.debugAssertions)
    (hu : E.usesAvx2 = E'.usesAvx2) (calls : List Call) (hl : ∀ c ∈ calls, c.Legal) :
    program E calls = program E' calls := by
  have e : ERel E E' := ⟨ho.symm, hd.symm, hE, hE'⟩
  have := program_both (x := True) e _
    (fun _ _ _ c r => call_both e r (fun b => DRel.refl _ b) c) calls hl (fun _ => .inl hu)
  rw [map_mapBytes_id calls] at this
  rcases this with ⟨a, b, e1, e2, h⟩ | ⟨f, _, e1, e2⟩
  · rw [e1, e2, h.eq trivial]
  · rw [e1, e2]

example : program { debugAvx2 with avx2 := false } demo = program { debugAvx2 with x86 := false } demo :=
  C18_same_backend { debugAvx2 with avx2 := false } { debugAvx2 with x86 := false } (by decide) (by decide)
    (by decide) (by decide) (by decide) demo demo_legal

/-- C18: forcing states to the portable implementation, at any moments of any program, changes nothing. -/
theorem C18_forced (E : Env) (hE : E.WF) (calls : List Call) (hl : ∀ c ∈ calls, c.Legal) :
    program E calls = program E (calls.map Call.unforced) := by
  have e : ERel E E := ⟨rfl, rfl, hE, hE⟩
  have := program_both (x := True) e _ (fun _ _ _ c r => call_unforced e r c) calls hl
    (fun _ => .inl rfl)
  rcases this with ⟨a, b, e1, e2, h⟩ | ⟨f, _, e1, e2⟩
  · rw [e1, e2, h.eq trivial]
  · rw [e1, e2]

example : program debugAvx2 demo = program debugAvx2 (demo.map Call.unforced) :=
  C18_forced debugAvx2 (by decide) demo demo_legal

/-- C18, apart from keys passed to `hash4_exact` / `hash8_exact` (see C19): a program gives the same
outputs, or the same panic, on any two platforms with the same build profile.

What is missing: programs that pass a key to these two functions, for two platforms that select different
back ends. For these the property is false, `C18_keyed_exact_false`. -/
theorem C18_platforms_partial (E E' : Env) (hE : E.WF) (hE' : E'.WF)
    (ho : E.overflowChecks = E'.overflowChecks) (hd : E.debugAssertions = E'.debugAssertions)
    (calls : List Call) (hl : ∀ c ∈ calls, c.Legal) (hk : NoKeyedExact (fun _ => false) calls) :
    program E calls = program E' calls := by
  have e : ERel E E' := ⟨ho.symm, hd.symm, hE, hE'⟩
  have := program_both (x := True) e _
    (fun _ _ _ c r => call_both e r (fun b => DRel.refl _ b) c) calls hl (fun _ => .inr hk)
  rw [map_mapBytes_id calls] at this
  rcases this with ⟨a, b, e1, e2, h⟩ | ⟨f, _, e1, e2⟩
  · rw [e1, e2, h.eq trivial]
  · rw [e1, e2]

example : program debugAvx2 demo = program { debugAvx2 with x86 := false } demo :=
  C18_platforms_partial debugAvx2 { debugAvx2 with x86 := false } (by decide) (by decide) rfl rfl demo
    demo_legal demo_unkeyed

/-- Without the restriction on keys the property is false: this program has different outputs on two
platforms. -/
theorem C18_keyed_exact_false :
    let calls : List Call := [.set 0 (.key [1]),
      .hash4Exact 0 (Vector.replicate 4 (List.replicate 64 0)) #v[0, 1, 2, 3], .asBytes 0]
    (∀ c ∈ calls, c.Legal) ∧ program debugAvx2 calls ≠ program { debugAvx2 with avx2 := false } calls := by
  refine ⟨?_, by decide +kernel⟩
  intro c hc
  simp only [List.mem_cons, List.not_mem_nil, or_false] at hc
  rcases hc with rfl | rfl | rfl
  · exact ⟨by simp [Call.slices], trivial⟩
  · exact ⟨by simp [Call.slices], trivial⟩
  · exact ⟨by simp [Call.slices], trivial⟩

/-! ## C40, C32: what secrets can influence -/

/-- `demo` with another key. -/
def demo' : List Call := .set 0 (.key [4, 5, 6]) :: demo.tail

theorem demo'_legal : ∀ c ∈ demo', c.Legal := by
  intro c hc
  rcases List.mem_cons.mp hc with rfl | hc
  · exact ⟨by simp [Call.slices], trivial⟩
  · exact demo_legal c (List.mem_of_mem_tail hc)

theorem alike_completes {x y : R (List Out)} (h : x.map (List.map Out.visible) = y.map (List.map Out.visible))
    {outs : List Out} (hx : x = .ok outs) : ∃ outs', y = .ok outs' := by
  subst hx
  cases y with
  | ok o => exact ⟨o, rfl⟩
  | error f => cases h

theorem completed_runs {E : Env} {calls : List Call} {outs : List Out} (h : program E calls = .ok outs) :
    ∃ w0 w, World.init E = .ok w0 ∧ w0.run E calls = .ok (w, outs) := by
  unfold program at h
  cases h0 : World.init E with
  | error f => rw [h0] at h; cases h
  | ok w0 =>
    rw [h0] at h
    have h : (w0.run E calls >>= fun x => pure x.2) = .ok outs := h
    cases h1 : w0.run E calls with
    | error f => rw [h1] at h; cases h
    | ok r =>
      rw [h1] at h
      cases h
      exact ⟨w0, r.1, rfl, h1⟩

/-- C40: two programs that differ only in the values of message, key, salt and personalisation bytes
succeed or panic alike, and agree on all counts, numbers of bytes written, debug texts and digest
lengths, even on different platforms. -/
theorem C40_control_flow (E E' : Env) (hE : E.WF) (hE' : E'.WF)
    (ho : E.overflowChecks = E'.overflowChecks) (hd : E.debugAssertions = E'.debugAssertions)
    (calls calls' : List Call) (hl : ∀ c ∈ calls, c.Legal) (hl' : ∀ c ∈ calls', c.Legal)
    (hs : calls.map Call.shape = calls'.map Call.shape) :
    (program E calls).map (List.map Out.visible) = (program E' calls').map (List.map Out.visible) := by
  have key : ∀ (E1 : Env) (_ : E1.WF) (_ : E1.overflowChecks = E'.overflowChecks)
      (_ : E1.debugAssertions = E'.debugAssertions) (cs : List Call) (_ : ∀ c ∈ cs, c.Legal),
      (program E1 cs).map (List.map Out.visible) =
        (program E' (cs.map Call.shape)).map (List.map Out.visible) := by
    intro E1 hE1 ho1 hd1 cs hcs
    have e : ERel E1 E' := ⟨ho1.symm, hd1.symm, hE1, hE'⟩
    have := program_both (x := False) e _
      (fun _ _ _ c r => call_both e r (f := fun b => List.replicate b.length 0)
        (fun b => ⟨by simp, nofun⟩) c) cs hcs nofun
    rcases this with ⟨a, b, e1, e2, h⟩ | ⟨f, _, e1, e2⟩
    · rw [e1, show program E' (cs.map Call.shape) = .ok b from e2]
      show Except.ok _ = Except.ok _
      rw [h.vis]
    · rw [e1, show program E' (cs.map Call.shape) = .error f from e2]
  rw [key E hE ho hd calls hl, key E' hE' rfl rfl calls' hl', hs]

example : (program debugAvx2 demo').map (List.map Out.visible) =
    (program { debugAvx2 with x86 := false } demo).map (List.map Out.visible) :=
  C40_control_flow debugAvx2 { debugAvx2 with x86 := false } (by decide) (by decide) rfl rfl _ _ demo'_legal demo_legal
    rfl

/-- C32: programs that differ only in the values of message, key, salt and personalisation bytes print
the same `Debug` texts of all states and parameters. -/
theorem C32_programs (E : Env) (hE : E.WF) (calls calls' : List Call) (hl : ∀ c ∈ calls, c.Legal)
    (hl' : ∀ c ∈ calls', c.Legal) (hs : calls.map Call.shape = calls'.map Call.shape)
    (outs outs' : List Out) (h : program E calls = .ok outs) (h' : program E calls' = .ok outs')
    (i : Nat) (t : List Char) : outs[i]? = some (.text t) ↔ outs'[i]? = some (.text t) := by
  have := C40_control_flow E E hE hE rfl rfl calls calls' hl hl' hs
  rw [h, h'] at this
  have this : outs.map Out.visible = outs'.map Out.visible := Except.ok.inj this
  have hv : ∀ o : Out, o = .text t ↔ o.visible = .text t := by
    intro o; cases o <;> simp [Out.visible]
  have hm : ∀ os : List Out, os[i]? = some (.text t) ↔ (os.map Out.visible)[i]? = some (.text t) := by
    intro os
    rw [List.getElem?_map]
    cases os[i]? with
    | none => simp
    | some o => simp [← hv o]
  rw [hm outs, hm outs', this]

example : ∃ outs outs', program releasePlain demo = .ok outs ∧ program releasePlain demo' = .ok outs' ∧
    ∀ (i : Nat) (t : List Char), outs[i]? = some (.text t) ↔ outs'[i]? = some (.text t) := by
  obtain ⟨outs, h⟩ := demo_completes
  have hs : demo.map Call.shape = demo'.map Call.shape := rfl
  obtain ⟨outs', e⟩ := alike_completes (C40_control_flow releasePlain releasePlain (by decide) (by decide) rfl rfl demo
    demo' demo_legal demo'_legal hs) h
  exact ⟨outs, outs', h, e,
    C32_programs releasePlain (by decide) demo demo' demo_legal demo'_legal hs outs outs' h e⟩

/-- C32: the texts, as functions of public fields only. -/
theorem C32_state (s t : State) (hc : s.getCount = t.getCount) (hl : s.hashLength = t.hashLength)
    (hn : s.lastNode = t.lastNode) : s.debug = t.debug := by
  have hc : s.count = t.count := hc
  unfold State.debug
  rw [hc, hl, hn]

/-- Two states that differ in everything that depends on the message or the key. -/
example : ∃ s : State, Reaches debugAvx2 keyedParams someOps s ∧
    ({ s with h := Vector.replicate 8 0, buf := Vector.replicate 64 0 } : State).debug = s.debug := by
  obtain ⟨s, hs⟩ := reaches_someOps debugAvx2 (by decide)
  exact ⟨s, hs, C32_state _ _ rfl rfl rfl⟩

theorem C32_sp_params (p q : Sp.Params) (hl : p.hashLength = q.hashLength)
    (hk : p.keyLength = q.keyLength) : p.debug = q.debug := by
  unfold Sp.Params.debug
  rw [hl, hk]

example : (({ Sp.Params.new with hashLength := 20, keyLength := 3, key := Vector.replicate 32 1 } : Sp.Params)).debug =
    (({ Sp.Params.new with hashLength := 20, keyLength := 3, key := Vector.replicate 32 9 } : Sp.Params)).debug :=
  C32_sp_params _ _ rfl rfl

theorem C32_sp_state (E : Env) (s t : Sp.State) (hb : s.buflen = t.buflen)
    (hr : (s.root.count, s.root.hashLength, s.root.lastNode) = (t.root.count, t.root.hashLength, t.root.lastNode))
    (hl : ∀ i : Fin 8, (s.leaves[i].count, s.leaves[i].hashLength, s.leaves[i].lastNode) =
      (t.leaves[i].count, t.leaves[i].hashLength, t.leaves[i].lastNode)) : s.debug E = t.debug E := by
  have one (a b : State) (h : (a.count, a.hashLength, a.lastNode) = (b.count, b.hashLength, b.lastNode)) :
      a.getCount = b.getCount ∧ a.debug = b.debug := by
    injection h with h1 h2
    injection h2 with h2 h3
    exact ⟨h1, C32_state a b h1 h2 h3⟩
  have h0 := one _ _ (hl 0)
  have h1 := one _ _ (hl 1)
  have h2 := one _ _ (hl 2)
  have h3 := one _ _ (hl 3)
  have hroot := one _ _ hr
  have hc : s.getCount E = t.getCount E := by
    unfold Sp.State.getCount
    rw [show s.leaves[0].getCount = _ from h0.1, show s.leaves[1].getCount = _ from h1.1,
      show s.leaves[2].getCount = _ from h2.1, show s.leaves[3].getCount = _ from h3.1,
      show s.leaves[4].getCount = _ from (one _ _ (hl 4)).1, show s.leaves[5].getCount = _ from (one _ _ (hl 5)).1,
      show s.leaves[6].getCount = _ from (one _ _ (hl 6)).1, show s.leaves[7].getCount = _ from (one _ _ (hl 7)).1, hb]
    rfl
  unfold Sp.State.debug
  rw [hc, hroot.2, show s.leaves[0].debug = _ from h0.2, show s.leaves[1].debug = _ from h1.2,
    show s.leaves[2].debug = _ from h2.2, show s.leaves[3].debug = _ from h3.2]
  rfl

/-- The bytes waiting in the buffer are not shown. -/
example : ∃ s, Sp.Reaches debugAvx2 Sp.shortParams Sp.longOps s ∧
    ({ s with buf := Vector.replicate 1024 0 } : Sp.State).debug debugAvx2 = s.debug debugAvx2 := by
  obtain ⟨s, hs⟩ := Sp.reaches_longOps debugAvx2 (by decide)
  exact ⟨s, hs, C32_sp_state _ _ _ rfl rfl fun _ => rfl⟩

/-! ## C23: digest lengths -/

/-- C23: after any program, every `Hash` has 1 to 32 bytes, and its accessors do not panic. -/
theorem C23_program (E : Env) (hE : E.WF) (calls : List Call) (hl : ∀ c ∈ calls, c.Legal)
    (w0 w : World) (outs : List Out) (h0 : World.init E = .ok w0)
    (h : w0.run E calls = .ok (w, outs)) (i : Nat) :
    ∃ b, (w.hash i).asBytes = .ok b ∧ 1 ≤ b.length ∧ b.length ≤ 32 ∧
      (w.hash i).toHex = .ok (hexOf b) ∧
      (w.hash i).debug = .ok ("Hash(0x".toList ++ hexOf b ++ ")".toList) := by
  have e : ERel E E := ⟨rfl, rfl, hE, hE⟩
  have hh : HRel False (w.hash i) (w.hash i) := by
    rcases init_both e False with ⟨a, b, e1, e2, r⟩ | ⟨f, _, e1, _⟩
    · rw [h0] at e1 e2
      cases e1
      cases e2
      have := run_both (x := False) _
        (fun _ _ _ c r => call_both e r (fun b => DRel.refl _ b) c) calls r hl nofun
      rw [map_mapBytes_id calls] at this
      rcases this with ⟨a, b, e1, e2, ⟨_, r⟩, _⟩ | ⟨f, _, e1, _⟩
      · rw [h] at e1 e2
        cases e1
        cases e2
        exact r.hash i
      · rw [h] at e1; cases e1
    · rw [h0] at e1; cases e1
  refine ⟨_, asBytes_ok _ hh.l2, ?_, ?_, toHex_ok _ hh.l2, ?_⟩
  · have := hh.l1
    have := hh.l2
    simp
    omega
  · have := hh.l2
    simp
    omega
  · unfold Hash.debug
    rw [toHex_ok _ hh.l2]
    rfl

example : ∃ w0 w outs b, World.init releasePlain = .ok w0 ∧ w0.run releasePlain demo = .ok (w, outs) ∧
    (w.hash 12).asBytes = .ok b ∧ 1 ≤ b.length ∧ b.length ≤ 32 := by
  obtain ⟨o, h⟩ := demo_completes
  obtain ⟨w0, w, h0, h1⟩ := completed_runs h
  obtain ⟨b, e, l1, l2, -⟩ := C23_program releasePlain (by decide) demo demo_legal w0 w o h0 h1 12
  exact ⟨w0, w, o, b, h0, h1, e, l1, l2⟩

/-- C23: `finalize` returns exactly `hash_length` bytes. -/
theorem C23_finalize (E : Env) (hE : E.WF) (p : Params) (hp : p.Accepted) (ops : List Op) (s s' : State)
    (hs : Reaches E p ops s) (h : Hash) (hf : s.finalize E = .ok (s', h)) :
    ∃ b, h.asBytes = .ok b ∧ b.length = p.hashLength.toNat := by
  have r := hs.rep hE hp.valid
  obtain ⟨s1, h1, e, _, _, hl, _⟩ := finalize_ok r
  rw [hf] at e
  cases e
  rw [after_hashLength] at hl
  have hl : h.len = p.hashLength := hl
  have h32 := hp.valid.hl.2
  refine ⟨_, asBytes_ok h (by rw [hl]; exact h32), ?_⟩
  rw [List.length_take, Vector.length_toList, hl]
  omega

example : ∃ s s' h b, Reaches debugAvx2 keyedParams someOps s ∧ s.finalize debugAvx2 = .ok (s', h) ∧
    h.asBytes = .ok b ∧ b.length = keyedParams.hashLength.toNat := by
  obtain ⟨s, hs⟩ := reaches_someOps debugAvx2 (by decide)
  obtain ⟨s', h, e, -⟩ := finalize_ok (hs.rep (by decide) keyedParams_accepted.valid)
  obtain ⟨b, h1, h2⟩ := C23_finalize debugAvx2 (by decide) _ keyedParams_accepted _ s s' hs h e
  exact ⟨s, s', h, b, hs, e, h1, h2⟩

/-- C23: so do the bulk functions, keyed or not, and `finalize8` (by C12). -/
theorem C23_bulk (E : Env) (hE : E.WF) :
    (∀ (p : Params) (_ : p.Accepted) (input : Vector (List U8) 4) (hs : Vector Hash 4)
      (_ : ∀ i : Fin 4, input[i].length < 2 ^ 63) (_ : hash4Exact E p input = .ok hs) (i : Fin 4),
      ∃ b, hs[i].asBytes = .ok b ∧ b.length = p.hashLength.toNat) ∧
    (∀ (p : Params) (_ : p.Accepted) (input : Vector (List U8) 8) (hs : Vector Hash 8)
      (_ : ∀ i : Fin 8, input[i].length < 2 ^ 63) (_ : hash8Exact E p input = .ok hs) (i : Fin 8),
      ∃ b, hs[i].asBytes = .ok b ∧ b.length = p.hashLength.toNat) ∧
    (∀ (p : Vector Params 8) (_ : ∀ i : Fin 8, p[i].Accepted) (input : Vector (List U8) 8)
      (hs : Vector Hash 8) (_ : ∀ i : Fin 8, input[i].length < 2 ^ 63)
      (_ : hash8 E p input = .ok hs) (i : Fin 8),
      ∃ b, hs[i].asBytes = .ok b ∧ b.length = p[i].hashLength.toNat) := by
  have fin : ∀ (h : Hash) (p : Params), p.Accepted → h.len = p.hashLength →
      ∃ b, h.asBytes = .ok b ∧ b.length = p.hashLength.toNat := by
    intro h p hp hl
    have h32 := hp.valid.hl.2
    refine ⟨_, asBytes_ok h (by rw [hl]; exact h32), ?_⟩
    rw [List.length_take, Vector.length_toList, hl]
    omega
  refine ⟨?_, ?_, ?_⟩
  · intro p hp input hs h63 e i
    by_cases hl : ∃ len, ExactLengths input len
    · obtain ⟨len, hl⟩ := hl
      obtain ⟨hs', e', h'⟩ := exact4_len hE hp.valid hl (by rw [← hl.1 0]; exact h63 0)
      rw [e] at e'
      cases e'
      exact fin _ p hp (h' i)
    · rw [C13_refuses E p input hl] at e; cases e
  · intro p hp input hs h63 e i
    by_cases hl : ∃ len, ExactLengths input len
    · obtain ⟨len, hl⟩ := hl
      obtain ⟨hs', e', h'⟩ := exact8_len hE hp.valid hl (by rw [← hl.1 0]; exact h63 0)
      rw [e] at e'
      cases e'
      exact fin _ p hp (h' i)
    · rw [C14_refuses E p input hl] at e; cases e
  · intro p hp input hs h63 e i
    by_cases hk : ∀ i : Fin 8, p[i].keyLength = 0
    · obtain ⟨hs', e', h'⟩ := hash8_ok E hE p input hk (fun i => (hp i).valid.off)
        (fun i => tooLong_small (h63 i))
      rw [e] at e'
      cases e'
      exact fin _ p[i] (hp i) (h' i).2
    · obtain ⟨j, hj⟩ := Classical.not_forall.mp hk
      rw [hash8_keyed E p input j hj] at e; cases e

example : ∃ hs : Vector Hash 4, hash4Exact debugAvx2 keyedParams (exactInput 4) = .ok hs ∧
    ∀ i : Fin 4, ∃ b, hs[i].asBytes = .ok b ∧ b.length = keyedParams.hashLength.toNat := by
  have l := exactInput_lengths (n := 4) (by decide)
  obtain ⟨hs, e, -⟩ := exact4_len (E := debugAvx2) (by decide) keyedParams_accepted.valid l (by decide)
  exact ⟨hs, e, (C23_bulk debugAvx2 (by decide)).1 _ keyedParams_accepted _ hs
    (fun i => by rw [l.1 i]; decide) e⟩

/-- C23: so does `blake2sp::State::finalize` on any state a caller can reach, even where the digest is
wrong (C30). -/
theorem C23_sp_finalize (E : Env) (hE : E.WF) (p : Sp.Params) (hp : p.Accepted) (ops : List Sp.Op)
    (s s' : Sp.State) (hs : Sp.Reaches E p ops s) (h : Hash) (hf : s.finalize E = .ok (s', h)) :
    ∃ b, h.asBytes = .ok b ∧ b.length = p.hashLength.toNat := by
  have e : ERel E E := ⟨rfl, rfl, hE, hE⟩
  have v := Sp.Params.Accepted.valid hp
  obtain ⟨s0, ds, h0, h1⟩ := hs
  have r0 : Sp.SpRel False E E s0 s0 := by
    rcases Sp.toState_both (x := False) e ⟨v, rfl, rfl, fun _ => rfl⟩ with ⟨a, b, e1, e2, q⟩ | ⟨f, _, e1, _⟩
    · rw [h0] at e1 e2
      cases e1
      cases e2
      exact q
    · rw [h0] at e1; cases e1
  obtain ⟨r, hr⟩ := Sp.run_root e ops r0 h1
  rcases Sp.finalize_both e r with ⟨a, b, e1, e2, _, _, _, q⟩ | ⟨f, _, e1, _⟩
  · rw [hf] at e1
    cases e1
    have hl : h.len = p.hashLength := by rw [q, hr, Sp.toState_root hE v h0]
    have h32 := v.hl.2
    refine ⟨_, asBytes_ok h (by rw [hl]; exact h32), ?_⟩
    rw [List.length_take, Vector.length_toList, hl]
    omega
  · rw [hf] at e1; cases e1

example : ∃ s s' h b, Sp.Reaches debugAvx2 Sp.keyedParams Sp.shortOps s ∧ s.finalize debugAvx2 = .ok (s', h) ∧
    h.asBytes = .ok b ∧ b.length = Sp.keyedParams.hashLength.toNat := by
  obtain ⟨s, hs⟩ := Sp.reaches_shortOps debugAvx2 (by decide)
  have v := Sp.Params.Accepted.valid Sp.keyedParams_accepted
  obtain ⟨x, e, _⟩ := ((hs.abs (by decide) v fun _ => Sp.shortOps_buffered).finalize v).elim
    (Sp.not_bad_fed v (fun _ => by rw [Sp.length_shortOps]; decide) fun _ => Sp.shortOps_buffered)
  obtain ⟨b, h1, h2⟩ := C23_sp_finalize debugAvx2 (by decide) _ Sp.keyedParams_accepted _ s x.1 hs x.2 e
  exact ⟨s, x.1, x.2, b, hs, e, h1, h2⟩

example : ∃ p : Params, p.Accepted ∧ p.hashLength = 20 ∧
    Reaches releasePlain p [] (State.mk p.makeWords (Vector.replicate 64 0) 0 0 .portable false 20) :=
  ⟨_, ⟨[.hashLength 20], rfl⟩, rfl, _, _, rfl, rfl⟩

end Blake2s
