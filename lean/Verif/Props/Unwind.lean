import Verif.Proofs.UnwindExact
import Verif.Props.Exact
/-!
# C44: programs that catch panics; and C20: a refused setter changes nothing

`caught E calls` (`Verif/Model/Unwind.lean`) runs a program in which every call is wrapped in
`catch_unwind`: the result is what each call returned, or its panic, and every later call works on the
objects as the panics left them.
-/

namespace Blake2s

open Exact (buildOf)

/-! ## C20 -/

/-- C20: a setter of `Params` that refuses its argument leaves the parameters unchanged; one that accepts
it leaves what `C20_accepts` says. -/
theorem C20_unchanged (p : Params) (c : Setter) :
    (¬ c.InRange → Params.setU c p = (.error .assertFailed, p)) ∧
    (c.InRange → ∃ q, Params.setU c p = (.ok (), q) ∧ p.set c = .ok q) := by
  have a := Params.set_agree p c
  constructor
  · intro h
    rw [set_neg p h] at a
    have e : (Params.setU c p).1 = .error .assertFailed := a
    exact Prod.ext e (Params.setU_error e)
  · intro h
    rw [set_pos p h] at a
    exact ⟨_, a, set_pos p h⟩

/-- C20: so do the setters of `blake2sp::Params`. -/
theorem C20_sp_unchanged (p : Sp.Params) (c : Sp.Setter) :
    (¬ c.InRange → Sp.Params.setU c p = (.error .assertFailed, p)) ∧
    (c.InRange → ∃ q, Sp.Params.setU c p = (.ok (), q) ∧ p.set c = .ok q) := by
  have a := Sp.Params.set_agree p c
  constructor
  · intro h
    rw [Abstract.sp_set_neg p h] at a
    have e : (Sp.Params.setU c p).1 = .error .assertFailed := a
    exact Prod.ext e (Sp.Params.setU_error e)
  · intro h
    have e : ∃ q, p.set c = .ok q := by
      cases c with
      | hashLength n => exact ⟨_, (Sp.setHashLength_eq _ _).trans (if_pos h)⟩
      | key k => exact ⟨_, (Sp.setKey_eq _ _).trans (if_pos h)⟩
    obtain ⟨q, e⟩ := e
    rw [e] at a
    exact ⟨q, a, e⟩

example : Sp.Params.setU (.hashLength 33) Sp.keyedParams = (.error .assertFailed, Sp.keyedParams) :=
  (C20_sp_unchanged Sp.keyedParams (.hashLength 33)).1 (by decide)

/-- A key that is too long, set after a key that is not. -/
example : ∃ p q : Params, Params.setU (.key [1, 2]) Params.new = (.ok (), p) ∧
    Params.setU (.key (List.replicate 33 9)) p = (.error .assertFailed, q) ∧ q.keyBytes = [1, 2] := by
  obtain ⟨p, h, h'⟩ := (C20_unchanged Params.new (.key [1, 2])).2 (by decide)
  refine ⟨p, p, h, (C20_unchanged p _).1 (by decide), ?_⟩
  cases h'
  decide

/-! ## C44 -/

/-- A program with caught panics of several kinds. -/
def demoCaught : List Call :=
  [.set 0 (.hashLength 33), .set 0 (.hashLength 20), .set 0 (.maxDepth 0), .toState 0 0, .update 0 [1],
   .finalize 0 0, .asBytes 0, .hash4Exact 0 #v[[1], [1], [1], [1, 2]] #v[0, 0, 0, 0], .asBytes 0,
   .spSet 0 (.key [1]), .spToState 0 0, .spUpdate 0 zeros, .spFinalize 0 1,
   .asBytes 1, .spCount 0]

theorem demoCaught_legal : ∀ c ∈ demoCaught, c.Legal := by
  intro c hc
  simp only [demoCaught, List.mem_cons, List.not_mem_nil, or_false] at hc
  rcases hc with rfl | rfl | rfl | rfl | rfl | rfl | rfl | rfl | rfl | rfl | rfl | rfl | rfl | rfl | rfl
  all_goals (refine ⟨?_, ?_⟩)
  all_goals first | simp [Call.slices, zeros_length] | trivial

/-- C44: up to and including the first panic, catching panics makes no difference. -/
theorem C44_first_panic (E : Env) (hE : E.WF) (calls : List Call) :
    (∀ outs, program E calls = .ok outs → caught E calls = .ok (outs.map .ok)) ∧
    (∀ f, program E calls = .error f →
      ∃ (outs : List Out) (rest : List (R Out)), caught E calls = .ok (outs.map .ok ++ .error f :: rest)) :=
  caught_first hE calls

example : ∃ (outs : List Out) (rest : List (R Out)),
    caught debugAvx2 [.toHex 3, .set 0 (.hashLength 33), .debugState 0] =
      .ok (outs.map .ok ++ .error .assertFailed :: rest) :=
  (C44_first_panic debugAvx2 (by decide) [.toHex 3, .set 0 (.hashLength 33), .debugState 0]).2 .assertFailed
    (by decide +kernel)

/-- C44: no program that catches panics can make any call do worse than panic: every call returns, or
panics by an assertion, by an overflow check of a build that has them, or by a debug assertion of a
build that has them. In particular the objects left by a panic can never lead to a read out of bounds,
an instruction the CPU lacks, an index out of range, or an endless loop. -/
theorem C44_safe (E : Env) (hE : E.WF) (calls : List Call) (hl : ∀ c ∈ calls, c.Legal) :
    ∃ rs, caught E calls = .ok rs ∧ rs.length = calls.length ∧
      ∀ f, .error f ∈ rs → f = .assertFailed ∨ (f = .overflow ∧ E.overflowChecks = true) ∨
        (f = .debugAssertFailed ∧ E.debugAssertions = true) := by
  obtain ⟨w, e, _⟩ := Exact.init_sim hE
  have ec : caught E calls = .ok (w.runU E calls) := by
    unfold caught
    rw [e]
    rfl
  refine ⟨_, ec, World.runU_length E calls w, ?_⟩
  have := caught_both (x := False) (E' := E) ⟨rfl, rfl, hE, hE⟩ (f := fun b => b)
    (fun b => DRel.refl _ b) calls hl nofun
  rw [ec] at this
  rcases this with ⟨a, b, e1, _, r⟩ | ⟨f, _, e1, _⟩
  · cases e1
    intro f hf
    rcases r.panic f hf with ⟨h, h'⟩ | ⟨h, h'⟩ | h
    · exact .inr (.inl ⟨h, h'⟩)
    · exact .inr (.inr ⟨h, h'⟩)
    · exact .inl h
  · cases e1

example : ∃ rs, caught debugAvx2 demoCaught = .ok rs ∧ rs.length = 15 := by
  obtain ⟨rs, h, l, -⟩ := C44_safe debugAvx2 (by decide) demoCaught demoCaught_legal
  exact ⟨rs, h, l⟩

/-- C44: a panic of any call but `update`, `write` and `update8` leaves every variable as it was: the rest
of the program goes on exactly as if the call had not been there. -/
theorem C44_unchanged (E : Env) (hE : E.WF) (before after : List Call) (c : Call)
    (hl : ∀ c ∈ before, c.Legal) (hc : c.updates = false) (rs : List (R Out)) (f : Fault)
    (h : caught E (before ++ c :: after) = .ok rs) (hf : rs[before.length]? = some (.error f)) :
    caught E (before ++ after) = .ok (rs.eraseIdx before.length) :=
  caught_remove hE before after c hl hc h hf

example : caught debugAvx2 ([.set 0 (.hashLength 20)] ++ [.toState 0 0, .debugState 0]) =
    .ok [.ok .unit, .ok .unit, .ok (.text "State { count: 0, hash_length: 20, last_node: false }".toList)] :=
  C44_unchanged debugAvx2 (by decide) [.set 0 (.hashLength 20)] [.toState 0 0, .debugState 0] (.set 0 (.hashLength 33))
    (by simp [Call.Legal, Call.slices]) rfl
    [.ok .unit, .error .assertFailed, .ok .unit,
      .ok (.text "State { count: 0, hash_length: 20, last_node: false }".toList)] .assertFailed (by decide +kernel) rfl

/-- A hash length that is refused between two calls. -/
example : ∃ rs, caught debugAvx2 ([.set 0 (.hashLength 20)] ++ .set 0 (.hashLength 33) ::
      [.toState 0 0, .debugState 0]) = .ok rs ∧ rs[1]? = some (.error .assertFailed) ∧
    rs[3]? = some (.ok (.text "State { count: 0, hash_length: 20, last_node: false }".toList)) :=
  ⟨[.ok .unit, .error .assertFailed, .ok .unit,
    .ok (.text "State { count: 0, hash_length: 20, last_node: false }".toList)],
    by decide +kernel, rfl, rfl⟩

/-- C44: what any program that catches panics observes is what the machine of `Verif/ExactUnwind.lean`
says, up to the first overflow of a byte counter while bytes are fed. -/
theorem C44_exact (E : Env) (hE : E.WF) (calls : List Call) (hl : ∀ c ∈ calls, c.Legal) :
    ∃ rest, caught E calls = .ok (Exact.caught (buildOf E) calls ++ rest) ∧
      (rest ≠ [] → E.overflowChecks = true ∧
        (Exact.caught (buildOf E) calls).getLast? = some (.error .overflow)) :=
  Exact.caught_eq hE calls hl

/-- C44: without overflow checks nothing is left open. -/
theorem C44_exact_unchecked (E : Env) (hE : E.WF) (ho : E.overflowChecks = false) (calls : List Call)
    (hl : ∀ c ∈ calls, c.Legal) : caught E calls = .ok (Exact.caught (buildOf E) calls) := by
  obtain ⟨rest, h, hr⟩ := C44_exact E hE calls hl
  have : rest = [] := by
    apply Classical.byContradiction
    intro hn
    have := (hr hn).1
    rw [ho] at this
    cases this
  rw [h, this, List.append_nil]

example : caught releasePlain demoCaught = .ok (Exact.caught (buildOf releasePlain) demoCaught) :=
  C44_exact_unchecked releasePlain (by decide) rfl demoCaught demoCaught_legal

/-- C44: with a key, in a debug build, a panic of `blake2sp::State::update` that is caught leaves a state
that has taken as much of the input as its buffer could hold, and whose hash is the correct hash of
that: bytes are lost without a trace. For all keys, all first pieces `a` that stay in the buffer and all
second pieces `b` that do not. -/
theorem C44_truncates (E : Env) (hE : E.WF) (hd : E.debugAssertions = true) (key a b : List U8)
    (hk : key ≠ []) (hk' : key.length ≤ 32) (ha : a ≠ []) (ha' : Sp.Buffered 0 a.length)
    (hb : ¬ Sp.Buffered a.length b.length) (hb' : b.length < 2 ^ 63) :
    caught E [.spSet 0 (.key key), .spToState 0 0, .spUpdate 0 a, .spUpdate 0 b, .spFinalize 0 0,
      .asBytes 0] =
    .ok [.ok .unit, .ok .unit, .ok .unit, .error .debugAssertFailed, .ok .unit,
      .ok (.bytes (Spec.Sp.hash 32 key ((a ++ b).take 1024)))] := by
  have ha960 : a.length ≤ 960 := ha'
  generalize hcs : ([.spSet 0 (.key key), .spToState 0 0, .spUpdate 0 a, .spUpdate 0 b, .spFinalize 0 0,
      .asBytes 0] : List Call) = calls
  have hl : ∀ c ∈ calls, c.Legal := by
    subst hcs
    intro c hc
    simp only [List.mem_cons, List.not_mem_nil, or_false] at hc
    rcases hc with rfl | rfl | rfl | rfl | rfl | rfl
    all_goals (refine ⟨?_, ?_⟩)
    all_goals first | simp [Call.slices]; try omega | trivial
  have ek : (Spec.keyBlock key).length ≤ 64 := by
    unfold Spec.keyBlock
    split <;> simp
    omega
  have kb : (Spec.keyBlock key).length = 64 := by
    unfold Spec.keyBlock
    rw [if_neg hk]
    simp
    omega
  have h1 : Exact.SpState.update (buildOf E) ⟨32, key, [], 0⟩ a = .ok ⟨32, key, a, 0⟩ := by
    have hr : Exact.SpState.rowsWith ⟨32, key, [], 0⟩ a = 0 := by
      show 0 + Sp.rowsTaken 0 a.length = 0
      rw [(Sp.rowsTaken_zero 0 a.length).mpr ha']
    unfold Exact.SpState.update
    rw [hr, if_neg (fun h => Nat.lt_irrefl 0 h.2.2), if_neg (fun h => by
      have := h.2
      simp only at this
      omega)]
    rfl
  have h2 : Exact.SpState.update (buildOf E) ⟨32, key, a, 0⟩ b = .error .debugAssertFailed := by
    unfold Exact.SpState.update
    rw [if_pos]
    refine ⟨hd, hk, ?_⟩
    show 0 < 0 + Sp.rowsTaken (a.length - 512 * 0) b.length
    have : Sp.rowsTaken (a.length - 512 * 0) b.length ≠ 0 := fun h =>
      hb ((Sp.rowsTaken_zero _ _).mp h)
    omega
  have h3 : Exact.SpState.digest (buildOf E) ⟨32, key, (a ++ b).take 1024, 0⟩ =
      .ok (Spec.Sp.hash 32 key ((a ++ b).take 1024)) := by
    unfold Exact.SpState.digest
    rw [if_neg, if_neg hk]
    · rfl
    · rintro ⟨_, i, h⟩
      unfold Exact.SpState.leafCount at h
      simp only [Nat.mul_zero, List.drop_zero] at h
      rw [Spec.Sp.leafInput_two i _ (by rw [List.length_take]; omega)] at h
      simp only [List.length_append, List.length_take, List.length_drop] at h
      omega
  have hx : Exact.caught (buildOf E) calls =
      [.ok .unit, .ok .unit, .ok .unit, .error .debugAssertFailed, .ok .unit,
        .ok (.bytes (Spec.Sp.hash 32 key ((a ++ b).take 1024)))] := by
    subst hcs
    have has : ∀ {α : Type} (f : Nat → α) (i : Nat) (a : α), assign f i a i = a :=
      fun _ _ _ => if_pos rfl
    simp only [Exact.caught, Exact.XWorld.runCaught, Exact.XWorld.call, Exact.XWorld.setSpParams,
      Exact.XWorld.setSpState, Exact.XWorld.setHash, Exact.XWorld.init, has, hk', if_true, bind,
      Except.bind, Sp.Setter.InRange, Sp.Setter.effect, Exact.toSpState, Abstract.newSpParams, h1, h2,
      Exact.XWorld.after, Exact.SpState.interrupted, if_neg ha, h3]
  obtain ⟨rest, h, hr⟩ := C44_exact E hE calls hl
  have : rest = [] := by
    apply Classical.byContradiction
    intro hn
    have := (hr hn).2
    rw [hx] at this
    exact absurd this (by simp)
  rw [h, this, hx, List.append_nil]

/-- A first piece of 900 bytes. -/
def piece1 : List U8 := List.replicate 900 7

/-- A second piece of 200 bytes. -/
def piece2 : List U8 := List.replicate 200 8

theorem piece1_length : piece1.length = 900 := List.length_replicate

theorem piece2_length : piece2.length = 200 := List.length_replicate

/-- The last 76 bytes of the second piece are lost. -/
example : caught debugAvx2 [.spSet 0 (.key [1]), .spToState 0 0, .spUpdate 0 piece1, .spUpdate 0 piece2,
      .spFinalize 0 0, .asBytes 0] =
    .ok [.ok .unit, .ok .unit, .ok .unit, .error .debugAssertFailed, .ok .unit,
      .ok (.bytes (Spec.Sp.hash 32 [1] ((piece1 ++ piece2).take 1024)))] :=
  C44_truncates debugAvx2 (by decide) rfl [1] piece1 piece2 (by decide) (by decide)
    (fun h => by have := piece1_length; rw [h] at this; cases this)
    (by rw [piece1_length]; decide) (by rw [piece1_length, piece2_length]; decide)
    (by rw [piece2_length]; decide)

/-- C44: a program that catches panics observes the same on any two platforms with the same build profile
that select the same back end; and on any two platforms with the same build profile if it passes no key
to `hash4_exact` and `hash8_exact` (C19). -/
theorem C44_platforms (E E' : Env) (hE : E.WF) (hE' : E'.WF)
    (ho : E.overflowChecks = E'.overflowChecks) (hd : E.debugAssertions = E'.debugAssertions)
    (calls : List Call) (hl : ∀ c ∈ calls, c.Legal)
    (hu : E.usesAvx2 = E'.usesAvx2 ∨ NoKeyedExact (fun _ => false) calls) :
    caught E calls = caught E' calls := by
  have := caught_both (x := True) (⟨ho.symm, hd.symm, hE, hE'⟩ : ERel E E') (f := fun b => b)
    (fun b => DRel.refl _ b) calls hl (fun _ => hu)
  rw [map_mapBytes_id calls] at this
  rcases this with ⟨a, b, e1, e2, h⟩ | ⟨f, _, e1, e2⟩
  · rw [e1, e2, h.eq]
  · rw [e1, e2]

example : caught debugAvx2 demoCaught = caught { debugAvx2 with x86 := false } demoCaught :=
  C44_platforms debugAvx2 { debugAvx2 with x86 := false } (by decide) (by decide) rfl rfl demoCaught demoCaught_legal
    (.inr (by simp [demoCaught, NoKeyedExact, Call.keyed]))

/-- C44: two programs that catch panics and differ only in the values of message, key, salt and
personalisation bytes have the same calls panic, in the same way, and agree on everything else that does
not show bytes of a digest, even on different platforms. -/
theorem C44_control_flow (E E' : Env) (hE : E.WF) (hE' : E'.WF)
    (ho : E.overflowChecks = E'.overflowChecks) (hd : E.debugAssertions = E'.debugAssertions)
    (calls calls' : List Call) (hl : ∀ c ∈ calls, c.Legal) (hl' : ∀ c ∈ calls', c.Legal)
    (hs : calls.map Call.shape = calls'.map Call.shape) :
    (caught E calls).map (List.map (Except.map Out.visible)) =
      (caught E' calls').map (List.map (Except.map Out.visible)) := by
  have key : ∀ (E1 : Env) (_ : E1.WF) (_ : E1.overflowChecks = E'.overflowChecks)
      (_ : E1.debugAssertions = E'.debugAssertions) (cs : List Call) (_ : ∀ c ∈ cs, c.Legal),
      (caught E1 cs).map (List.map (Except.map Out.visible)) =
        (caught E' (cs.map Call.shape)).map (List.map (Except.map Out.visible)) := by
    intro E1 hE1 ho1 hd1 cs hcs
    have e : ERel E1 E' := ⟨ho1.symm, hd1.symm, hE1, hE'⟩
    have := caught_both (x := False) e (f := fun b => List.replicate b.length 0)
      (fun b => ⟨by simp, nofun⟩) cs hcs nofun
    rcases this with ⟨a, b, e1, e2, h⟩ | ⟨f, _, e1, e2⟩
    · rw [e1, show caught E' (cs.map Call.shape) = .ok b from e2]
      show Except.ok _ = Except.ok _
      rw [h.vis]
    · rw [e1, show caught E' (cs.map Call.shape) = .error f from e2]
  rw [key E hE ho hd calls hl, key E' hE' rfl rfl calls' hl', hs]

/-- The same with another message and another key. -/
example : (caught debugAvx2 (demoCaught ++ [.update 0 [7, 8], .spSet 1 (.key [4])])).map
      (List.map (Except.map Out.visible)) =
    (caught { debugAvx2 with x86 := false } (demoCaught ++ [.update 0 [9, 8], .spSet 1 (.key [5])])).map
      (List.map (Except.map Out.visible)) := by
  have legal : ∀ a b : U8, ∀ c ∈ demoCaught ++ [.update 0 [a, 8], .spSet 1 (.key [b])], c.Legal := by
    intro a b c hc
    rcases List.mem_append.mp hc with hc | hc
    · exact demoCaught_legal c hc
    · simp only [List.mem_cons, List.not_mem_nil, or_false] at hc
      rcases hc with rfl | rfl <;> exact ⟨by simp [Call.slices], trivial⟩
  exact C44_control_flow debugAvx2 { debugAvx2 with x86 := false } (by decide) (by decide) rfl rfl _ _ (legal 7 4)
    (legal 9 5) (by rw [List.map_append, List.map_append]; rfl)

/-- What is seen of it: in a debug build, and the same on every platform, by evaluation. -/
example : (caught debugAvx2 demoCaught).map (List.map (Except.map Out.visible)) =
    .ok [.error .assertFailed, .ok .unit, .error .assertFailed, .ok .unit, .ok .unit,
      .ok .unit, .ok (.length 20), .error .assertFailed, .ok (.length 20),
      .ok .unit, .ok .unit, .error .debugAssertFailed, .ok .unit, .ok (.length 32),
      .ok (.count 512)] := by
  obtain ⟨rest, h, hr⟩ := C44_exact debugAvx2 (by decide) demoCaught demoCaught_legal
  have hx : (Exact.caught (buildOf debugAvx2) demoCaught).map (Except.map Out.visible) =
    [.error .assertFailed, .ok .unit, .error .assertFailed, .ok .unit, .ok .unit,
      .ok .unit, .ok (.length 20), .error .assertFailed, .ok (.length 20),
      .ok .unit, .ok .unit, .error .debugAssertFailed, .ok .unit, .ok (.length 32),
      .ok (.count 512)] := by decide +kernel
  have : rest = [] := by
    apply Classical.byContradiction
    intro hn
    have := congrArg (Option.map (Except.map Out.visible)) (hr hn).2
    rw [← List.getLast?_map, hx] at this
    exact absurd this (by simp [Except.map])
  rw [h, this, List.append_nil]
  exact congrArg Except.ok hx

end Blake2s
