import Verif.Proofs.Lives
/-!
# C33: objects are independent

`lives calls` (`Verif/Lives.lean`) tells for each variable, from the text of the program, which calls
made the object in it. The theorems say that an object in a program full of other objects, clones and
eight-way calls is what the same calls make of it when there is nothing else in the world and all calls
are single calls.
-/

namespace Blake2s

/-- A program with two clones that go different ways, and an eight-way update between. -/
def demoClones : List Call :=
  [.set 0 (.key [1]), .toState 0 0, .update 0 [1, 2], .cloneParams 1 0, .set 0 (.salt [9]),
   .cloneState 1 0, .update 1 [5], .update8 #v[0, 1, 2, 3, 4, 5, 6, 7] (Vector.replicate 8 [7]),
   .finalize 0 3, .setLastNode 0 true, .spSet 2 (.key [6]), .spToState 4 2, .spUpdate 4 [8]]

/-- Another program, in which variable 9 has the life that variable 1 has in `demoClones`. -/
def demoAlone : List Call :=
  [.set 3 (.key [1]), .toState 9 3, .update 9 [1, 2], .update 9 [5], .update 9 [7], .blake2s [1] 0]

theorem demoClones_legal : ∀ c ∈ demoClones, c.Legal := by
  intro c hc
  simp only [demoClones, List.mem_cons, List.not_mem_nil, or_false] at hc
  rcases hc with rfl | rfl | rfl | rfl | rfl | rfl | rfl | rfl | rfl | rfl | rfl | rfl | rfl
  all_goals (refine ⟨?_, ?_⟩)
  all_goals first | trivial | decide | simp [Call.slices]

theorem demoAlone_legal : ∀ c ∈ demoAlone, c.Legal := by
  intro c hc
  simp only [demoAlone, List.mem_cons, List.not_mem_nil, or_false] at hc
  rcases hc with rfl | rfl | rfl | rfl | rfl | rfl
  all_goals (refine ⟨?_, ?_⟩)
  all_goals first | trivial | decide | simp [Call.slices]

/-- A program that the abstract machine completes runs to its end. -/
theorem completes (calls : List Call) (hl : ∀ c ∈ calls, c.Legal)
    (hp : (Abstract.program (Abstract.buildOf releasePlain) calls).panics = false)
    (hs : (Abstract.program (Abstract.buildOf releasePlain) calls).sure = true) (w0 : World)
    (h0 : World.init releasePlain = .ok w0) : ∃ w outs, w0.run releasePlain calls = .ok (w, outs) := by
  obtain ⟨-, h⟩ := Abstract.program_sim (E := releasePlain) (by decide) calls hl
  cases h1 : w0.run releasePlain calls with
  | error f =>
    rcases h f (by simp only [program, h0, bind, Except.bind, h1]) with q | q
    · exact absurd (hp.symm.trans q) (by decide)
    · exact absurd (hs.symm.trans q) (by decide)
  | ok x => exact ⟨x.1, x.2, rfl⟩

theorem inits : ∃ w0, World.init releasePlain = .ok w0 := by
  cases h : World.init releasePlain with
  | ok w0 => exact ⟨w0, rfl⟩
  | error f =>
    rcases (Abstract.program_sim (E := releasePlain) (by decide) [] nofun).2 f (by simp only [program, h]; rfl) with q | q
    · cases q
    · cases q

/-- `demoClones` runs to its end. -/
theorem demoClones_runs :
    ∃ w0 w outs, World.init releasePlain = .ok w0 ∧ w0.run releasePlain demoClones = .ok (w, outs) := by
  obtain ⟨w0, h0⟩ := inits
  obtain ⟨w, outs, h⟩ := completes demoClones demoClones_legal (by decide +kernel) (by decide +kernel) w0 h0
  exact ⟨w0, w, outs, h0, h⟩

/-- C33: a `State` behaves, whatever is done with it next, like a `State` that went through its own life
alone: same hashes, count and debug text, or the same panic. -/
theorem C33_states (E : Env) (hE : E.WF) (calls : List Call) (hl : ∀ c ∈ calls, c.Legal)
    (w0 w : World) (outs : List Out) (h0 : World.init E = .ok w0)
    (h : w0.run E calls = .ok (w, outs)) (s : Nat) :
    ∃ t, ((lives calls).state s).Alone E t ∧
      ∀ ops, seen ((w.state s).run E ops) = seen (t.run E ops) := by
  obtain ⟨t, a, ha, ⟨c, r, h0, h1, h2, h3⟩, ⟨d, q, g0, g1, g2, g3⟩⟩ :=
    (Lived.run hE calls hl (Lived.init hE h0) h).state s
  exact ⟨t, ha, fun ops => run_same rfl r q (by rw [h0, g0]) (by rw [h1, g1]) (by rw [h2, g2]) ops⟩

example : ∃ w0 w outs, World.init releasePlain = .ok w0 ∧ w0.run releasePlain demoClones = .ok (w, outs) ∧
    ∃ t, Life.Alone releasePlain ⟨[.key [1]], [.update [1, 2], .update [5], .update [7]]⟩ t ∧
      ∀ ops, seen ((w.state 1).run releasePlain ops) = seen (t.run releasePlain ops) := by
  obtain ⟨w0, w, outs, h0, h⟩ := demoClones_runs
  exact ⟨w0, w, outs, h0, h, C33_states releasePlain (by decide) demoClones demoClones_legal w0 w outs h0 h 1⟩

/-- C33: a `Params` holds what its own setter calls put there. -/
theorem C33_params (E : Env) (hE : E.WF) (calls : List Call) (hl : ∀ c ∈ calls, c.Legal)
    (w0 w : World) (outs : List Out) (h0 : World.init E = .ok w0)
    (h : w0.run E calls = .ok (w, outs)) (p : Nat) :
    Params.new.setAll ((lives calls).params p) = .ok (w.params p) ∧
      Sp.Params.new.setAll ((lives calls).spParams p) = .ok (w.spParams p) :=
  ⟨(Lived.run hE calls hl (Lived.init hE h0) h).params p,
    (Lived.run hE calls hl (Lived.init hE h0) h).spParams p⟩

example : ∃ w0 w outs, World.init releasePlain = .ok w0 ∧ w0.run releasePlain demoClones = .ok (w, outs) ∧
    Params.new.setAll [.key [1]] = .ok (w.params 1) := by
  obtain ⟨w0, w, outs, h0, h⟩ := demoClones_runs
  exact ⟨w0, w, outs, h0, h, (C33_params releasePlain (by decide) demoClones demoClones_legal w0 w outs h0 h 1).1⟩

/-- C33: a `Hash` is the one that its own life alone produces; in particular the hashes of the
functions on four or eight inputs do not depend on the other inputs. -/
theorem C33_hashes (E : Env) (hE : E.WF) (calls : List Call) (hl : ∀ c ∈ calls, c.Legal)
    (w0 w : World) (outs : List Out) (h0 : World.init E = .ok w0)
    (h : w0.run E calls = .ok (w, outs)) (i : Nat) : ((lives calls).hash i).Alone E (w.hash i) :=
  (Lived.run hE calls hl (Lived.init hE h0) h).hash i

example : ∃ w0 w outs, World.init releasePlain = .ok w0 ∧ w0.run releasePlain demoClones = .ok (w, outs) ∧
    HashLife.Alone releasePlain (w.hash 3) (.finalized ⟨[.key [1]], [.update [1, 2], .update [7]]⟩) := by
  obtain ⟨w0, w, outs, h0, h⟩ := demoClones_runs
  exact ⟨w0, w, outs, h0, h, C33_hashes releasePlain (by decide) demoClones demoClones_legal w0 w outs h0 h 3⟩

/-- C33: a `blake2sp::State` is the one that its own life alone produces. -/
theorem C33_sp_states (E : Env) (hE : E.WF) (calls : List Call) (hl : ∀ c ∈ calls, c.Legal)
    (w0 w : World) (outs : List Out) (h0 : World.init E = .ok w0)
    (h : w0.run E calls = .ok (w, outs)) (s : Nat) :
    ((lives calls).spState s).Alone E (w.spState s) :=
  (Lived.run hE calls hl (Lived.init hE h0) h).spState s

example : ∃ w0 w outs, World.init releasePlain = .ok w0 ∧ w0.run releasePlain demoClones = .ok (w, outs) ∧
    SpLife.Alone releasePlain ⟨[.key [6]], [.update [8]]⟩ (w.spState 4) := by
  obtain ⟨w0, w, outs, h0, h⟩ := demoClones_runs
  exact ⟨w0, w, outs, h0, h, C33_sp_states releasePlain (by decide) demoClones demoClones_legal w0 w outs h0 h 4⟩

/-- C33: two programs in which a variable has the same life leave, if they do not panic, `State`s in it
that cannot be told apart, however different the programs are otherwise. -/
theorem C33_same_life (E : Env) (hE : E.WF) (calls calls' : List Call) (hl : ∀ c ∈ calls, c.Legal)
    (hl' : ∀ c ∈ calls', c.Legal) (w0 w w' : World) (outs outs' : List Out)
    (h0 : World.init E = .ok w0) (h : w0.run E calls = .ok (w, outs))
    (h' : w0.run E calls' = .ok (w', outs')) (s s' : Nat)
    (same : (lives calls).state s = (lives calls').state s') (ops : List Op) :
    seen ((w.state s).run E ops) = seen ((w'.state s').run E ops) := by
  obtain ⟨t, ⟨p, hp, t0, hs, e0, e1⟩, ht⟩ := C33_states E hE calls hl w0 w outs h0 h s
  obtain ⟨t', ⟨p', hp', t0', hs', e0', e1'⟩, ht'⟩ := C33_states E hE calls' hl' w0 w' outs' h0 h' s'
  rw [same, hp'] at hp
  cases hp
  rw [e0'] at e0
  cases e0
  rw [same, e1'] at e1
  cases e1
  rw [ht, ht']

example : ∃ w0 w w' outs outs', World.init releasePlain = .ok w0 ∧
    w0.run releasePlain demoClones = .ok (w, outs) ∧ w0.run releasePlain demoAlone = .ok (w', outs') ∧
    seen ((w.state 1).run releasePlain [.update bytes150, .finalize]) =
      seen ((w'.state 9).run releasePlain [.update bytes150, .finalize]) := by
  obtain ⟨w0, w, outs, h0, h⟩ := demoClones_runs
  obtain ⟨w', outs', h'⟩ := completes demoAlone demoAlone_legal (by decide +kernel) (by decide +kernel) w0 h0
  exact ⟨w0, w, w', outs, outs', h0, h, h', C33_same_life releasePlain (by decide) demoClones demoAlone demoClones_legal
    demoAlone_legal w0 w w' outs outs' h0 h h' 1 9 rfl _⟩

/-- The lives of some of its variables. -/
example : (lives demoClones).state 0 =
    ⟨[.key [1]], [.update [1, 2], .update [7], .finalize, .setLastNode true]⟩ := rfl
example : (lives demoClones).state 1 = ⟨[.key [1]], [.update [1, 2], .update [5], .update [7]]⟩ := rfl
example : (lives demoClones).state 2 = ⟨[], [.update [7]]⟩ := rfl
example : (lives demoClones).params 1 = [.key [1]] := rfl
example : (lives demoClones).spState 4 = ⟨[.key [6]], [.update [8]]⟩ := rfl
example : (lives demoClones).hash 3 = .finalized ⟨[.key [1]], [.update [1, 2], .update [7]]⟩ := rfl

end Blake2s
