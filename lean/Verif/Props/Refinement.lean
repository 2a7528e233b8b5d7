import Verif.Proofs.RefinePlain
import Verif.Props.Program
/-!
# C34: every program behaves as the abstract machine says

The machine is in `Verif/Abstract.lean`: parameters are the values last set, states are parameters and
the bytes fed, hashes are byte strings given by the mathematical functions of `Verif/Spec.lean`.
-/

namespace Blake2s

open Abstract (buildOf newParams)

/-- C34, for every program, every platform and every build profile: if the program runs to its end, so
does the abstract machine, and every output that the machine specifies is the actual output; if the
program panics, so does the machine, or the machine had said that it may.

Missing from the full property: the machine follows the code where the code departs from its
documentation, and leaves some things unspecified; see the head of `Verif/Abstract.lean`. That this is
needed is shown by `C34_ideal_false`. For programs without keys nothing is missing, see `C34_unkeyed`. -/
theorem C34_refinement_partial (E : Env) (hE : E.WF) (calls : List Call) (hl : ∀ c ∈ calls, c.Legal) :
    (∀ outs, program E calls = .ok outs →
      (Abstract.program (buildOf E) calls).panics = false ∧
        Abstract.Allows (Abstract.program (buildOf E) calls).outs outs) ∧
    (∀ f, program E calls = .error f →
      (Abstract.program (buildOf E) calls).panics = true ∨
        (Abstract.program (buildOf E) calls).sure = false) :=
  Abstract.program_sim hE calls hl

/-- C34 for programs that set no key: the outputs are exactly those of the abstract machine, and the
program panics exactly if the machine does. With overflow checks on, fewer than 2^64 bytes may be passed
in all. (`Plain` also excludes printing a `blake2sp::State`.) -/
theorem C34_unkeyed (E : Env) (hE : E.WF) (calls : List Call) (hl : ∀ c ∈ calls, c.Legal)
    (hp : ∀ c ∈ calls, Abstract.Plain c)
    (hf : E.overflowChecks = true → Abstract.bytesPassed calls < 2 ^ 64) :
    (∃ outs, program E calls = .ok outs ∧ (Abstract.program (buildOf E) calls).panics = false ∧
      (Abstract.program (buildOf E) calls).outs = outs.map some) ∨
    (∃ f, program E calls = .error f ∧ (Abstract.program (buildOf E) calls).panics = true) := by
  obtain ⟨h1, h2⟩ := C34_refinement_partial E hE calls hl
  obtain ⟨hs, os, ho⟩ := Abstract.clean_run (b := buildOf E) calls hp Abstract.init_clean (by
    intro q
    have := hf q
    omega)
  cases h : program E calls with
  | ok outs =>
    obtain ⟨q1, q2⟩ := h1 outs h
    refine .inl ⟨outs, rfl, q1, ?_⟩
    have e : (Abstract.program (buildOf E) calls).outs = os.map some := ho
    rw [e] at q2 ⊢
    rw [Abstract.allows_map q2]
  | error f =>
    refine .inr ⟨f, rfl, ?_⟩
    rcases h2 f h with q | q
    · exact q
    · rw [show (Abstract.program (buildOf E) calls).sure = true from hs] at q
      cases q

/-- The machine that C34 literally asks for, in which `count` is the number of bytes fed, is not what
the code implements: here is a program, its (only) output, and what the output should have been. -/
theorem C34_ideal_false (E : Env) (hE : E.WF) :
    ∃ n, program E [.set 0 (.key [1]), .toState 0 0, .count 0] = .ok [.unit, .unit, .count n] ∧
      n = 64 ∧ n ≠ 0 := by
  have hl : ∀ c ∈ ([.set 0 (.key [1]), .toState 0 0, .count 0] : List Call), c.Legal := by
    intro c hc
    simp only [List.mem_cons, List.not_mem_nil, or_false] at hc
    rcases hc with rfl | rfl | rfl <;> exact ⟨by simp [Call.slices], trivial⟩
  obtain ⟨h1, h2⟩ := C34_refinement_partial E hE _ hl
  cases h : program E [.set 0 (.key [1]), .toState 0 0, .count 0] with
  | ok outs =>
    obtain ⟨-, q⟩ := h1 outs h
    have e : (Abstract.program (buildOf E) [.set 0 (.key [1]), .toState 0 0, .count 0]).outs =
        [some .unit, some .unit, some (.count 64)] := rfl
    rw [e] at q
    have := Abstract.allows_map (os := [.unit, .unit, .count 64]) q
    exact ⟨64, by rw [← this], rfl, by decide⟩
  | error f =>
    rcases h2 f h with q | q
    · cases q
    · cases q

/-- The demonstration program of `Props/Program.lean` uses keys and every part of the API. -/
example : ∃ outs, program debugAvx2 demo = .ok outs ∧
    Abstract.Allows (Abstract.program (buildOf debugAvx2) demo).outs outs := by
  obtain ⟨h1, h2⟩ := C34_refinement_partial debugAvx2 (by decide) demo demo_legal
  cases h : program debugAvx2 demo with
  | ok outs => exact ⟨outs, rfl, (h1 outs h).2⟩
  | error f =>
    rcases h2 f h with q | q
    · exact absurd q (by decide +kernel)
    · exact absurd q (by decide +kernel)

/-- An unkeyed program with an eight-way update: its outputs are computed by the machine alone. -/
def demoPlain : List Call :=
  [.update8 #v[0, 1, 2, 3, 4, 5, 6, 7] (Vector.replicate 8 [1, 2, 3]), .cloneState 9 4, .update 4 [7],
   .count 9, .finalize 9 0, .asBytes 0, .spUpdate 0 [5], .spFinalize 0 1, .asBytes 1]

seal Spec.blake2s Spec.Sp.blake2sp Spec.hash Spec.Sp.hash in
example (E : Env) (hE : E.WF) : program E demoPlain =
    .ok [.unit, .unit, .unit, .count 3, .unit, .bytes (Spec.hash newParams.values [] false [1, 2, 3]), .unit, .unit,
      .bytes (Spec.Sp.hash 32 [] [5])] := by
  have hm : Abstract.program (buildOf E) demoPlain =
      ⟨[.unit, .unit, .unit, .count 3, .unit, .bytes (Spec.hash newParams.values [] false [1, 2, 3]),
        .unit, .unit, .bytes (Spec.Sp.hash 32 [] [5])].map some, false, true⟩ := by
    unfold buildOf
    cases E.overflowChecks <;> rfl
  rcases C34_unkeyed E hE demoPlain (by
        intro c hc
        simp only [demoPlain, List.mem_cons, List.not_mem_nil, or_false] at hc
        rcases hc with rfl | rfl | rfl | rfl | rfl | rfl | rfl | rfl | rfl
        all_goals (refine ⟨?_, ?_⟩)
        all_goals first | trivial | decide | simp [Call.slices])
      (by
        intro c hc
        simp only [demoPlain, List.mem_cons, List.not_mem_nil, or_false] at hc
        rcases hc with rfl | rfl | rfl | rfl | rfl | rfl | rfl | rfl | rfl <;> trivial)
      (fun _ => by decide) with ⟨outs, e, _, h⟩ | ⟨f, _, h⟩
  · rw [hm] at h
    rw [e, ← List.map_inj_right (fun _ _ => Option.some.inj) |>.mp h]
  · rw [hm] at h; cases h

end Blake2s
