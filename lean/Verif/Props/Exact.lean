import Verif.Proofs.RefineExact
import Verif.Proofs.Profile
import Verif.Props.Program
import Verif.Props.Sp
/-!
# C34 exactly, and C42: the build profile
-/

namespace Blake2s

open Exact (buildOf)

/-- C34, nothing left open: what any program outputs, or which kind of panic ends it, on any platform and
in any build profile, is what the machine of `Verif/Exact.lean` says. -/
theorem C34_exact (E : Env) (hE : E.WF) (calls : List Call) (hl : ∀ c ∈ calls, c.Legal) :
    program E calls = Exact.program (buildOf E) calls :=
  Exact.program_eq hE calls hl

/-- A message of 1100 bytes. -/
def zeros : List U8 := List.replicate 1100 0

theorem zeros_length : zeros.length = 1100 := List.length_replicate

/-- A keyed `blake2sp` state that is fed too much for its buffer, and printed. -/
def demoKeyedSp : List Call :=
  [.spSet 0 (.key [1]), .spSet 0 (.hashLength 16), .spToState 0 0, .spUpdate 0 zeros,
   .spFinalize 0 0, .asBytes 0, .spCount 0, .spDebugState 0]

theorem demoKeyedSp_legal : ∀ c ∈ demoKeyedSp, c.Legal := by
  intro c hc
  simp only [demoKeyedSp, List.mem_cons, List.not_mem_nil, or_false] at hc
  rcases hc with rfl | rfl | rfl | rfl | rfl | rfl | rfl | rfl
  all_goals (refine ⟨?_, ?_⟩)
  all_goals first | simp [Call.slices, zeros_length] | trivial

/-- In a debug build it panics in the call of `update`. -/
example : program debugAvx2 demoKeyedSp = .error .debugAssertFailed := by
  rw [C34_exact debugAvx2 (by decide) _ demoKeyedSp_legal]
  decide +kernel

/-- The state after its `update`. -/
def demoState : Exact.SpState := ⟨16, [1], zeros, 1⟩

/-- The `Debug` text of the state after that. -/
def demoText : String :=
  "State { count: 1612, root: State { count: 0, hash_length: 16, last_node: true }, " ++
  "leaf0: State { count: 128, hash_length: 32, last_node: false }, " ++
  "leaf1: State { count: 128, hash_length: 32, last_node: false }, " ++
  "leaf2: State { count: 128, hash_length: 32, last_node: false }, " ++
  "leaf3: State { count: 128, hash_length: 32, last_node: false } }"

/-- In a release build it returns the hash of C30, for one row passed on, and prints these counts. -/
example : program Sp.plain demoKeyedSp =
    .ok [.unit, .unit, .unit, .unit, .unit,
      .bytes (Sp.keyedHash 16 [1] 1 zeros), .count 1612, .text demoText.toList] := by
  rw [C34_exact Sp.plain (by decide) _ demoKeyedSp_legal]
  have hu : Exact.SpState.update (buildOf Sp.plain) ⟨16, [1], [], 0⟩ zeros = .ok demoState := by
    unfold Exact.SpState.update
    rw [if_neg (fun h => by cases h.1), if_neg (fun h => by cases h.1)]
    unfold Exact.SpState.rowsWith
    rw [zeros_length]
    rfl
  have hd : Exact.SpState.digest (buildOf Sp.plain) demoState =
      .ok (Sp.keyedHash 16 [1] 1 zeros) := by
    unfold Exact.SpState.digest
    rw [if_neg (fun h => by cases h.1), if_neg (by decide)]
    rfl
  have hc : Exact.SpState.count (buildOf Sp.plain) demoState = .ok 1612 := by
    decide +kernel
  have ht : Exact.SpState.debug (buildOf Sp.plain) demoState = .ok demoText := by
    decide +kernel
  have ha : ∀ {α : Type} (f : Nat → α) (i : Nat) (a : α), assign f i a i = a := fun _ _ _ => if_pos rfl
  have h1 : ([1] : List U8).length ≤ 32 := by decide
  have h2 : 1 ≤ 16 ∧ 16 ≤ 32 := by decide
  simp only [Exact.program, demoKeyedSp, Exact.XWorld.run, Exact.XWorld.call, Exact.XWorld.setSpParams,
    Exact.XWorld.setSpState, Exact.XWorld.setHash, Exact.XWorld.init, ha, h1, h2, if_true, bind,
    Except.bind, Sp.Setter.InRange, Sp.Setter.effect, Exact.toSpState, pure, Except.pure, and_self]
  rw [show (16#8 : U8) = 16 from rfl, hu]
  simp only [ha, hd, hc, ht]

/-- C42: let two environments use the same implementation of the eight-way functions, and let the second
make no run-time check that the first does not make. Every program does the same in both, except that it
may be ended in the first by a check which the second does not make. -/
theorem C42_profiles (E E' : Env) (hE : E.WF) (hE' : E'.WF) (hv : E.usesAvx2 = E'.usesAvx2)
    (ho : E'.overflowChecks = true → E.overflowChecks = true)
    (hd : E'.debugAssertions = true → E.debugAssertions = true)
    (calls : List Call) (hl : ∀ c ∈ calls, c.Legal) :
    program E calls = program E' calls ∨
    (program E calls = .error .overflow ∧ E.overflowChecks = true ∧ E'.overflowChecks = false) ∨
    (program E calls = .error .debugAssertFailed ∧
      E.debugAssertions = true ∧ E'.debugAssertions = false) := by
  rw [C34_exact E hE calls hl, C34_exact E' hE' calls hl]
  exact Exact.program_fewer (b := buildOf E) (b' := buildOf E') ⟨hv, ho, hd⟩ calls

/-- The demonstration program outputs the same in a debug build and in a release build. -/
example : program { debugAvx2 with overflowChecks := false, debugAssertions := false } demo =
    program debugAvx2 demo := by
  rcases C42_profiles debugAvx2 { debugAvx2 with overflowChecks := false, debugAssertions := false }
    (by decide) (by decide) rfl (fun _ => rfl) (fun _ => rfl) demo demo_legal with h | ⟨h, _⟩ | ⟨h, _⟩
  · exact h.symm
  · rw [C34_exact debugAvx2 (by decide) _ demo_legal] at h
    exact absurd h (by decide +kernel)
  · rw [C34_exact debugAvx2 (by decide) _ demo_legal] at h
    exact absurd h (by decide +kernel)

/-- The exception of C42 occurs. -/
example : program { debugAvx2 with debugAssertions := false } demoKeyedSp ≠
    program debugAvx2 demoKeyedSp := by
  rw [C34_exact debugAvx2 (by decide) _ demoKeyedSp_legal,
    C34_exact { debugAvx2 with debugAssertions := false } (by decide) _ demoKeyedSp_legal]
  intro h
  have h1 : Exact.program (buildOf debugAvx2) demoKeyedSp = .error .debugAssertFailed := by
    decide +kernel
  rw [h1] at h
  exact absurd h (by decide +kernel)

end Blake2s
