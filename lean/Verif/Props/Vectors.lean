import Verif.Vectors.PlainS
import Verif.Vectors.KeyedS
import Verif.Vectors.PlainSp
import Verif.Vectors.KeyedSp
import Verif.Props.Exact
/-!
# C43: the official test vectors
-/

namespace Blake2s

open Vectors (ramp bytesBE)

theorem ramp_length (n : Nat) : (ramp n).length = n := by
  unfold ramp
  rw [List.length_map, List.length_range]

/-- `blake2s(&input).to_hex()`, as in tests/vector_tests.rs:39. -/
def hashProgram (input : List U8) : List Call := [.blake2s input 0, .toHex 0]

/-- `Params::new().key(&key).to_state().update(&input).finalize().to_hex()`, as in
tests/vector_tests.rs:41-46. -/
def keyedProgram (key input : List U8) : List Call :=
  [.set 0 (.key key), .toState 0 0, .update 0 input, .finalize 0 0, .toHex 0]

/-- `blake2sp(&input).to_hex()`, as in tests/vector_tests.rs:66. -/
def spHashProgram (input : List U8) : List Call := [.blake2sp input 0, .toHex 0]

/-- `blake2sp::Params::new().key(&key).to_state().update(&input).finalize().to_hex()`, as in
tests/vector_tests.rs:68-73. -/
def spKeyedProgram (key input : List U8) : List Call :=
  [.spSet 0 (.key key), .spToState 0 0, .spUpdate 0 input, .spFinalize 0 0, .toHex 0]

/-- C43, tests/vector_tests.rs:31-56, for every platform and build profile: all 256 vectors of unkeyed
BLAKE2s. -/
theorem C43_blake2s (E : Env) (hE : E.WF) (n : Nat) (hn : n < 256) :
    program E (hashProgram (ramp n)) =
      .ok [.unit, .hex (hexOf (bytesBE 32 (Vectors.plainS.getD n 0)))] := by
  rw [C34_exact E hE _ (by
    intro c hc
    simp only [hashProgram, List.mem_cons, List.not_mem_nil, or_false] at hc
    rcases hc with rfl | rfl
    all_goals (refine ⟨?_, trivial⟩; simp [Call.slices, ramp_length])
    all_goals omega)]
  rw [← Vectors.plainS_table hn, Fast.plainS_eq hn]
  generalize ramp n = m
  rfl

/-- C43: all 256 vectors of unkeyed BLAKE2sp. -/
theorem C43_blake2sp (E : Env) (hE : E.WF) (n : Nat) (hn : n < 256) :
    program E (spHashProgram (ramp n)) =
      .ok [.unit, .hex (hexOf (bytesBE 32 (Vectors.plainSp.getD n 0)))] := by
  rw [C34_exact E hE _ (by
    intro c hc
    simp only [spHashProgram, List.mem_cons, List.not_mem_nil, or_false] at hc
    rcases hc with rfl | rfl
    all_goals (refine ⟨?_, trivial⟩; simp [Call.slices, ramp_length])
    all_goals omega)]
  rw [← Vectors.plainSp_table hn, Fast.plainSp_eq hn]
  generalize ramp n = m
  rfl

example : program debugAvx2 (spHashProgram (ramp 200)) =
    .ok [.unit, .hex (hexOf (bytesBE 32 (Vectors.plainSp.getD 200 0)))] :=
  C43_blake2sp debugAvx2 (by decide) 200 (by decide)

/-- C43: all 256 vectors of keyed BLAKE2s. -/
theorem C43_blake2s_keyed (E : Env) (hE : E.WF) (n : Nat) (hn : n < 256) :
    program E (keyedProgram (ramp 32) (ramp n)) =
      .ok [.unit, .unit, .unit, .unit, .hex (hexOf (bytesBE 32 (Vectors.keyedS.getD n 0)))] := by
  rw [C34_exact E hE _ (by
    intro c hc
    simp only [keyedProgram, List.mem_cons, List.not_mem_nil, or_false] at hc
    rcases hc with rfl | rfl | rfl | rfl | rfl
    all_goals (refine ⟨?_, trivial⟩; simp [Call.slices, ramp_length])
    all_goals omega)]
  rw [← Vectors.keyedS_table hn, Fast.keyedS_eq hn]
  have hk : (ramp 32).length ≤ 32 := by rw [ramp_length]; decide
  have hb : (Spec.keyBlock (ramp 32)).length = 64 := by decide +kernel
  have hl := ramp_length n
  generalize ramp n = m at hl
  have ha : ∀ {α : Type} (f : Nat → α) (i : Nat) (a : α), assign f i a i = a := fun _ _ _ => if_pos rfl
  simp only [keyedProgram, Exact.program, Exact.XWorld.run, Exact.XWorld.call, Exact.XWorld.setParams,
    Exact.XWorld.setState, Exact.XWorld.setHash, Exact.XWorld.init, ha, hk, if_true, bind,
    Except.bind, Setter.InRange, Setter.effect, pure, Except.pure]
  have ho : ∀ v, Abstract.AState.overflows (Exact.buildOf E).toBuild
      (Abstract.toState ⟨v, ramp 32, Abstract.newParams.lastNode⟩) m = false := by
    intro v
    unfold Abstract.AState.overflows
    have e : (Abstract.toState ⟨v, ramp 32, Abstract.newParams.lastNode⟩).counted = 64 + 0 := by rw [← hb]; rfl
    rw [e, hl, decide_eq_false (by omega), Bool.and_false]
  simp only [ho, Bool.false_eq_true, if_false, ha, ramp_length]
  rfl

example : program debugAvx2 (keyedProgram (ramp 32) (ramp 200)) =
    .ok [.unit, .unit, .unit, .unit, .hex (hexOf (bytesBE 32 (Vectors.keyedS.getD 200 0)))] :=
  C43_blake2s_keyed debugAvx2 (by decide) 200 (by decide)

/-- C43: all 256 vectors of keyed BLAKE2sp. -/
theorem C43_blake2sp_keyed (E : Env) (hE : E.WF) (n : Nat) (hn : n < 256) :
    program E (spKeyedProgram (ramp 32) (ramp n)) =
      .ok [.unit, .unit, .unit, .unit, .hex (hexOf (bytesBE 32 (Vectors.keyedSp.getD n 0)))] := by
  rw [C34_exact E hE _ (by
    intro c hc
    simp only [spKeyedProgram, List.mem_cons, List.not_mem_nil, or_false] at hc
    rcases hc with rfl | rfl | rfl | rfl | rfl
    all_goals (refine ⟨?_, trivial⟩; simp [Call.slices, ramp_length])
    all_goals omega)]
  rw [← Vectors.keyedSp_table hn, Fast.keyedSp_eq hn]
  have hk : (ramp 32).length ≤ 32 := by rw [ramp_length]; decide
  have hb : (Spec.keyBlock (ramp 32)).length = 64 := by decide +kernel
  have h0 : ramp 32 ≠ [] := by decide
  have hl := ramp_length n
  generalize ramp n = m at hl
  generalize ramp 32 = key at *
  have ha : ∀ {α : Type} (f : Nat → α) (i : Nat) (a : α), assign f i a i = a := fun _ _ _ => if_pos rfl
  have hr : Sp.rowsTaken 0 n = 0 := by
    unfold Sp.rowsTaken
    rw [if_neg (by simp)]
    omega
  have hu : Exact.SpState.update (Exact.buildOf E) ⟨32, key, [], 0⟩ m = .ok ⟨32, key, m, 0⟩ := by
    have e : Exact.SpState.rowsWith ⟨32, key, [], 0⟩ m = 0 := by
      show 0 + Sp.rowsTaken 0 m.length = 0
      rw [hl, hr]
    unfold Exact.SpState.update
    rw [e, if_neg (by rintro ⟨_, _, h⟩; cases h), if_neg (by rintro ⟨_, h⟩; rw [hb] at h; omega)]
    rfl
  have hd : Exact.SpState.digest (Exact.buildOf E) ⟨32, key, m, 0⟩ = .ok (Spec.Sp.hash 32 key m) := by
    unfold Exact.SpState.digest
    rw [if_neg, if_neg h0]
    · rfl
    · rintro ⟨_, i, h⟩
      have := Spec.Sp.leafInput_length_le i m
      have e : Exact.SpState.leafCount ⟨32, key, m, 0⟩ i =
          0 + (Spec.keyBlock key).length + (Spec.Sp.leafInput i m).length := rfl
      rw [e, hb] at h
      omega
  simp only [spKeyedProgram, Exact.program, Exact.XWorld.run, Exact.XWorld.call, Exact.XWorld.setSpParams,
    Exact.XWorld.setSpState, Exact.XWorld.setHash, Exact.XWorld.init, ha, hk, if_true, bind,
    Except.bind, Sp.Setter.InRange, Sp.Setter.effect, Exact.toSpState, pure, Except.pure]
  rw [show (Abstract.newSpParams.hashLength : U8) = 32 from rfl, hu]
  simp only [ha, hd]

example : program debugAvx2 (spKeyedProgram (ramp 32) (ramp 200)) =
    .ok [.unit, .unit, .unit, .unit, .hex (hexOf (bytesBE 32 (Vectors.keyedSp.getD 200 0)))] :=
  C43_blake2sp_keyed debugAvx2 (by decide) 200 (by decide)

/-- The vector for three bytes, in full. -/
example : program debugAvx2 (hashProgram [0, 1, 2]) =
    .ok [.unit, .hex "e8f91c6ef232a041452ab0e149070cdd7dd1769e75b3a5921be37876c45c9900".toList] := by
  rw [show ([0, 1, 2] : List U8) = ramp 3 from rfl, C43_blake2s debugAvx2 (by decide) 3 (by decide)]
  decide +kernel

/-- A byte string literal. -/
def ascii (s : String) : List U8 := s.toList.map fun c => BitVec.ofNat 8 c.toNat

/-- `test_all_parameters`, src/test.rs:219-239. -/
def allParameters : List Call :=
  [.set 0 (.hashLength 18), .set 0 (.key (ascii "not the real key")), .set 0 (.key (ascii "bar")),
   .set 0 (.salt (ascii "bazbazba")), .set 0 (.personal (ascii "bing bin")), .set 0 (.fanout 2),
   .set 0 (.maxDepth 3), .set 0 (.maxLeafLength 0x04050607),
   .set 0 (.nodeOffset (BitVec.ofNat 64 (2 ^ 48 - 1))), .set 0 (.nodeDepth 16),
   .set 0 (.innerHashLength 17), .toState 0 0, .setLastNode 0 true, .update 0 (ascii "foo"),
   .finalize 0 0, .toHex 0]

/-- `test_all_parameters_blake2sp`, src/test.rs:241-252. -/
def allParametersSp : List Call :=
  [.spSet 0 (.hashLength 18), .spSet 0 (.key (ascii "not the real key")), .spSet 0 (.key (ascii "bar")),
   .spToState 0 0, .spUpdate 0 (ascii "foo"), .spFinalize 0 0, .toHex 0]

/-- C43: `test_all_parameters`, which uses every parameter, passes on every platform. -/
theorem C43_all_parameters (E : Env) (hE : E.WF) :
    program E allParameters = .ok (List.replicate 15 .unit ++
      [.hex "0d9841e93b8f1d4c0666da56e2bae569c13b".toList]) := by
  rw [C34_exact E hE _ (by
    intro c hc
    simp only [allParameters, List.mem_cons, List.not_mem_nil, or_false] at hc
    rcases hc with rfl | rfl | rfl | rfl | rfl | rfl | rfl | rfl | rfl | rfl | rfl | rfl | rfl | rfl | rfl | rfl
    all_goals exact ⟨by decide +kernel, trivial⟩)]
  generalize Exact.buildOf E = b
  obtain ⟨⟨o, d⟩, v⟩ := b
  revert o d v
  decide +kernel

/-- C43: `test_all_parameters_blake2sp` passes on every platform. -/
theorem C43_all_parameters_sp (E : Env) (hE : E.WF) :
    program E allParametersSp = .ok (List.replicate 6 .unit ++
      [.hex "947d4c671e2794f5e1a57daeca97bb46ed66".toList]) := by
  rw [C34_exact E hE _ (by
    intro c hc
    simp only [allParametersSp, List.mem_cons, List.not_mem_nil, or_false] at hc
    rcases hc with rfl | rfl | rfl | rfl | rfl | rfl | rfl
    all_goals exact ⟨by decide +kernel, trivial⟩)]
  generalize Exact.buildOf E = b
  obtain ⟨⟨o, d⟩, v⟩ := b
  revert o d v
  decide +kernel

end Blake2s
