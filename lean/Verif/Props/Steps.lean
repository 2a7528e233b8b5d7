import Verif.Proofs.StepsWorld
import Verif.Proofs.Used
import Verif.Props.Work
/-!
# The number of steps is linear (C61)

`leakage E calls` (Verif/Model/Leak.lean) lists what a program makes the crate do: every test and its outcome,
every computed position used to access memory, every addition or subtraction of `usize`, every call of a
compression function (the portable one with all its table lookups), every number printed. Its length is the
number of steps. What happens between two entries of the list is of bounded size: straight-line code, a copy
within a buffer of at most 1024 bytes, one vector compression of at most eight blocks, or a pass over at most 64
bytes (zeroing a buffer, comparing a digest).

C50 counts compressions exactly. This is about everything else: that no input and no order of calls makes the
library do more than a fixed amount of work for each call and each byte.
-/

namespace Blake2s

/-- **C61**, programs: whatever a program does with the crate, on every platform, in every build profile, whether
it ends normally or by a panic, the number of steps is at most a constant, another constant for each call and
three for each byte passed. -/
theorem C61_program (E : Env) (calls : List Call) :
    (leakage E calls).length ≤ 4861 + 16736 * calls.length + 3 * Abstract.bytesPassed calls := by
  have e : ((calls.flatMap Call.slices).map List.length).sum = Abstract.bytesPassed calls := by
    unfold Abstract.bytesPassed
    induction calls with
    | nil => rfl
    | cons c cs ih => rw [List.flatMap_cons, List.map_append, List.sum_append, ih, List.map_cons, List.sum_cons]
  rw [← e]
  exact (programT_ws E calls).1

/-- A program on a machine without vector instructions: a keyed state, 150 bytes, and a digest that is printed. -/
example : (leakage releasePlain [.set 0 (.key [1, 2, 3]), .toState 0 0, .update 0 bytes150, .finalize 0 1,
    .toHex 1]).length = 1152 ∧
    Abstract.bytesPassed [.set 0 (.key [1, 2, 3]), .toState 0 0, .update 0 bytes150, .finalize 0 1, .toHex 1] =
      153 := by
  decide +kernel

/-- **C61**, one call in the middle of any program: the bound depends on what it is passed, not on what happened
before. `w` is any assignment of contents to the variables, reachable or not. -/
theorem C61_call (E : Env) (w : World) (c : Call) :
    (w.callT E c).2.length ≤ 16736 + 3 * Abstract.bytesPassed [c] := by
  have e : Abstract.bytesPassed [c] = (c.slices.map List.length).sum := by
    simp only [Abstract.bytesPassed, List.map_cons, List.map_nil, List.sum_cons, List.sum_nil]
    omega
  rw [e]
  exact (World.ws_call E w c).1

example : ∃ w, World.init debugAvx2 = .ok w ∧ (w.callT debugAvx2 (.update 0 bytes150)).2.length = 33 := by
  refine ⟨_, rfl, ?_⟩
  decide +kernel

/-- **C61**, the calls that take input or compress, one by one, on any state at all: three steps per byte, and what
a call costs in itself. The bound for `finalize` does not depend on how much was hashed. -/
theorem C61_each (E : Env) (s : State) (t : Sp.State) (st : Vector State 8) (p : Params) (q : Sp.Params)
    (input : List U8) :
    (p.toStateT E).2.length ≤ 405 ∧
    (s.updateT E input).2.length ≤ 206 + 3 * input.length ∧
    (s.finalizeT E).2.length ≤ 163 ∧
    (blake2sT E input).2.length ≤ 774 + 3 * input.length ∧
    (finalize8T E st).2.length ≤ 1297 ∧
    (q.toStateT E).2.length ≤ 3682 ∧
    (t.updateT E input).2.length ≤ 2700 + 3 * input.length ∧
    (t.finalizeT E).2.length ≤ 10354 ∧
    (blake2spT E input).2.length ≤ 16736 + 3 * input.length :=
  ⟨(State.ws_withParams E p).1, (s.ws_update E input).1, (s.ws_finalize E).1, (ws_blake2s E input).1,
    (ws_finalize8 E st).1, (Sp.State.ws_withParams E q).1, (t.ws_update E input).1, (t.ws_finalize E).1,
    (ws_blake2sp E input).1⟩

/-- Portable compression of 150 bytes. -/
example : (blake2sT releasePlain bytes150).2.length = 513 := by decide +kernel

/-- **C61**, batches: the same three steps per byte of all inputs together. -/
theorem C61_batches (E : Env) (st : Vector State 8) (p : Params) (ps : Vector Params 8)
    (input : Vector (List U8) 8) (four : Vector (List U8) 4) :
    (update8T E st input).2.length ≤ 3128 + 3 * (input.toList.map List.length).sum ∧
    (hash8T E ps input).2.length ≤ 3094 + 3 * (input.toList.map List.length).sum ∧
    (hash8ExactT E p input).2.length ≤ 6205 + 3 * (input.toList.map List.length).sum ∧
    (hash4ExactT E p four).2.length ≤ 3105 + 3 * (four.toList.map List.length).sum := by
  rw [bytes8, bytes4]
  exact ⟨(ws_update8 E st input).1, (ws_hash8 E ps input).1, (ws_hash8Exact E p input).1, (ws_hash4Exact E p four).1⟩

/-- Eight inputs of 150 bytes. -/
example : (hash8T debugAvx2 (Vector.replicate 8 Params.new) (Vector.replicate 8 bytes150)).2.length = 306 := by
  decide +kernel

/-- **C61**, and not less than linear: hashing takes at least a step for every 64 bytes. -/
theorem C61_at_least (E : Env) (hE : E.WF) (input : List U8) (h : E.overflowChecks = true → input.length < 2 ^ 64) :
    input.length ≤ 64 * (blake2sT E input).2.length := by
  have ev : ∀ e ∈ (blake2sT E input).2, e.blocks ≤ 1 :=
    (ev_blake2s (P := fun e => e.blocks ≤ 1)
      ⟨fun _ => Nat.zero_le 1, fun _ => Nat.zero_le 1, fun _ => Nat.zero_le 1, fun _ => Nat.zero_le 1,
        fun _ => Nat.zero_le 1⟩ (Nat.le_refl 1) input).1
  have le : ∀ t : List Event, (∀ e ∈ t, e.blocks ≤ 1) → blocks t ≤ t.length := by
    intro t
    induction t with
    | nil => exact fun _ => Nat.le_refl 0
    | cons e t ih =>
      intro ht
      have h1 := ht e (.head _)
      have h2 := ih fun x hx => ht x (.tail _ hx)
      rw [show blocks (e :: t) = e.blocks + blocks t from rfl, List.length_cons]
      omega
  have hb := le _ ev
  rw [C50_one_shot E hE input h, blocksFor] at hb
  omega

example : 150 ≤ 64 * (blake2sT debugAvx2 bytes150).2.length := by
  have h := C61_at_least debugAvx2 (by decide) bytes150 (by rw [length150]; decide)
  rw [length150] at h
  exact h

end Blake2s
