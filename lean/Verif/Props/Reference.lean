import Verif.Proofs.Reference
import Verif.Props.Sp
/-!
# C41: the reference implementation of the crate's own test
-/

namespace Blake2s.Sp

/-- C41, what the crate's `test_buffering` checks for twenty inputs, for every input: the reference
implementation, which feeds eight `blake2s` states built with the tree parameters one block at a time and
a ninth with their hashes, returns the same `Hash` as `blake2sp`. -/
theorem C41_reference (E : Env) (hE : E.WF) (input : List U8)
    (h : E.overflowChecks = true → input.length < 2 ^ 64) :
    ∃ d, reference E input = .ok d ∧ blake2sp E input = .ok d := by
  have v := default_valid
  obtain ⟨s, e, a⟩ := Abs.new E hE Params.default v
  have hk : Params.default.keyLength ≠ 0 → False := fun h => h rfl
  have nb : ¬ Bad E Params.default ([] ++ input) := not_bad v h (fun h => (hk h).elim)
  obtain ⟨s1, e1, a1⟩ := (a.update v input (fun h => (hk h).elim)).elim nb
  obtain ⟨⟨_, d⟩, e2, -, hd⟩ := (a1.finalize v).elim nb
  obtain ⟨d', er, hr⟩ := reference_digest E hE input h
  refine ⟨d, ?_, ?_⟩
  · rw [er, hr.unique hd]
  · have e' : State.new E = .ok s := e
    unfold blake2sp
    simp only [e', bind, Except.bind, e1, e2]
    rfl

/-- C41, the second half of the test, for every way of cutting every input into pieces: a `State` fed the
pieces one after the other gives the hash of the reference implementation, and its `count` is the length
of the input. -/
theorem C41_pieces (E : Env) (hE : E.WF) (pieces : List (List U8))
    (h : pieces.flatten.length < 2 ^ 64) :
    ∃ s s' s'' d k, State.new E = .ok s ∧ s.run E (pieces.map Op.update) = .ok (s', []) ∧
      s'.getCount E = .ok k ∧ k.toNat = pieces.flatten.length ∧
      s'.finalize E = .ok (s'', d) ∧ reference E pieces.flatten = .ok d := by
  have v := default_valid
  have hp : Params.default.Accepted := ⟨[], rfl⟩
  have hk : Params.default.keyLength ≠ 0 → False := fun h => h rfl
  have hf : fed (pieces.map Op.update) = pieces.flatten := fed_chunks pieces
  have hs : Short Params.default 0 (pieces.map Op.update) := fun h => (hk h).elim
  obtain ⟨s, e, a⟩ := Abs.new E hE Params.default v
  have nb := not_bad_fed v (E := E) (ops := pieces.map Op.update) (by rw [hf]; exact fun _ => h) hs
  obtain ⟨x, hx, ax, dx⟩ := (run_ends v _ a hs).elim (by simpa using nb)
  have hx2 : x.2 = [] := by
    have := digests_chunks Params.default [] pieces [] x.2
    rw [List.append_nil] at this
    rw [this] at dx
    exact dx
  have hx' : s.run E (pieces.map Op.update) = .ok (x.1, []) := by rw [hx, ← hx2]
  obtain ⟨⟨s'', d⟩, e2, -, hd⟩ := (ax.finalize v).elim (by simpa using nb)
  obtain ⟨d', er, hr⟩ := reference_digest E hE pieces.flatten (fun _ => h)
  rw [List.nil_append, hf] at hd
  obtain ⟨k, ek, hkn⟩ := C29_count_partial E hE Params.default hp rfl _ x.1 ⟨s, [], e, hx'⟩ (by rw [hf]; exact h)
  refine ⟨s, x.1, s'', d, k, e, hx', ek, by rw [hkn, hf], e2, ?_⟩
  rw [er, hr.unique hd]

example : ∃ s s' s'' d k, State.new debugAvx2 = .ok s ∧
    s.run debugAvx2 ([bytes150, [], bytes1500].map Op.update) = .ok (s', []) ∧
    s'.getCount debugAvx2 = .ok k ∧ k.toNat = [bytes150, [], bytes1500].flatten.length ∧
    s'.finalize debugAvx2 = .ok (s'', d) ∧ reference debugAvx2 [bytes150, [], bytes1500].flatten = .ok d :=
  C41_pieces debugAvx2 (by decide) [bytes150, [], bytes1500] (by
    simp only [List.flatten_cons, List.flatten_nil, List.length_append, length150, length1500, List.length_nil]
    decide)

/-- The chunks of 130 bytes: two blocks and two bytes. -/
example : chunks (List.replicate 130 (3 : U8)) =
    [List.replicate 64 3, List.replicate 64 3, [3, 3]] := by decide +kernel

example : ∃ d, reference debugAvx2 (List.replicate 1500 7) = .ok d ∧
    blake2sp debugAvx2 (List.replicate 1500 7) = .ok d :=
  C41_reference debugAvx2 (by decide) _ (fun _ => by rw [List.length_replicate]; decide)

example : ([[1], List.replicate 1279 2] : List (List U8)).flatten.length < 2 ^ 64 := by
  simp only [List.flatten_cons, List.flatten_nil, List.length_append, List.length_replicate,
    List.length_nil, List.length_cons]
  decide

end Blake2s.Sp
