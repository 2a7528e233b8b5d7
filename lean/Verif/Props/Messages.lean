import Verif.Proofs.SaysLow
import Verif.Proofs.SpSame
import Verif.Props.Program
import Verif.Props.Sp
/-!
# C51: panic messages

`leakage E calls` (Verif/Model/Leak.lean) contains an event `panic m` if the program panics with the message `m`;
`messages` picks these out, and `Fault.Says` (Verif/Messages.lean) lists what may be said about a fault.
-/

namespace Blake2s

theorem panics_speak {α : Type} {m : Tr α} (h : Says m) {f : Fault} (e : m.1 = .error f)
    (hf : f.isPanic = true) : ∃ t s, m.2 = t ++ [.panic s] ∧ messages t = [] ∧ f.Says s := by
  obtain ⟨r, t⟩ := m
  have e : r = .error f := e
  subst e
  have h : if f.isPanic then _ else _ := h
  rwa [if_pos hf] at h

/-- C51: whatever a program does, either it ends normally and there is no panic message, or it panics and the last
thing it does is to say one thing, of the form that belongs to the fault. -/
theorem C51_panics_speak (E : Env) (hE : E.WF) (calls : List Call) (hl : ∀ c ∈ calls, c.Legal) :
    ((∃ outs, program E calls = .ok outs) ∧ messages (leakage E calls) = []) ∨
    (∃ f t m, program E calls = .error f ∧ leakage E calls = t ++ [.panic m] ∧ messages t = [] ∧ f.Says m ∧
      (f = .assertFailed ∨ f = .overflow ∨ f = .debugAssertFailed)) := by
  have hs := says_program E calls
  have fail : ∀ f, program E calls = .error f → f.isPanic = true →
      ∃ t m, leakage E calls = t ++ [.panic m] ∧ messages t = [] ∧ f.Says m := by
    intro f e hf
    rw [← programT_fst] at e
    exact panics_speak hs e hf
  rcases C35_program E hE calls hl with ⟨o, e⟩ | e | ⟨-, e⟩ | ⟨-, e⟩
  · exact .inl ⟨⟨o, e⟩, hs.ok (by rw [programT_fst]; exact e)⟩
  · obtain ⟨t, m, h⟩ := fail _ e rfl
    exact .inr ⟨_, t, m, e, h.1, h.2.1, h.2.2, .inl rfl⟩
  · obtain ⟨t, m, h⟩ := fail _ e rfl
    exact .inr ⟨_, t, m, e, h.1, h.2.1, h.2.2, .inr (.inl rfl)⟩
  · obtain ⟨t, m, h⟩ := fail _ e rfl
    exact .inr ⟨_, t, m, e, h.1, h.2.1, h.2.2, .inr (.inr rfl)⟩

/-- A program that ends normally, and says nothing. -/
example : messages (leakage releasePlain demo) = [] := by
  obtain ⟨outs, e⟩ := demo_completes
  rcases C51_panics_speak releasePlain (by decide) demo demo_legal with ⟨_, h⟩ | ⟨f, _, _, h, _⟩
  · exact h
  · rw [e] at h; cases h

/-- C51: two programs that differ only in bytes of messages, keys, salts, personalisations or strings compared with
digests print the same panic messages, also if they print digests. -/
theorem C51_no_secrets (E : Env) (calls calls' : List Call)
    (hs : calls'.map Call.shape = calls.map Call.shape) :
    messages (leakage E calls') = messages (leakage E calls) := (programT_mlow E hs).1.symm

/-- C51: what the setters of BLAKE2s parameters say, for every argument: nothing if it is in range, and otherwise
which argument is bad and its length or value. -/
theorem C51_setters (p : Params) (c : Setter) : messages (p.setT c).2 = c.complaint := by
  by_cases h : c.InRange
  · rw [(p.says_set c).ok (by rw [Params.setT_fst]; exact set_pos p h)]
    cases c with
    | maxDepth n => exact (if_neg (by intro h0; exact h (BitVec.eq_of_toNat_eq h0))).symm
    | fanout | maxLeafLength | nodeDepth | lastNode => rfl
    | _ => exact (if_pos h).symm
  · cases c with
    | hashLength n =>
      rw [show (Setter.hashLength n).complaint = ["Bad hash length: " ++ toString n] from if_neg h]
      refine (messages_after (says_testAll _) (testAll_fst _)).trans (messages_assert ?_)
      simpa [OUTBYTES, Setter.InRange] using h
    | key k =>
      rw [show (Setter.key k).complaint = ["Bad key length: " ++ toString k.length] from if_neg h]
      exact messages_assert (by simpa [KEYBYTES, Setter.InRange] using h)
    | salt k =>
      rw [show (Setter.salt k).complaint = ["Bad salt length: " ++ toString k.length] from if_neg h]
      exact messages_assert (by simpa [SALTBYTES, Setter.InRange] using h)
    | personal k =>
      rw [show (Setter.personal k).complaint = ["Bad personalization length: " ++ toString k.length] from if_neg h]
      exact messages_assert (by simpa [PERSONALBYTES, Setter.InRange] using h)
    | maxDepth n =>
      have h : n = 0 := by simpa [Setter.InRange] using h
      subst h
      rfl
    | nodeOffset n =>
      rw [show (Setter.nodeOffset n).complaint = ["Bad node offset: " ++ toString n.toNat] from if_neg h]
      exact messages_assert (by simpa [Setter.InRange] using h)
    | innerHashLength n =>
      rw [show (Setter.innerHashLength n).complaint = ["Bad inner hash length: " ++ toString n] from if_neg h]
      exact messages_assert (by simpa [OUTBYTES, Setter.InRange] using h)
    | fanout | maxLeafLength | nodeDepth | lastNode => exact absurd trivial h

example : messages (keyedParams.setT (.salt [1, 2, 3])).2 = [] ∧
    messages (keyedParams.setT (.salt [1, 2, 3, 4, 5, 6, 7, 8, 9])).2 = ["Bad salt length: 9"] ∧
    messages (keyedParams.setT (.hashLength 0)).2 = ["Bad hash length: 0"] :=
  ⟨C51_setters _ _, C51_setters _ _, C51_setters _ _⟩

/-- C51 for the setters of BLAKE2sp parameters. -/
theorem C51_setters_blake2sp (p : Sp.Params) (c : Sp.Setter) : messages (p.setT c).2 = c.complaint := by
  cases c with
  | hashLength n =>
    refine (messages_after (says_testAll _) (testAll_fst _)).trans ?_
    by_cases h : 1 ≤ n ∧ n ≤ 32
    · rw [messages_assert_ok (by simpa [OUTBYTES] using h)]
      exact (if_pos h).symm
    · rw [messages_assert (by simpa [OUTBYTES] using h)]
      exact (if_neg h).symm
  | key k =>
    by_cases h : k.length ≤ 32
    · refine (messages_assert_ok (by simpa [KEYBYTES] using h)).trans ?_
      rw [show (Sp.Setter.key k).complaint = [] from if_pos h]
      have e : (copyFromSliceT (Vector.replicate 32 (0 : U8)) 0 k.length k).1
          = .ok _ := dif_pos ⟨Nat.zero_le _, h, rfl⟩
      exact messages_after (says_copyFromSliceT _ _ _ _) e
    · refine (messages_assert (by simpa [KEYBYTES] using h)).trans ?_
      exact (if_neg h).symm

example : messages (Sp.keyedParams.setT (.hashLength 33)).2 = ["Bad hash length: 33"] ∧
    messages (Sp.keyedParams.setT (.hashLength 32)).2 = [] :=
  ⟨C51_setters_blake2sp _ _, C51_setters_blake2sp _ _⟩

/-- C51 in a program: after any calls that end normally, a program that calls a setter says what that setter
complains about, and nothing else. -/
theorem C51_setter_in_program (E : Env) (calls : List Call) (outs : List Out)
    (h : program E calls = .ok outs) (i : Nat) (c : Setter) :
    messages (leakage E (calls ++ [.set i c])) = c.complaint := by
  obtain ⟨w0, w, os, h0, hr, -⟩ := program_ok h
  rw [programT_last E _ calls h0 hr, ← C51_setters (w.params i) c]
  exact messages_bind_pure (m := (w.params i).setT c)

example : messages (leakage releasePlain (demo ++ [.set 4 (.innerHashLength 40)])) = ["Bad inner hash length: 40"] := by
  obtain ⟨outs, e⟩ := demo_completes
  exact C51_setter_in_program releasePlain demo outs e 4 _

/-- C51 in a program, for the setters of BLAKE2sp parameters. -/
theorem C51_sp_setter_in_program (E : Env) (calls : List Call) (outs : List Out)
    (h : program E calls = .ok outs) (i : Nat) (c : Sp.Setter) :
    messages (leakage E (calls ++ [.spSet i c])) = c.complaint := by
  obtain ⟨w0, w, os, h0, hr, -⟩ := program_ok h
  rw [programT_last E _ calls h0 hr, ← C51_setters_blake2sp (w.spParams i) c]
  exact messages_bind_pure (m := (w.spParams i).setT c)

example : messages (leakage releasePlain (demo ++ [.spSet 0 (.key bytes150)])) = ["Bad key length: 150"] := by
  obtain ⟨outs, e⟩ := demo_completes
  rw [C51_sp_setter_in_program releasePlain demo outs e 0 _]
  decide +kernel

/-- C51, `hash4_exact`: inputs of different lengths, of a length that is not a multiple of 64, or empty inputs are
answered with a message that names the wrong function (src/lib.rs:787). -/
theorem C51_hash4_exact (E : Env) (p : Params) (input : Vector (List U8) 4)
    (h : ¬ ((∀ i : Fin 4, input[i].length = input[0].length) ∧ input[0].length % 64 = 0 ∧ input[0].length ≠ 0)) :
    messages (hash4ExactT E p input).2 = ["invalid hash8_exact inputs"] := by
  refine (messages_after (says_testAll _) (testAll_fst _)).trans ?_
  refine (messages_after (says_testAll _) (testAll_fst _)).trans (messages_assert ?_)
  rw [Bool.eq_false_iff]
  intro c
  apply h
  simp only [List.all_cons, List.all_nil, id, Bool.and_true, Bool.and_eq_true, beq_iff_eq, bne_iff_ne, BLOCKBYTES] at c
  obtain ⟨⟨h1, h2, h3⟩, h4, h5⟩ := c
  refine ⟨fun i => ?_, h4, h5⟩
  match i with
  | 0 => rfl
  | 1 => exact h1
  | 2 => exact h2
  | 3 => exact h3

/-- C51, `hash8_exact`: the same message for the same mistakes. -/
theorem C51_hash8_exact (E : Env) (p : Params) (input : Vector (List U8) 8)
    (h : ¬ ((∀ i : Fin 8, input[i].length = input[0].length) ∧ input[0].length % 64 = 0 ∧ input[0].length ≠ 0)) :
    messages (hash8ExactT E p input).2 = ["invalid hash8_exact inputs"] := by
  refine (messages_after (says_testAll _) (testAll_fst _)).trans ?_
  refine (messages_after (says_testAll _) (testAll_fst _)).trans (messages_assert ?_)
  rw [Bool.eq_false_iff]
  intro c
  apply h
  simp only [List.all_cons, List.all_nil, id, Bool.and_true, Bool.and_eq_true, beq_iff_eq, bne_iff_ne, BLOCKBYTES] at c
  obtain ⟨⟨h1, h2, h3, h6, h7, h8, h9⟩, h4, h5⟩ := c
  refine ⟨fun i => ?_, h4, h5⟩
  match i with
  | 0 => rfl
  | 1 => exact h1
  | 2 => exact h2
  | 3 => exact h3
  | 4 => exact h6
  | 5 => exact h7
  | 6 => exact h8
  | 7 => exact h9

/-- C51, `hash8`: of the parameters with a key, the message quotes the key length of the first. -/
theorem C51_hash8 (E : Env) (p : Vector Params 8) (input : Vector (List U8) 8) (i : Fin 8)
    (hi : p[i].keyLength ≠ 0) (h : ∀ j : Fin 8, j < i → p[j].keyLength = 0) :
    messages (hash8T E p input).2 =
      ["assertion failed: `(left == right)`\n  left: `0`,\n right: `" ++ toString p[i].keyLength.toNat ++ "`"] := by
  unfold hash8T
  have ok : ∀ j : Fin 8, j < i → decide (p[j].keyLength = 0) = true := fun j hj => decide_eq_true (h j hj)
  have no : decide (p[i].keyLength = 0) = false := decide_eq_false hi
  clear hi h
  match i, ok, no with
  | 0, ok, no =>
    exact messages_assert no
  | 1, ok, no =>
    refine (messages_assert_ok (ok 0 (by decide))).trans ?_
    exact messages_assert no
  | 2, ok, no =>
    refine (messages_assert_ok (ok 0 (by decide))).trans ?_
    refine (messages_assert_ok (ok 1 (by decide))).trans ?_
    exact messages_assert no
  | 3, ok, no =>
    refine (messages_assert_ok (ok 0 (by decide))).trans ?_
    refine (messages_assert_ok (ok 1 (by decide))).trans ?_
    refine (messages_assert_ok (ok 2 (by decide))).trans ?_
    exact messages_assert no
  | 4, ok, no =>
    refine (messages_assert_ok (ok 0 (by decide))).trans ?_
    refine (messages_assert_ok (ok 1 (by decide))).trans ?_
    refine (messages_assert_ok (ok 2 (by decide))).trans ?_
    refine (messages_assert_ok (ok 3 (by decide))).trans ?_
    exact messages_assert no
  | 5, ok, no =>
    refine (messages_assert_ok (ok 0 (by decide))).trans ?_
    refine (messages_assert_ok (ok 1 (by decide))).trans ?_
    refine (messages_assert_ok (ok 2 (by decide))).trans ?_
    refine (messages_assert_ok (ok 3 (by decide))).trans ?_
    refine (messages_assert_ok (ok 4 (by decide))).trans ?_
    exact messages_assert no
  | 6, ok, no =>
    refine (messages_assert_ok (ok 0 (by decide))).trans ?_
    refine (messages_assert_ok (ok 1 (by decide))).trans ?_
    refine (messages_assert_ok (ok 2 (by decide))).trans ?_
    refine (messages_assert_ok (ok 3 (by decide))).trans ?_
    refine (messages_assert_ok (ok 4 (by decide))).trans ?_
    refine (messages_assert_ok (ok 5 (by decide))).trans ?_
    exact messages_assert no
  | 7, ok, no =>
    refine (messages_assert_ok (ok 0 (by decide))).trans ?_
    refine (messages_assert_ok (ok 1 (by decide))).trans ?_
    refine (messages_assert_ok (ok 2 (by decide))).trans ?_
    refine (messages_assert_ok (ok 3 (by decide))).trans ?_
    refine (messages_assert_ok (ok 4 (by decide))).trans ?_
    refine (messages_assert_ok (ok 5 (by decide))).trans ?_
    refine (messages_assert_ok (ok 6 (by decide))).trans ?_
    exact messages_assert no

/-- C51, keyed BLAKE2sp in a debug build (C30): whatever the key and the history, an update that does not fit into the
buffer panics, and says that 64 bytes, which are the key block, are in a buffer that should be empty. -/
theorem C51_keyed_blake2sp (E : Env) (hE : E.WF) (hd : E.debugAssertions = true) (p : Sp.Params) (hp : p.Accepted)
    (hk : p.keyLength ≠ 0) (before : List Sp.Op) (s : Sp.State) (hs : Sp.Reaches E p before s) (input : List U8)
    (hb : ¬ Sp.Buffered (Sp.fed before).length input.length) :
    s.update E input = .error .debugAssertFailed ∧
      messages (s.updateT E input).2 = ["assertion failed: `(left == right)`\n  left: `0`,\n right: `64`"] := by
  have v := hp.valid
  have a := hs.absN hE v
  have h0 := hs.rows_zero hE v hd hk
  exact ⟨Sp.Abs.update_panics hd v hk ⟨_, a, fun _ => h0⟩ input hb,
    (Sp.Abs.update_fails hd v hk ⟨_, a, fun _ => h0⟩ input hb).2⟩

/-- A keyed BLAKE2sp state that has been fed 300 bytes, and an update with 1500 more. -/
example : ∃ s, Sp.Reaches debugAvx2 Sp.keyedParams Sp.shortOps s ∧
    messages (s.updateT debugAvx2 bytes1500).2 =
      ["assertion failed: `(left == right)`\n  left: `0`,\n right: `64`"] := by
  obtain ⟨s, hs⟩ := Sp.reaches_shortOps debugAvx2 (by decide)
  exact ⟨s, hs, (C51_keyed_blake2sp debugAvx2 (by decide) rfl _ Sp.keyedParams_accepted (by decide) _ s hs bytes1500
    (by rw [Sp.length_shortOps, length1500]; decide)).2⟩

/-! ## Cases that meet the hypotheses -/

/-- A key that is too long; the message does not depend on its bytes. -/
example : messages (leakage releasePlain [.blake2s [1] 0, .set 0 (.key (List.replicate 33 7))]) =
    ["Bad key length: 33"] := by decide +kernel

/-- Two programs of the same shape with different keys, which print a digest and then panic. -/
example : messages (leakage releasePlain [.set 0 (.key [1]), .toState 0 0, .update 0 [5, 6], .finalize 0 0, .toHex 0, .set 0 (.salt [0, 1, 2, 3, 4, 5, 6, 7, 8])]) =
    messages (leakage releasePlain [.set 0 (.key [2]), .toState 0 0, .update 0 [7, 8], .finalize 0 0, .toHex 0, .set 0 (.salt [0, 1, 2, 3, 4, 5, 6, 7, 9])]) :=
  C51_no_secrets releasePlain _ _ rfl

/-- Four empty inputs. -/
example (E : Env) : messages (hash4ExactT E Params.new (Vector.replicate 4 [])).2 = ["invalid hash8_exact inputs"] :=
  C51_hash4_exact E _ _ (by decide)

/-- Eight inputs of one byte. -/
example (E : Env) : messages (hash8ExactT E Params.new (Vector.replicate 8 [1])).2 = ["invalid hash8_exact inputs"] :=
  C51_hash8_exact E _ _ (by decide)

/-- Eight parameter sets of which the third has a key of 5 bytes. -/
example (E : Env) (input : Vector (List U8) 8) :
    messages (hash8T E ((Vector.replicate 8 Params.new).set 2 { Params.new with keyLength := 5 }) input).2 =
      ["assertion failed: `(left == right)`\n  left: `0`,\n right: `5`"] :=
  C51_hash8 E _ _ 2 (by decide) (by decide)

end Blake2s
