import Verif.Proofs.WorkSp
import Verif.Proofs.WorkExact
import Verif.Proofs.LeakWorld
import Verif.Props.Many
import Verif.Props.Sp
/-!
# Work (C50)

`blocks t` (Verif/Work.lean) is the number of 64-byte blocks that the compression function is applied to
in the course of the trace `t`; a step of the loop of a SIMD `hash4_exact` counts for four blocks, one of
`hash8_exact` for eight. `blocksFor n` is the number of blocks that `n` bytes make up, at least one.
-/

namespace Blake2s

/-- **C50**, histories of one state: without the trace, it is the model. -/
theorem C50_same_results (E : Env) (p : Params) (ops : List Op) :
    (historyT E p ops).1 = (p.toState E >>= fun s => s.run E ops) :=
  historyT_fst E p ops

example : (historyT debugAvx2 keyedParams someOps).1 =
    (keyedParams.toState debugAvx2 >>= fun s => s.run debugAvx2 someOps) :=
  C50_same_results _ _ _

/-- **C50**, histories of one state: creating it and calling its methods in any order compresses all blocks of
the key block and the input but the last, and one more block for each `finalize` call. How the input is cut into
`update` calls does not matter. -/
theorem C50_history (E : Env) (hE : E.WF) (p : Params) (hp : p.Accepted) (ops : List Op)
    (h : Fits E p (fed ops).length) :
    blocks (historyT E p ops).2 =
      blocksFor ((if p.keyLength = 0 then 0 else 64) + (fed ops).length) - 1 + finalizeCalls ops := by
  obtain ⟨s, s', hs, e, e', -⟩ := C04_finalize E hE p hp ops h
  have r : (historyT E p ops).1 = .ok (s', hs) := by
    rw [historyT_fst, e]; exact e'
  rw [historyT_post E p ops _ r, blocksFor_eq]
  rfl

/-- Key block and 300 bytes: six blocks, of which five are compressed, and one for `finalize`. -/
example : blocks (historyT debugAvx2 keyedParams someOps).2 = 6 := by
  have h := C50_history debugAvx2 (by decide) _ keyedParams_accepted someOps (fits_short _ _ (by
    rw [fed_someOps, List.length_append, length150]; decide))
  rw [fed_someOps, List.length_append, length150] at h
  exact h

/-- **C50**, one `update` call: on a state that has been fed `n` bytes (the key block included) it compresses the
blocks that become known not to be the last. -/
theorem C50_update (E : Env) (hE : E.WF) (p : Params) (hp : p.Accepted) (before : List Op) (s : State)
    (hs : Reaches E p before s) (input : List U8) (n : Nat)
    (hn : n = (if p.keyLength = 0 then 0 else 64) + (fed before).length)
    (h : Fits E p ((fed before).length + input.length)) :
    blocks (s.updateT E input).2 = blocksFor (n + input.length) - blocksFor n := by
  obtain ⟨s', e⟩ := (C35_update E hE p hp before s hs input).1 h
  rw [← State.updateT_fst] at e
  have := (State.updateT_post E s input hs.level s' e).2
  rw [blocksFor_eq, blocksFor_eq, hn]
  omega

example : ∃ s, Reaches debugAvx2 keyedParams someOps s ∧ blocks (s.updateT debugAvx2 bytes150).2 = 3 := by
  obtain ⟨s, hs⟩ := reaches_someOps debugAvx2 (by decide)
  have e : (fed someOps).length = 300 := by rw [fed_someOps, List.length_append, length150]
  have h := C50_update debugAvx2 (by decide) _ keyedParams_accepted _ s hs bytes150 364 (by rw [e]; decide)
    (fits_short _ _ (by rw [e, length150]; decide))
  rw [length150] at h
  exact ⟨s, hs, h⟩

/-- **C50**, `finalize`: one block. -/
theorem C50_finalize (E : Env) (hE : E.WF) (p : Params) (hp : p.Accepted) (before : List Op) (s : State)
    (hs : Reaches E p before s) : blocks (s.finalizeT E).2 = 1 := by
  obtain ⟨s', d, e, -⟩ := C04_no_disturbance E hE p hp before s hs []
  rw [← State.finalizeT_fst] at e
  exact (State.finalizeT_blocks E s _ e).1

example : ∃ s, Reaches debugAvx2 keyedParams someOps s ∧ blocks (s.finalizeT debugAvx2).2 = 1 := by
  obtain ⟨s, hs⟩ := reaches_someOps debugAvx2 (by decide)
  exact ⟨s, hs, C50_finalize debugAvx2 (by decide) _ keyedParams_accepted _ s hs⟩

/-- **C50**, the one-shot function. -/
theorem C50_one_shot (E : Env) (hE : E.WF) (input : List U8)
    (h : E.overflowChecks = true → input.length < 2 ^ 64) :
    blocks (blake2sT E input).2 = blocksFor input.length := by
  obtain ⟨d, e, -⟩ := C01_one_shot E hE input h
  rw [← blake2sT_fst] at e
  have := hashOneT_post E Params.default input d e
  rw [show (if Params.default.keyLength = 0 then 0 else 64) + input.length = input.length from
    Nat.zero_add _] at this
  exact this

example : blocks (blake2sT debugAvx2 bytes150).2 = 3 ∧ blocks (blake2sT debugAvx2 []).2 = 1 := by
  have h := C50_one_shot debugAvx2 (by decide) bytes150 (by rw [length150]; decide)
  rw [length150] at h
  exact ⟨h, C50_one_shot debugAvx2 (by decide) [] (by decide)⟩

/-- 200 bytes of input: four blocks, in whatever pieces. -/
example : Fits debugAvx2 Params.new (fed [.update (List.replicate 130 7), .finalize, .write (List.replicate 70 1),
      .finalize]).length ∧
    finalizeCalls [.update (List.replicate 130 7), .finalize, .write (List.replicate 70 1), .finalize] = 2 ∧
    blocksFor 200 = 4 ∧ blocksFor 0 = 1 ∧ blocksFor 64 = 1 ∧ blocksFor 65 = 2 := by
  exact ⟨fun _ => by decide +kernel, by decide, by decide, by decide, by decide, by decide⟩

/-- **C50**, `update8`: as many blocks as the eight separate updates. -/
theorem C50_update8 (E : Env) (hE : E.WF) (p : Fin 8 → Params) (hp : ∀ i, (p i).Accepted)
    (before : Fin 8 → List Op) (st : Vector State 8) (hst : ∀ i : Fin 8, Reaches E (p i) (before i) st[i])
    (input : Vector (List U8) 8)
    (hfit : ∀ i : Fin 8, Fits E (p i) ((fed (before i)).length + input[i].length)) :
    blocks (update8T E st input).2 =
      ((List.finRange 8).map fun i => blocks (st[i].updateT E input[i]).2).sum := by
  obtain ⟨st', e, -⟩ := C11_update8 E hE p hp before st hst input hfit
  rw [← update8T_fst] at e
  rw [update8T_post E st input _ (fun i => (hst i).level) st' e]
  congr 1
  apply List.map_congr_left
  intro i _
  rw [C50_update E hE (p i) (hp i) (before i) st[i] (hst i) input[i] _ rfl (hfit i), blocksFor_eq, blocksFor_eq]
  unfold delta
  omega

example : ∃ st : Vector State 8, (∀ i : Fin 8, Reaches debugAvx2 (laneParams i) (laneOps i) st[i]) ∧
    blocks (update8T debugAvx2 st laneInput).2 =
      ((List.finRange 8).map fun i => blocks (st[i].updateT debugAvx2 laneInput[i]).2).sum := by
  obtain ⟨st, h⟩ := reaches_lanes debugAvx2 (by decide)
  exact ⟨st, h, C50_update8 debugAvx2 (by decide) laneParams laneParams_accepted laneOps st h laneInput
    fun i => fits_short _ _ (by have := length_laneOps i; have := length_laneInput i; omega)⟩

/-- **C50**, `finalize8`: eight blocks. -/
theorem C50_finalize8 (E : Env) (hE : E.WF) (p : Fin 8 → Params) (hp : ∀ i, (p i).Accepted)
    (before : Fin 8 → List Op) (st : Vector State 8)
    (hst : ∀ i : Fin 8, Reaches E (p i) (before i) st[i]) : blocks (finalize8T E st).2 = 8 := by
  obtain ⟨st', hs, e, -⟩ := C12_finalize8 E hE p hp before st hst
  rw [← finalize8T_fst] at e
  exact finalize8T_post E st _ e

example : ∃ st : Vector State 8, (∀ i : Fin 8, Reaches debugAvx2 (laneParams i) (laneOps i) st[i]) ∧
    blocks (finalize8T debugAvx2 st).2 = 8 := by
  obtain ⟨st, h⟩ := reaches_lanes debugAvx2 (by decide)
  exact ⟨st, h, C50_finalize8 debugAvx2 (by decide) laneParams laneParams_accepted laneOps st h⟩

/-- **C50**, `hash8`: as many blocks as the eight inputs make up, however their lengths differ. -/
theorem C50_hash8 (E : Env) (hE : E.WF) (p : Vector Params 8) (hp : ∀ i : Fin 8, p[i].Accepted)
    (hk : ∀ i : Fin 8, p[i].keyLength = 0) (input : Vector (List U8) 8)
    (hfit : ∀ i : Fin 8, Fits E p[i] input[i].length) :
    blocks (hash8T E p input).2 = ((List.finRange 8).map fun i => blocksFor input[i].length).sum := by
  obtain ⟨hs, e, -⟩ := C15_hash8 E hE p hp hk input hfit
  rw [← hash8T_fst] at e
  exact hash8T_post E p input _ e

/-- Inputs of 150, 139, ..., 73 bytes: three, three, and six times two blocks. -/
example : blocks (hash8T debugAvx2 (Vector.replicate 8 saltedParams) laneInput).2 = 18 := by
  rw [C50_hash8 debugAvx2 (by decide) (Vector.replicate 8 saltedParams)
    (fun i => by simpa using saltedParams_accepted) (by decide) laneInput
    fun i => fits_short _ _ (by have := length_laneInput i; omega)]
  decide +kernel

/-- **C50**, `hash4_exact` with unkeyed parameters: the blocks of its inputs. -/
theorem C50_hash4_exact (E : Env) (hE : E.WF) (p : Params) (hp : p.Accepted) (hk : p.keyLength = 0)
    (input : Vector (List U8) 4) (len : Nat) (hl : ExactLengths input len) (hfit : Fits E p len) :
    blocks (hash4ExactT E p input).2 = 4 * (len / 64) := by
  obtain ⟨hs, e, -⟩ := C13_hash4_exact E hE p hp hk input len hl hfit
  rw [← hash4ExactT_fst] at e
  rw [hash4ExactT_post E p input len hl _ e, if_pos hk, blocksFor_eq]
  have h1 := hl.2.1
  have h2 := hl.2.2
  split <;> omega

example : blocks (hash4ExactT debugAvx2 saltedParams (exactInput 4)).2 = 8 :=
  C50_hash4_exact debugAvx2 (by decide) _ saltedParams_accepted (by decide) _ 128
    (exactInput_lengths (by decide)) (fits_short _ _ (by decide))

/-- **C50**, `hash8_exact` with unkeyed parameters: the blocks of its inputs. -/
theorem C50_hash8_exact (E : Env) (hE : E.WF) (p : Params) (hp : p.Accepted) (hk : p.keyLength = 0)
    (input : Vector (List U8) 8) (len : Nat) (hl : ExactLengths input len) (hfit : Fits E p len) :
    blocks (hash8ExactT E p input).2 = 8 * (len / 64) := by
  obtain ⟨hs, e, -⟩ := C14_hash8_exact E hE p hp hk input len hl hfit
  rw [← hash8ExactT_fst] at e
  rw [hash8ExactT_post E p input len hl _ e, if_pos hk, blocksFor_eq]
  have h1 := hl.2.1
  have h2 := hl.2.2
  split <;> omega

example : blocks (hash8ExactT debugAvx2 saltedParams (exactInput 8)).2 = 16 :=
  C50_hash8_exact debugAvx2 (by decide) _ saltedParams_accepted (by decide) _ 128
    (exactInput_lengths (by decide)) (fits_short _ _ (by decide))

/-- **C50**, with a key the SIMD implementations of `hash4_exact` and `hash8_exact` compress one block less per
input than the portable ones: the key block is left out (see C19). -/
theorem C50_exact_keyed (E : Env) (p : Params) (hk : p.keyLength ≠ 0) (len : Nat) :
    (∀ (input : Vector (List U8) 4) hs, ExactLengths input len → hash4Exact E p input = .ok hs →
      blocks (hash4ExactT E p input).2 =
        4 * (if (E.x86 && E.std && E.avx2) = true then len / 64 else 1 + len / 64)) ∧
    (∀ (input : Vector (List U8) 8) hs, ExactLengths input len → hash8Exact E p input = .ok hs →
      blocks (hash8ExactT E p input).2 =
        8 * (if (E.x86 && E.std && E.avx2) = true then len / 64 else 1 + len / 64)) := by
  refine ⟨fun input hs hl e => ?_, fun input hs hl e => ?_⟩
  · rw [← hash4ExactT_fst] at e
    rw [hash4ExactT_post E p input len hl _ e, if_neg hk, blocksFor_eq]
    have h1 := hl.2.1
    have h2 := hl.2.2
    split <;> omega
  · rw [← hash8ExactT_fst] at e
    rw [hash8ExactT_post E p input len hl _ e, if_neg hk, blocksFor_eq]
    have h1 := hl.2.1
    have h2 := hl.2.2
    split <;> omega

/-- With a key, the portable code compresses the key block too. -/
example : ∃ hs, hash4Exact releasePlain keyedParams (exactInput 4) = .ok hs ∧
    blocks (hash4ExactT releasePlain keyedParams (exactInput 4)).2 = 12 := by
  obtain ⟨hs, e, _⟩ := C19_portable releasePlain (by decide) rfl _ keyedParams_accepted (exactInput 4) 128
    (exactInput_lengths (by decide)) (fits_short _ _ (by decide))
  exact ⟨hs, e, (C50_exact_keyed releasePlain keyedParams (by decide) 128).1 _ hs
    (exactInput_lengths (by decide)) e⟩

/-- **C50**, BLAKE2sp: without the trace, it is the model. -/
theorem C50_blake2sp_same_results (E : Env) (p : Sp.Params) (chunks : List (List U8)) :
    (Sp.chunksT E p chunks).1 =
      (p.toState E >>= fun s => s.run E (chunks.map Sp.Op.update ++ [.finalize])).bind fun x =>
        match x.2 with
        | [d] => .ok d
        | _ => .error .nonTermination := by
  unfold Sp.chunksT
  simp only [Tr.bind_fst, Sp.Params.toStateT_fst]
  cases p.toState E with
  | error e => rfl
  | ok s =>
    show ((s.updatesT E chunks).1 >>= fun s => (s.finalizeT E).1 >>= fun x => (pure x.2 : R Hash)) =
      (s.run E (chunks.map Sp.Op.update ++ [.finalize])).bind _
    induction chunks generalizing s with
    | nil =>
      show ((s.finalizeT E).1 >>= fun x => (pure x.2 : R Hash)) =
        (s.finalize E >>= fun x => (pure (x.1, [x.2]) : R _)).bind _
      rw [Sp.State.finalizeT_fst]
      cases s.finalize E <;> rfl
    | cons c cs ih =>
      show ((s.updateT E c >>= fun s => s.updatesT E cs).1 >>= _) =
        (s.update E c >>= fun s => s.run E (cs.map Sp.Op.update ++ [.finalize])).bind _
      rw [Tr.bind_fst, Sp.State.updateT_fst]
      cases s.update E c with
      | error e => rfl
      | ok s1 => exact ih s1

/-- **C50**, BLAKE2sp: hashing a message compresses the blocks of the eight leaves (with their key blocks) and the
four blocks of the root, however the message is cut into `update` calls. -/
theorem C50_blake2sp (E : Env) (p : Sp.Params) (chunks : List (List U8)) (d : Hash)
    (h : (Sp.chunksT E p chunks).1 = .ok d) :
    blocks (Sp.chunksT E p chunks).2 =
      ((List.range 8).map fun i => blocksFor ((if p.keyLength = 0 then 0 else 64) +
        (Spec.Sp.leafInput i chunks.flatten).length)).sum + 4 :=
  Sp.chunksT_post E p chunks d h

/-- Seven leaves of 192 bytes and one of 156, and the root. -/
example : ∃ d, (Sp.chunksT debugAvx2 Sp.shortParams [[], bytes1500]).1 = .ok d ∧
    blocks (Sp.chunksT debugAvx2 Sp.shortParams [[], bytes1500]).2 = 28 := by
  obtain ⟨s, s', d, h1, h2, -⟩ := Sp.C27_digest debugAvx2 (by decide) _ Sp.shortParams_accepted (by decide)
    [[], bytes1500] (fun _ => by
      rw [List.flatten_cons, List.nil_append, List.flatten_cons, List.flatten_nil, List.append_nil, length1500]
      decide)
  have e : (Sp.chunksT debugAvx2 Sp.shortParams [[], bytes1500]).1 = .ok d := by
    rw [C50_blake2sp_same_results, h1]
    show Except.bind (s.run debugAvx2 ([[], bytes1500].map Sp.Op.update ++ [.finalize])) _ = _
    rw [h2]
    rfl
  refine ⟨d, e, ?_⟩
  rw [C50_blake2sp debugAvx2 _ _ d e]
  decide +kernel

/-- **C50**, BLAKE2sp: the one-shot function. -/
theorem C50_blake2sp_one_shot (E : Env) (hE : E.WF) (input : List U8)
    (h : E.overflowChecks = true → input.length < 2 ^ 64) :
    blocks (blake2spT E input).2 =
      ((List.range 8).map fun i => blocksFor (Spec.Sp.leafInput i input).length).sum + 4 := by
  obtain ⟨d, e, -⟩ := Sp.C26_one_shot E hE input h
  rw [← blake2spT_fst] at e
  exact blake2spT_post E input d e

example : blocks (blake2spT debugAvx2 bytes1500).2 = 28 := by
  rw [C50_blake2sp_one_shot debugAvx2 (by decide) bytes1500 (by rw [length1500]; decide)]
  decide +kernel

/-- 1000 bytes: seven leaves with two blocks, one (of 104 bytes) too, and the root. -/
example : (Sp.chunksT releasePlain Sp.Params.default []).1 ≠ .error .nonTermination ∧
    (List.range 8).map (fun i => (Spec.Sp.leafInput i (List.replicate 1000 (3 : U8))).length) =
      [128, 128, 128, 128, 128, 128, 128, 104] := by
  refine ⟨?_, by decide +kernel⟩
  rw [C50_blake2sp_same_results]
  obtain ⟨s, s', d, h1, h2, -⟩ := Sp.C27_digest releasePlain (by decide) Sp.Params.default ⟨[], rfl⟩ rfl []
    (by simp [Sp.Fits, releasePlain])
  rw [h1]
  show Except.bind (s.run releasePlain (([] : List (List U8)).map Sp.Op.update ++ [.finalize])) _ ≠ _
  rw [h2]
  exact fun h => nomatch h

/-- A program on several objects, with a keyed state and BLAKE2sp. -/
def busyProgram (msg : List U8) : List Call :=
  [.set 0 (.key [1, 2, 3]), .toState 0 0, .update 0 msg, .finalize 0 0,
    .spNewState 0, .spUpdate 0 bytes1500, .spFinalize 0 1, .eqHash 0 1]

theorem busyProgram_legal (msg : List U8) (h : msg.length = 150) : ∀ c ∈ busyProgram msg, c.Legal := by
  intro c hc
  simp only [busyProgram, List.mem_cons, List.not_mem_nil, or_false] at hc
  rcases hc with rfl | rfl | rfl | rfl | rfl | rfl | rfl | rfl
  all_goals (refine ⟨?_, ?_⟩)
  all_goals first | simp [Call.slices, h, length1500] | trivial

/-- **C50**, whole programs. `Exact.work` (Verif/WorkExact.lean) adds up, call by call, the number of blocks that
follows from the bytes fed to each object so far, the keys and, for BLAKE2sp, how the input was cut. A program of
calls of public functions, on any number of objects, completes if and only if that sum is defined; it then
compresses exactly that many blocks (and one more, for the hash that `Hash` variables hold before they are
assigned). -/
theorem C50_program (E : Env) (hE : E.WF) (calls : List Call) (hl : ∀ c ∈ calls, c.Legal) :
    (∀ n, Exact.work (Exact.buildOf E) calls = .ok n →
      (∃ outs, program E calls = .ok outs) ∧ blocks (programT E calls).2 = 1 + n) ∧
    (∀ f, Exact.work (Exact.buildOf E) calls = .error f → program E calls = .error f) := by
  obtain ⟨h1, h2⟩ := Exact.program_work hE calls hl
  refine ⟨fun n hn => ⟨?_, h2 n hn⟩, fun f hf => ?_⟩
  · rw [hn] at h1
    cases hp : program E calls with
    | ok outs => exact ⟨outs, rfl⟩
    | error f => rw [hp] at h1; cases h1
  · rw [hf] at h1
    cases hp : program E calls with
    | ok outs => rw [hp] at h1; cases h1
    | error f => rw [hp] at h1; cases h1; rfl

/-- 3 blocks of `update` (the key block is one of them), 1 of `finalize`, 16 of BLAKE2sp's `update`, and 8 + 4 of its
`finalize`. -/
example : (∃ outs, program debugAvx2 (busyProgram bytes150) = .ok outs) ∧
    blocks (programT debugAvx2 (busyProgram bytes150)).2 = 1 + 32 :=
  (C50_program debugAvx2 (by decide) _ (busyProgram_legal _ length150)).1 32 (by decide +kernel)

/-- **C50**, no secret has an influence on the amount of work: two programs that differ only in bytes of messages,
keys, salts, personalisations or strings compared compress the same number of blocks, even if they panic. -/
theorem C50_data_independent (E : Env) (calls calls' : List Call)
    (hs : calls'.map Call.shape = calls.map Call.shape) (hp : ∀ c ∈ calls, c.printsHex = false) :
    blocks (programT E calls').2 = blocks (programT E calls).2 := by
  rw [show (programT E calls').2 = (programT E calls).2 from (programT_low E hs hp).1.symm]

example : blocks (programT debugAvx2 (busyProgram bytes150.reverse)).2 =
    blocks (programT debugAvx2 (busyProgram bytes150)).2 :=
  C50_data_independent _ _ _ (by simp [busyProgram, Call.shape, Call.mapBytes]) (by simp [busyProgram, Call.printsHex])

end Blake2s
