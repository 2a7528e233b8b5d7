import Verif.Proofs.UsedCount
import Verif.Props.Work
/-!
# Which code runs, and on how many blocks at once (C54)

`Event.code` (Verif/Used.lean) tells whether an event of a trace is portable or vector code, and `atOnce n t` how
often `n` blocks are compressed at once in the course of the trace `t`. `Env.usesAvx2` is whether the crate is
compiled for x86 with `std` and runs on a CPU with AVX2.
-/

namespace Blake2s

theorem only_vector {E : Env} (h : E.usesAvx2 = true) :
    Only (fun e => e.code ≠ some .portable) (defaultCompressImpl E) := by
  unfold defaultCompressImpl
  rw [if_pos (show (E.x86 && E.std && E.avx2) = true from h)]
  exact ⟨⟨nofun, nofun, nofun, nofun, nofun⟩, nofun, nofun, nofun, nofun, nofun, nofun, nofun, nofun⟩

theorem only_portable {E : Env} (h : E.usesAvx2 = false) :
    Only (fun e => e.code ≠ some .vector) (defaultCompressImpl E) := by
  have h' : ¬ (E.x86 && E.std && E.avx2) = true := fun h' => by
    rw [show E.usesAvx2 = true from h'] at h; cases h
  unfold defaultCompressImpl
  rw [if_neg h']
  exact ⟨⟨nofun, nofun, nofun, nofun, nofun⟩, nofun, nofun, nofun, nofun, nofun, nofun, nofun, nofun⟩

/-- **C54**: wherever the vector code can be used, only vector code runs, in a program of any calls of public
functions on any number of objects, except on objects for which it is turned off with `force_portable`. -/
theorem C54_vector (E : Env) (h : E.usesAvx2 = true) (calls : List Call) (hc : ∀ c ∈ calls, c.forces = false) :
    ∀ e ∈ (programT E calls).2, e.code ≠ some .portable :=
  (programT_ev (only_vector h) calls fun c m => .inr (hc c m)).1

/-- 33 blocks are compressed, and all of them by vector code. -/
example : blocks (programT debugAvx2 (busyProgram bytes150)).2 = 33 ∧
    ∀ e ∈ (programT debugAvx2 (busyProgram bytes150)).2, e.code ≠ some .portable := by
  refine ⟨((C50_program debugAvx2 (by decide) _ (busyProgram_legal _ length150)).1 32 (by decide +kernel)).2,
    C54_vector debugAvx2 rfl _ fun c hc => ?_⟩
  simp only [busyProgram, List.mem_cons, List.not_mem_nil, or_false] at hc
  rcases hc with rfl | rfl | rfl | rfl | rfl | rfl | rfl | rfl <;> rfl

/-- **C54**: everywhere else only portable code runs; a CPU that has SSE4.1 but not AVX2 is no exception. -/
theorem C54_portable (E : Env) (h : E.usesAvx2 = false) (calls : List Call) :
    ∀ e ∈ (programT E calls).2, e.code ≠ some .vector := by
  have h' : ¬ (E.x86 && E.std && E.avx2) = true := fun h' => by
    rw [show E.usesAvx2 = true from h'] at h; cases h
  refine (programT_ev (only_portable h) calls fun c _ => .inl ?_).1
  unfold defaultCompressImpl
  rw [if_neg h']
  exact ⟨rfl, rfl⟩

/-- A CPU with SSE4.1, without AVX2. -/
example : (⟨true, true, true, true, false, true⟩ : Env).WF ∧
    ∀ e ∈ (programT ⟨true, true, true, true, false, true⟩ (busyProgram bytes150)).2, e.code ≠ some .vector :=
  ⟨by decide, C54_portable _ rfl _⟩

/-- **C54**: `benchmarks::force_portable` is obeyed by all methods of a `State`, on any platform. -/
theorem C54_forced (E : Env) (s : State) (ops : List Op) :
    ∀ e ∈ (s.forcePortable.runT E ops).2, e.code ≠ some .vector :=
  (State.ev_run (P := fun e => e.code ≠ some .vector) (f := .portable) ⟨nofun, nofun, nofun, nofun, nofun⟩ nofun E ops
    (.inl rfl) s.forcePortable (rfl : s.forcePortable.compressFn = _)).1

/-- Portable code compresses three blocks. -/
example : ∃ s, Reaches debugAvx2 keyedParams (someOps ++ [.forcePortable]) s ∧
    blocks (s.updateT debugAvx2 bytes150).2 = 3 ∧
    ∀ e ∈ (s.updateT debugAvx2 bytes150).2, e.code ≠ some .vector := by
  have e : (fed (someOps ++ [.forcePortable])).length = 300 := by
    rw [show fed (someOps ++ [.forcePortable]) = bytes150 ++ bytes150 by simp [fed, someOps], List.length_append,
      length150]
  obtain ⟨s, s0, hs, h0, h1⟩ := reaches_someOps debugAvx2 (by decide)
  have hr : Reaches debugAvx2 keyedParams (someOps ++ [.forcePortable]) s.forcePortable := by
    refine ⟨s0, hs ++ [], h0, ?_⟩
    rw [run_append, h1]
    rfl
  refine ⟨s.forcePortable, hr, ?_, fun ev he => ?_⟩
  · have h := C50_update debugAvx2 (by decide) _ keyedParams_accepted _ _ hr bytes150 364 (by rw [e]; decide)
      (fits_short _ _ (by rw [e, length150]; decide))
    rw [length150] at h
    exact h
  · refine C54_forced debugAvx2 s [.update bytes150] ev ?_
    show ev ∈ (s.forcePortable.updateT debugAvx2 bytes150 >>= _).2
    generalize s.forcePortable.updateT debugAvx2 bytes150 = m at he ⊢
    obtain ⟨r, t⟩ := m
    cases r with
    | error f => exact he
    | ok s => exact List.mem_append_left _ he

/-- **C54**, histories of a `blake2sp::State`: without the trace, it is the model. -/
theorem C54_sp_same_results (E : Env) (s : Sp.State) (ops : List Sp.Op) : (s.runT E ops).1 = s.run E ops := by
  induction ops generalizing s with
  | nil => rfl
  | cons o ops ih =>
    cases o <;> simp only [Sp.State.runT, Sp.State.run, Tr.bind_fst, Tr.pure_fst, Sp.State.updateT_fst,
      Sp.State.writeT_fst, Sp.State.finalizeT_fst, ih]

example : ∃ s, Sp.Reaches debugAvx2 Sp.shortParams Sp.longOps s ∧
    (s.runT debugAvx2 Sp.longOps).1 = s.run debugAvx2 Sp.longOps := by
  obtain ⟨s, h⟩ := Sp.reaches_longOps debugAvx2 (by decide)
  exact ⟨s, h, C54_sp_same_results _ _ _⟩

/-- **C54**: `benchmarks::force_portable_blake2sp` is obeyed by all methods of a `blake2sp::State`: by the eight
leaves, by the root, and by the code that compresses eight blocks at once. -/
theorem C54_sp_forced (E : Env) (s : Sp.State) (ops : List Sp.Op) :
    ∀ e ∈ (s.forcePortable.runT E ops).2, e.code ≠ some .vector :=
  (Sp.State.ev_run (P := fun e => e.code ≠ some .vector) (f := .portable) (g := .portable)
    ⟨nofun, nofun, nofun, nofun, nofun⟩ nofun nofun E ops
    (.inl ⟨rfl, rfl⟩) _ (Sp.State.Uses.forced s)).1

example : ∃ s, Sp.Reaches debugAvx2 Sp.shortParams Sp.longOps s ∧
    ∀ e ∈ (s.forcePortable.runT debugAvx2 (.update bytes1500 :: Sp.longOps)).2, e.code ≠ some .vector := by
  obtain ⟨s, h⟩ := Sp.reaches_longOps debugAvx2 (by decide)
  exact ⟨s, h, C54_sp_forced _ _ _⟩

/-- **C54**: `update8` and `finalize8` do not obey it. Where the vector code can be used, they use it for all blocks
that they compress eight at once, whatever the eight states have been told. -/
theorem C54_batch (E : Env) (h : E.usesAvx2 = true) (st : Vector State 8) (input : Vector (List U8) 8) :
    (∀ e ∈ (update8T E st input).2, e.blocks = 8 → e.code = some .vector) ∧
    (∀ e ∈ (finalize8T E st).2, e.blocks = 8 → e.code = some .vector) := by
  have hg : (defaultCompressImpl E).compress8 = .avx2 := by
    unfold defaultCompressImpl
    rw [if_pos (show (E.x86 && E.std && E.avx2) = true from h)]
  refine ⟨(ev_update8_any (P := fun e => e.blocks = 8 → e.code = some .vector) ⟨nofun, nofun, nofun, nofun, nofun⟩
    (fun _ => nofun) E ?_ st input).1, (ev_finalize8_any (P := fun e => e.blocks = 8 → e.code = some .vector)
    ⟨nofun, nofun, nofun, nofun, nofun⟩ E ?_ st).1⟩
  · rw [hg]; exact fun _ => rfl
  · rw [hg]; exact fun _ => rfl

/-- Eight states, all with `force_portable`: `finalize8` still runs vector code. -/
example : ∃ st : Vector State 8, (∀ i : Fin 8, st[i].compressFn = .portable) ∧
    ∃ e ∈ (finalize8T debugAvx2 st).2, e.code = some .vector := by
  obtain ⟨s, hs⟩ := reaches_someOps debugAvx2 (by decide)
  have ht : ∀ st : Vector State 8, ∀ r, (finalize8T debugAvx2 st).1 = .ok r →
      ∃ e ∈ (finalize8T debugAvx2 st).2, e.code = some .vector := by
    intro st r hr
    have h1 := finalize8T_eights debugAvx2 st r hr
    unfold atOnce at h1
    obtain ⟨e, he⟩ := List.exists_mem_of_length_pos (by rw [h1]; decide :
      0 < ((finalize8T debugAvx2 st).2.filter fun e => e.blocks == 8).length)
    obtain ⟨he, h8⟩ := List.mem_filter.mp he
    exact ⟨e, he, (C54_batch debugAvx2 rfl st (Vector.replicate 8 [])).2 e he (beq_iff_eq.mp h8)⟩
  obtain ⟨s0, ds, h0, h1⟩ := hs
  have hr : Reaches debugAvx2 keyedParams (someOps ++ [.forcePortable]) s.forcePortable := by
    refine ⟨s0, ds ++ [], h0, ?_⟩
    rw [run_append, h1]
    rfl
  refine ⟨Vector.replicate 8 s.forcePortable, fun i => by rw [Fin.getElem_fin, Vector.getElem_replicate]; rfl, ?_⟩
  obtain ⟨st', hs, e, -⟩ := C12_finalize8 debugAvx2 (by decide) (fun _ => keyedParams) (fun _ => keyedParams_accepted)
    (fun _ => someOps ++ [.forcePortable]) (Vector.replicate 8 s.forcePortable) fun i => by
      rw [Fin.getElem_fin, Vector.getElem_replicate]; exact hr
  exact ht _ _ (by rw [finalize8T_fst]; exact e)

/-- **C54**, `finalize8`: the eight blocks are compressed at once. -/
theorem C54_finalize8 (E : Env) (st : Vector State 8) (r : Vector State 8 × Vector Hash 8)
    (h : finalize8 E st = .ok r) : atOnce 8 (finalize8T E st).2 = 1 := by
  rw [← finalize8T_fst] at h
  exact finalize8T_eights E st r h

example : ∃ st : Vector State 8, (∀ i : Fin 8, Reaches debugAvx2 (laneParams i) (laneOps i) st[i]) ∧
    atOnce 8 (finalize8T debugAvx2 st).2 = 1 := by
  obtain ⟨st, h⟩ := reaches_lanes debugAvx2 (by decide)
  obtain ⟨st', hs, e, -⟩ := C12_finalize8 debugAvx2 (by decide) laneParams laneParams_accepted laneOps st h
  exact ⟨st, h, C54_finalize8 _ _ _ e⟩

/-- **C54**, `update8`: once each state has filled its buffer, blocks are compressed eight at once for as long as
every input has more than a block left. `n i` is the number of bytes that state `i` has been fed (the key block
included), so that `(64 - n i % 64) % 64` more bytes make up a block. -/
theorem C54_update8 (E : Env) (p : Fin 8 → Params) (before : Fin 8 → List Op) (st : Vector State 8)
    (hst : ∀ i : Fin 8, Reaches E (p i) (before i) st[i]) (input : Vector (List U8) 8) (st' : Vector State 8)
    (h : update8 E st input = .ok st') (n : Fin 8 → Nat)
    (hn : ∀ i, n i = (if (p i).keyLength = 0 then 0 else 64) + (fed (before i)).length) (m : Nat) :
    m ≤ atOnce 8 (update8T E st input).2 ↔
      m = 0 ∨ ∀ i : Fin 8, 64 * m < input[i].length - (64 - n i % 64) % 64 := by
  rw [← update8T_fst] at h
  exact update8T_eights E st input n (fun i => by rw [hn i]; exact (hst i).level) st' h m

/-- Eight states that have been fed 364 bytes, the key block included: with 20 more a block is full. Of 150 bytes
each, 130 are left then: more than two blocks. -/
example : ∃ st : Vector State 8, (∀ i : Fin 8, Reaches debugAvx2 keyedParams someOps st[i]) ∧
    atOnce 8 (update8T debugAvx2 st (Vector.replicate 8 bytes150)).2 = 2 := by
  obtain ⟨s, hs⟩ := reaches_someOps debugAvx2 (by decide)
  have e : (fed someOps).length = 300 := by rw [fed_someOps, List.length_append, length150]
  have hr : ∀ i : Fin 8, Reaches debugAvx2 keyedParams someOps (Vector.replicate 8 s)[i] := fun i => by
    rw [Fin.getElem_fin, Vector.getElem_replicate]; exact hs
  have hl : ∀ i : Fin 8, (Vector.replicate 8 bytes150)[i].length = 150 := fun i => by
    rw [Fin.getElem_fin, Vector.getElem_replicate]; exact length150
  refine ⟨Vector.replicate 8 s, hr, ?_⟩
  obtain ⟨st', h, -⟩ := C11_update8 debugAvx2 (by decide) (fun _ => keyedParams) (fun _ => keyedParams_accepted)
    (fun _ => someOps) _ hr (Vector.replicate 8 bytes150) fun i => fits_short _ _ (by rw [e, hl i]; decide)
  have key := C54_update8 debugAvx2 (fun _ => keyedParams) (fun _ => someOps) _ hr _ st' h (fun _ => 364)
    (fun i => by rw [e]; decide)
  simp only [hl] at key
  have h2 := (key 2).mpr (.inr fun _ => by decide)
  have h3 := mt (key 3).mp (by intro h; rcases h with h | h; · cases h
                               · exact absurd (h 0) (by decide))
  omega

/-- **C54**, `hash8`: blocks are compressed eight at once for as long as every input has more than a block left; and
the last blocks too, if all inputs are of the same length, a multiple of 64. -/
theorem C54_hash8 (E : Env) (p : Vector Params 8) (input : Vector (List U8) 8) (hs : Vector Hash 8)
    (h : hash8 E p input = .ok hs) (m : Nat) :
    m ≤ atOnce 8 (hash8T E p input).2 ↔
      m = 0 ∨ (∀ i : Fin 8, 64 * m < input[i].length) ∨ ∀ i : Fin 8, input[i].length = 64 * m := by
  rw [← hash8T_fst] at h
  exact hash8T_eights E p input hs h m

/-- Inputs of 150, 139, ..., 73 bytes: the first blocks. Inputs of 128 bytes: all blocks. -/
example : atOnce 8 (hash8T debugAvx2 (Vector.replicate 8 saltedParams) laneInput).2 = 1 ∧
    atOnce 8 (hash8T debugAvx2 (Vector.replicate 8 saltedParams) (exactInput 8)).2 = 2 := by
  have hl : ∀ i : Fin 8, laneInput[i].length = 150 - 11 * i.val := fun i => by
    have h : laneInput[i] = bytes150.drop (11 * i.val) := by simp [laneInput]
    rw [h, List.length_drop, length150]
  have hx := (exactInput_lengths (n := 8) (by decide)).1
  constructor
  · obtain ⟨hs, e, -⟩ := C15_hash8 debugAvx2 (by decide) (Vector.replicate 8 saltedParams)
      (fun i => by simpa using saltedParams_accepted) (by decide) laneInput
      fun i => fits_short _ _ (by have := length_laneInput i; omega)
    have key := C54_hash8 _ _ _ hs e
    have h1 := (key 1).mpr (.inr (.inl fun i => by rw [hl i]; omega))
    have h2 := mt (key 2).mp (by
      rintro (h | h | h)
      · cases h
      · have := h 7; rw [hl 7] at this; exact absurd this (by decide)
      · have := h 7; rw [hl 7] at this; exact absurd this (by decide))
    omega
  · obtain ⟨hs, e, -⟩ := C15_hash8 debugAvx2 (by decide) (Vector.replicate 8 saltedParams)
      (fun i => by simpa using saltedParams_accepted) (by decide) (exactInput 8)
      fun i => fits_short _ _ (by rw [hx i]; decide)
    have key := C54_hash8 _ _ _ hs e
    have h1 := (key 2).mpr (.inr (.inr fun i => hx i))
    have h2 := mt (key 3).mp (by
      rintro (h | h | h)
      · cases h
      · have := h 7; rw [hx 7] at this; exact absurd this (by decide)
      · have := h 7; rw [hx 7] at this; exact absurd this (by decide))
    omega

/-- **C54**, `hash4_exact` and `hash8_exact`: where vector code can be used, four and eight blocks at once, and never
anything else; everywhere else one input is hashed after the other. -/
theorem C54_exact (E : Env) (p : Params) (len : Nat) :
    (∀ (input : Vector (List U8) 4) hs, ExactLengths input len → hash4Exact E p input = .ok hs →
      atOnce 4 (hash4ExactT E p input).2 = (if E.usesAvx2 then len / 64 else 0) ∧
      ∀ e ∈ (hash4ExactT E p input).2, e.blocks = 0 ∨ e.blocks = if E.usesAvx2 then 4 else 1) ∧
    (∀ (input : Vector (List U8) 8) hs, ExactLengths input len → hash8Exact E p input = .ok hs →
      atOnce 8 (hash8ExactT E p input).2 = (if E.usesAvx2 then len / 64 else 0) ∧
      ∀ e ∈ (hash8ExactT E p input).2, e.blocks = 0 ∨ e.blocks = if E.usesAvx2 then 8 else 1) := by
  refine ⟨fun input hs hl e => ?_, fun input hs hl e => ?_⟩
  · rw [← hash4ExactT_fst] at e
    exact ⟨hash4ExactT_fours hl e, (hash4ExactT_groups E p input).1⟩
  · rw [← hash8ExactT_fst] at e
    exact ⟨hash8ExactT_eights hl e, (hash8ExactT_groups E p input).1⟩

example : atOnce 4 (hash4ExactT debugAvx2 saltedParams (exactInput 4)).2 = 2 ∧
    atOnce 8 (hash8ExactT debugAvx2 saltedParams (exactInput 8)).2 = 2 ∧
    atOnce 8 (hash8ExactT releasePlain saltedParams (exactInput 8)).2 = 0 := by
  have h4 := exactInput_lengths (n := 4) (by decide)
  have h8 := exactInput_lengths (n := 8) (by decide)
  refine ⟨?_, ?_, ?_⟩
  · obtain ⟨hs, e, -⟩ := C13_hash4_exact debugAvx2 (by decide) _ saltedParams_accepted (by decide) _ 128 h4
      (fits_short _ _ (by decide))
    exact ((C54_exact _ _ _).1 _ hs h4 e).1
  · obtain ⟨hs, e, -⟩ := C14_hash8_exact debugAvx2 (by decide) _ saltedParams_accepted (by decide) _ 128 h8
      (fits_short _ _ (by decide))
    exact ((C54_exact _ _ _).2 _ hs h8 e).1
  · obtain ⟨hs, e, -⟩ := C14_hash8_exact releasePlain (by decide) _ saltedParams_accepted (by decide) _ 128 h8
      (fits_short _ _ (by decide))
    exact ((C54_exact _ _ _).2 _ hs h8 e).1

/-- **C54**, BLAKE2sp: `Sp.rowsAfter` (Verif/Vocab.lean) counts the rows of 512 bytes that go to the leaves eight
blocks at once, however the message is cut into `update` calls. -/
theorem C54_blake2sp (E : Env) (hE : E.WF) (p : Sp.Params) (hp : p.Accepted) (chunks : List (List U8)) (d : Hash)
    (h : (Sp.chunksT E p chunks).1 = .ok d) :
    atOnce 8 (Sp.chunksT E p chunks).2 = Sp.rowsAfter 0 0 (chunks.map .update) :=
  Sp.chunksT_rows hE hp.valid h

/-- **C54**, BLAKE2sp: whatever the pieces, all but the last 1024 bytes of a message at most are compressed eight blocks
at once. -/
theorem C54_blake2sp_bulk (E : Env) (hE : E.WF) (p : Sp.Params) (hp : p.Accepted) (chunks : List (List U8)) (d : Hash)
    (h : (Sp.chunksT E p chunks).1 = .ok d) :
    chunks.flatten.length ≤ 512 * atOnce 8 (Sp.chunksT E p chunks).2 + 1024 := by
  rw [C54_blake2sp E hE p hp chunks d h]
  have := Sp.rowsAfter_bulk chunks 0 0 (Nat.zero_le _)
  rwa [Nat.zero_add] at this

/-- **C54**, BLAKE2sp: a message in one piece. -/
theorem C54_blake2sp_one_piece (E : Env) (hE : E.WF) (p : Sp.Params) (hp : p.Accepted) (msg : List U8) (d : Hash)
    (h : (Sp.chunksT E p [msg]).1 = .ok d) :
    atOnce 8 (Sp.chunksT E p [msg]).2 = (msg.length - 449) / 512 := by
  rw [C54_blake2sp E hE p hp [msg] d h]
  simp [Sp.rowsAfter, Sp.rowsTaken]

/-- 1500 bytes in one piece: two rows. In two pieces: two or one, depending on where they are cut. -/
example : ∃ d, (Sp.chunksT debugAvx2 Sp.shortParams [bytes1500]).1 = .ok d ∧
    atOnce 8 (Sp.chunksT debugAvx2 Sp.shortParams [bytes1500]).2 = 2 ∧
    Sp.rowsAfter 0 0 ([bytes1500.take 100, bytes1500.drop 100].map Sp.Op.update) = 2 ∧
    Sp.rowsAfter 0 0 ([bytes1500.take 1000, bytes1500.drop 1000].map Sp.Op.update) = 1 ∧
    Sp.rowsAfter 0 0 ([bytes1500.take 500, (bytes1500.drop 500).take 524].map Sp.Op.update) = 0 ∧
    Sp.rowsAfter 0 0 ([bytes1500.take 1024].map Sp.Op.update) = 1 := by
  obtain ⟨s, s', d, h1, h2, -⟩ := Sp.C27_digest debugAvx2 (by decide) _ Sp.shortParams_accepted (by decide)
    [bytes1500] (fun _ => by
      rw [List.flatten_cons, List.flatten_nil, List.append_nil, length1500]
      decide)
  have e : (Sp.chunksT debugAvx2 Sp.shortParams [bytes1500]).1 = .ok d := by
    rw [C50_blake2sp_same_results, h1]
    show Except.bind (s.run debugAvx2 ([bytes1500].map Sp.Op.update ++ [.finalize])) _ = _
    rw [h2]
    rfl
  refine ⟨d, e, ?_, by decide +kernel, by decide +kernel, by decide +kernel, by decide +kernel⟩
  rw [C54_blake2sp_one_piece debugAvx2 (by decide) _ Sp.shortParams_accepted bytes1500 d e, length1500]

end Blake2s
