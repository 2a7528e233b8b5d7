import Verif.Model.BenchLeak
import Verif.Props.Bench
import Verif.Props.Used
/-!
# C47: the code that the hashing benchmarks run

The benchmarks of Verif/Model/BenchLeak.lean are those of Verif/Model/Bench.lean, with a trace of what they execute.
`Event.code` (Verif/Used.lean) tells whether an event is portable or vector code, and `blocks t` is the number of
blocks compressed in the course of the trace `t`.
-/

namespace Blake2s.Bench

open Blake2s.Tr

theorem eighthOfT_fst (input : List U8) (n i : Nat) : (eighthOfT input n i).1 = eighthOf input n i := by
  unfold eighthOfT eighthOf
  simp only [bind_fst, sliceToT_fst, sliceFromT_fst]

/-- **C47**: without the traces, they are the models of the benchmarks. -/
theorem C47_same_results (E : Env) (input : List U8) (eight : Vector (List U8) 8) :
    (hashPortableT E input).1 = hashPortable E input ∧ (hashBlake2spT E input).1 = hashBlake2sp E input ∧
    (doUpdate8T E eight).1 = doUpdate8 E eight ∧ (hash4T E input).1 = hash4 E input ∧
    (hash8ExactT E input).1 = hash8Exact E input ∧ (hash8InexactT E input).1 = hash8Inexact E input ∧
    (hashUpdate8T E input).1 = hashUpdate8 E input := by
  refine ⟨?_, blake2spT_fst E input, ?_, hash4ExactT_fst E _ _, Blake2s.hash8ExactT_fst E _ _, hash8T_fst E _ _, ?_⟩
  · unfold hashPortableT hashPortable
    simp only [bind_fst, State.newT_fst, State.updateT_fst, State.finalizeT_fst, pure_fst]
  · unfold doUpdate8T doUpdate8
    simp only [bind_fst, State.newT_fst, update8T_fst, finalize8T_fst, pure_fst]
  · unfold hashUpdate8T hashUpdate8
    simp only [bind_fst, State.newT_fst, eighthOfT_fst, update8T_fst, finalize8T_fst, pure_fst]

example : (hashPortableT debugAvx2 bytes150).1 = hashPortable debugAvx2 bytes150 :=
  (C47_same_results debugAvx2 bytes150 laneInput).1

/-- **C47**: the portable benchmarks measure portable code only, on every platform. -/
theorem C47_portable (E : Env) (input : List U8) :
    ∀ e ∈ (hashPortableT E input).2, e.code ≠ some .vector := by
  have L : Plain fun e : Event => e.code ≠ some .vector := ⟨nofun, nofun, nofun, nofun, nofun⟩
  have hn : Ev (fun e => e.code ≠ some .vector) (State.newT E) fun _ => True := by
    unfold State.newT State.withParamsT
    dsimp only
    refine Ev.bind (S := fun b => b = false) ⟨(ev_test L _).1, fun a e => ?_⟩ fun b hb => ?_
    · rw [test_fst] at e
      cases e
      decide
    · subst hb
      exact .pure trivial
  refine (Ev.bind (Q := fun _ => True) hn fun s _ => ?_).1
  refine Ev.bind (State.ev_update (f := .portable) L nofun E s.forcePortable rfl input) fun s hs => ?_
  exact Ev.bind (State.ev_finalize (f := .portable) L nofun E s hs) fun _ _ => .pure trivial

/-- **C47**: and they compress every block of their input once, on every platform. -/
theorem C47_portable_blocks (E : Env) (hE : E.WF) (input : List U8)
    (h : E.overflowChecks = true → input.length < 2 ^ 64) :
    blocks (hashPortableT E input).2 = blocksFor input.length := by
  obtain ⟨d, e, -⟩ := (C47_hash E hE input h).1
  rw [← (C47_same_results E input (Vector.replicate 8 [])).1] at e
  obtain ⟨s, e0, -⟩ := Tests.new_ok E hE
  have hq : Quiet (State.newT E) := rfl
  have hr : Reaches E Params.default [.forcePortable] s.forcePortable := ⟨s, [], e0, rfl⟩
  have hfit : Fits E Params.default input.length := fun ho => by
    have := h ho
    rw [if_pos (show Params.default.keyLength = 0 from rfl)]
    omega
  have hp : Params.default.Accepted := ⟨[], rfl⟩
  suffices H : Post (hashPortableT E input) fun _ n => n = blocksFor input.length from H d e
  refine Post.quiet hq fun s' es => ?_
  rw [State.newT_fst] at es
  cases e0.symm.trans es
  have hu := C50_update E hE Params.default hp _ _ hr input 0 rfl (by simpa [fed] using hfit)
  rw [Nat.zero_add] at hu
  refine Post.bind (P := fun s1 n => s.forcePortable.update E input = .ok s1 ∧ n = blocksFor input.length - 1)
    (fun s1 e1 => ⟨by rw [← State.updateT_fst]; exact e1, hu⟩) ?_
  rintro s1 n ⟨e1, rfl⟩
  have hr1 : Reaches E Params.default [.forcePortable, .update input] s1 := by
    refine ⟨s, [], e0, ?_⟩
    show (s.forcePortable.update E input >>= fun s => pure (s, [])) = _
    rw [e1]
    rfl
  have hb : 1 ≤ blocksFor input.length := by
    rw [blocksFor_eq]
    omega
  refine Post.bind (P := fun _ n => n = 1) (fun _ _ => C50_finalize E hE Params.default hp _ s1 hr1) ?_
  rintro r n rfl
  refine Post.pure ?_
  omega

/-- 1500 bytes are 24 blocks. -/
example : blocks (hashPortableT debugAvx2 bytes1500).2 = 24 ∧
    ∀ e ∈ (hashPortableT debugAvx2 bytes1500).2, e.code ≠ some .vector := by
  have h := C47_portable_blocks debugAvx2 (by decide) bytes1500 (fun _ => by rw [length1500]; decide)
  rw [length1500] at h
  exact ⟨h, C47_portable _ _⟩

/-- **C47**: the other hashing benchmarks measure vector code only, wherever the vector code can be used. -/
theorem C47_vector (E : Env) (h : E.usesAvx2 = true) (input : List U8) (eight : Vector (List U8) 8) :
    (∀ e ∈ (hashBlake2spT E input).2, e.code ≠ some .portable) ∧
    (∀ e ∈ (doUpdate8T E eight).2, e.code ≠ some .portable) ∧
    (∀ e ∈ (hash4T E input).2, e.code ≠ some .portable) ∧
    (∀ e ∈ (hash8ExactT E input).2, e.code ≠ some .portable) ∧
    (∀ e ∈ (hash8InexactT E input).2, e.code ≠ some .portable) ∧
    (∀ e ∈ (hashUpdate8T E input).2, e.code ≠ some .portable) := by
  have O := only_vector h
  have L := O.toPlain
  refine ⟨(ev_blake2sp O input).1, ?_, (ev_hash4Exact O _ _).1, (ev_hash8Exact O _ _).1, (ev_hash8 O _ _).1, ?_⟩
  · refine (Ev.bind (Q := fun _ => True) (State.ev_withParams L O.compress _) fun _ h0 => ?_).1
    refine Ev.bind (State.ev_withParams L O.compress _) fun _ h1 => ?_
    refine Ev.bind (State.ev_withParams L O.compress _) fun _ h2 => ?_
    refine Ev.bind (State.ev_withParams L O.compress _) fun _ h3 => ?_
    refine Ev.bind (State.ev_withParams L O.compress _) fun _ h4 => ?_
    refine Ev.bind (State.ev_withParams L O.compress _) fun _ h5 => ?_
    refine Ev.bind (State.ev_withParams L O.compress _) fun _ h6 => ?_
    refine Ev.bind (State.ev_withParams L O.compress _) fun _ h7 => ?_
    refine Ev.bind (ev_update8 L O.compress E O.compress8 _ (.mk h0 h1 h2 h3 h4 h5 h6 h7) _) fun st hst => ?_
    exact Ev.bind (ev_finalize8 L E O.compress8 st hst) fun _ _ => .pure trivial
  · have he : ∀ n i, Ev (fun e : Event => e.code ≠ some .portable) (eighthOfT input n i) fun _ => True := fun n i =>
      Ev.bind (ev_sliceFromT L _ _) fun _ _ => ev_sliceToT L _ _
    refine (Ev.bind (Q := fun _ => True) (State.ev_withParams L O.compress _) fun _ h0 => ?_).1
    refine Ev.bind (State.ev_withParams L O.compress _) fun _ h1 => ?_
    refine Ev.bind (State.ev_withParams L O.compress _) fun _ h2 => ?_
    refine Ev.bind (State.ev_withParams L O.compress _) fun _ h3 => ?_
    refine Ev.bind (State.ev_withParams L O.compress _) fun _ h4 => ?_
    refine Ev.bind (State.ev_withParams L O.compress _) fun _ h5 => ?_
    refine Ev.bind (State.ev_withParams L O.compress _) fun _ h6 => ?_
    refine Ev.bind (State.ev_withParams L O.compress _) fun _ h7 => ?_
    dsimp only
    iterate 8 refine Ev.bind (he _ _) fun _ _ => ?_
    refine Ev.bind (ev_update8 L O.compress E O.compress8 _ (.mk h0 h1 h2 h3 h4 h5 h6 h7) _) fun st hst => ?_
    exact Ev.bind (ev_finalize8 L E O.compress8 st hst) fun _ _ => .pure trivial

example : ∀ e ∈ (hashUpdate8T debugAvx2 bytes1500).2, e.code ≠ some .portable :=
  (C47_vector debugAvx2 rfl bytes1500 laneInput).2.2.2.2.2

end Blake2s.Bench
