import Verif.Used
import Verif.Proofs.WorkSp
import Verif.Proofs.Usize
/-!
# Which functions are called through the function pointers
-/

namespace Blake2s

open Tr (lift emit orPanic)

variable {α β : Type} {P : Event → Prop}

/-- Every event is of a certain kind, and this is known about the result. -/
def Ev (P : Event → Prop) (m : Tr α) (Q : α → Prop) : Prop :=
  (∀ e ∈ m.2, P e) ∧ ∀ a, m.1 = .ok a → Q a

/-- All events but those about implementations are of that kind. -/
structure Plain (P : Event → Prop) : Prop where
  branch : ∀ b, P (.branch b)
  address : ∀ n, P (.address n)
  usize : ∀ n, P (.usize n)
  number : ∀ n, P (.number n)
  panic : ∀ s, P (.panic s)

theorem Ev.pure {Q : α → Prop} {a : α} (h : Q a) : Ev P (Pure.pure a) Q :=
  ⟨fun _ h => (List.not_mem_nil h).elim, fun _ e => by cases e; exact h⟩

theorem Ev.bind {m : Tr α} {f : α → Tr β} {S : α → Prop} {Q : β → Prop}
    (h : Ev P m S) (k : ∀ a, S a → Ev P (f a) Q) : Ev P (m >>= f) Q := by
  obtain ⟨r, t⟩ := m
  cases r with
  | error x => exact ⟨h.1, fun a e => by cases e⟩
  | ok a =>
    obtain ⟨k1, k2⟩ := k a (h.2 a rfl)
    refine ⟨fun e he => ?_, k2⟩
    have he : e ∈ t ++ (f a).2 := he
    rcases List.mem_append.mp he with he | he
    · exact h.1 e he
    · exact k1 e he

theorem Ev.mono {m : Tr α} {S Q : α → Prop} (h : Ev P m S) (i : ∀ a, S a → Q a) : Ev P m Q :=
  ⟨h.1, fun a e => i a (h.2 a e)⟩

theorem Ev.any {m : Tr α} {S : α → Prop} (h : Ev P m S) : Ev P m fun _ => True := h.mono fun _ _ => trivial

theorem Ev.ite {c : Prop} [Decidable c] {a b : Tr α} {Q : α → Prop} (h : c → Ev P a Q) (k : ¬ c → Ev P b Q) :
    Ev P (if c then a else b) Q := by
  split
  · exact h ‹_›
  · exact k ‹_›

theorem Ev.lift (r : R α) : Ev P (Tr.lift r) fun _ => True :=
  ⟨fun _ h => (List.not_mem_nil h).elim, fun _ _ => trivial⟩

theorem Ev.fail {Q : α → Prop} (f : Fault) : Ev P (Tr.lift (throw f : R α)) Q :=
  ⟨fun _ h => (List.not_mem_nil h).elim, fun _ e => by cases e⟩

theorem Ev.emit {e : Event} (h : P e) : Ev P (Tr.emit e) fun _ => True := by
  refine ⟨fun x hx => ?_, fun _ _ => trivial⟩
  rcases List.mem_cons.mp hx with rfl | hx
  · exact h
  · exact (List.not_mem_nil hx).elim

theorem Plain.orPanic (L : Plain P) (r : R α) (s : String) : Ev P (Tr.orPanic r s) fun _ => True := by
  refine ⟨fun e h => ?_, fun _ _ => trivial⟩
  cases r with
  | ok a => exact (List.not_mem_nil h).elim
  | error f =>
    rcases List.mem_cons.mp h with rfl | h
    · exact L.panic s
    · exact (List.not_mem_nil h).elim

/-! ## Primitives -/

/-- Go through a sequence of steps about whose results nothing needs to be known. -/
macro "plain_steps" : tactic => `(tactic| with_reducible repeat' first
  | exact Ev.pure trivial | exact Ev.fail _ | exact Ev.lift _
  | exact Ev.emit (Plain.branch ‹_› _) | exact Ev.emit (Plain.address ‹_› _) | exact Ev.emit (Plain.usize ‹_› _)
  | exact Ev.emit (Plain.number ‹_› _) | exact Plain.orPanic ‹_› _ _
  | refine Ev.bind (S := fun _ => True) ?_ fun _ _ => ?_ | refine Ev.ite (fun _ => ?_) fun _ => ?_)

theorem ev_test (L : Plain P) (c : Bool) : Ev P (test c) fun _ => True := by unfold test; plain_steps
theorem ev_testAll (L : Plain P) (cs : List Bool) : Ev P (testAll cs) fun _ => True := by
  induction cs with
  | nil => exact .pure trivial
  | cons c cs ih =>
    unfold testAll
    exact Ev.bind (ev_test L c) fun _ _ => .ite (fun _ => ih) fun _ => .pure trivial
theorem ev_addChkT (L : Plain P) {w : Nat} (E : Env) (a b : BitVec w) : Ev P (addChkT E a b) fun _ => True := by
  unfold addChkT; plain_steps
theorem ev_subChkT (L : Plain P) {w : Nat} (E : Env) (a b : BitVec w) : Ev P (subChkT E a b) fun _ => True := by
  unfold subChkT; plain_steps
theorem ev_usizeSubT (L : Plain P) (a b : Nat) : Ev P (usizeSubT a b) fun _ => True := by unfold usizeSubT; plain_steps
theorem ev_usizeAddT (L : Plain P) (a b : Nat) : Ev P (usizeAddT a b) fun _ => True := by unfold usizeAddT; plain_steps
theorem ev_minT (L : Plain P) (a b : Nat) : Ev P (minT a b) fun _ => True := by unfold minT; plain_steps
theorem ev_sliceToT (L : Plain P) (s : List U8) (n : Nat) : Ev P (sliceToT s n) fun _ => True := by
  unfold sliceToT; plain_steps
theorem ev_sliceFromT (L : Plain P) (s : List U8) (n : Nat) : Ev P (sliceFromT s n) fun _ => True := by
  unfold sliceFromT; plain_steps
theorem ev_copyFromSliceT (L : Plain P) {n : Nat} (d : Vector U8 n) (a b : Nat) (s : List U8) :
    Ev P (copyFromSliceT d a b s) fun _ => True := by unfold copyFromSliceT; plain_steps
theorem ev_arrayRefT (L : Plain P) (s : List U8) (o n : Nat) : Ev P (arrayRefT s o n) fun _ => True := by
  unfold arrayRefT; plain_steps
theorem ev_readBlockPtrT (L : Plain P) (s : List U8) (o : Nat) : Ev P (readBlockPtrT s o) fun _ => True := by
  unfold readBlockPtrT; plain_steps
theorem ev_assertT (L : Plain P) (c : Bool) (s : String) : Ev P (assertT c s) fun _ => True := by unfold assertT; plain_steps
theorem ev_debugAssertT (L : Plain P) (E : Env) (c : Bool) (s : String) : Ev P (debugAssertT E c s) fun _ => True := by
  unfold debugAssertT; plain_steps
theorem ev_zeroTailT (L : Plain P) (b : Block) (n : U8) : Ev P (State.zeroTailT b n) fun _ => True := by
  unfold State.zeroTailT; plain_steps
theorem ev_flagWordT (L : Plain P) (b : Bool) : Ev P (State.flagWordT b) fun _ => True := by
  unfold State.flagWordT
  exact Ev.bind (ev_test L b) fun _ _ => by plain_steps
theorem ev_wordT (L : Plain P) (m : Vector U32 16) (r : Fin 12) (i : Fin 16) :
    Ev P (Portable.wordT m r i) fun _ => True := by unfold Portable.wordT; plain_steps
theorem ev_asBytesT (L : Plain P) (h : Hash) : Ev P h.asBytesT fun _ => True := ev_sliceToT L _ _
theorem ev_saturatingSubT (L : Plain P) (n : Nat) : Ev P (Sp.State.saturatingSubT n) fun _ => True := by
  unfold Sp.State.saturatingSubT; plain_steps

/-- The same, through the primitives. -/
macro "plain_prims" : tactic => `(tactic| with_reducible repeat' first
  | exact Ev.pure trivial | exact Ev.fail _ | exact Ev.lift _
  | exact ev_test ‹_› _ | exact ev_testAll ‹_› _ | exact ev_addChkT ‹_› _ _ _ | exact ev_subChkT ‹_› _ _ _
  | exact ev_usizeSubT ‹_› _ _ | exact ev_usizeAddT ‹_› _ _ | exact ev_minT ‹_› _ _ | exact ev_sliceToT ‹_› _ _
  | exact ev_sliceFromT ‹_› _ _ | exact ev_copyFromSliceT ‹_› _ _ _ _ | exact ev_arrayRefT ‹_› _ _ _
  | exact ev_readBlockPtrT ‹_› _ _ | exact ev_assertT ‹_› _ _ | exact ev_debugAssertT ‹_› _ _ _
  | exact ev_zeroTailT ‹_› _ _ | exact ev_flagWordT ‹_› _ | exact ev_wordT ‹_› _ _ _ | exact ev_asBytesT ‹_› _
  | exact ev_saturatingSubT ‹_› _
  | exact Ev.emit (Plain.branch ‹_› _) | exact Ev.emit (Plain.address ‹_› _) | exact Ev.emit (Plain.usize ‹_› _)
  | exact Ev.emit (Plain.number ‹_› _) | exact Plain.orPanic ‹_› _ _
  | refine Ev.bind (S := fun _ => True) ?_ fun _ _ => ?_ | refine Ev.ite (fun _ => ?_) fun _ => ?_)

/-! ## Compression -/

theorem ev_roundT (L : Plain P) (r : Fin 12) (m v : Vector U32 16) : Ev P (Portable.roundT r m v) fun _ => True := by
  unfold Portable.roundT; plain_prims

theorem ev_compressT (L : Plain P) (h : StateWords) (m : Block) (c : U64) (a b : U32) :
    Ev P (Portable.compressT h m c a b) fun _ => True := by
  unfold Portable.compressT
  dsimp only
  with_reducible repeat' first
    | exact ev_roundT L _ _ _ | exact Ev.pure trivial | refine Ev.bind (S := fun _ => True) ?_ fun _ _ => ?_

theorem ev_compress8T (L : Plain P) (h : Vector StateWords 8) (m : Vector Block 8) (c : Vector U64 8)
    (a b : Vector U32 8) : Ev P (Portable.compress8T h m c a b) fun _ => True := by
  unfold Portable.compress8T
  with_reducible repeat' first
    | exact ev_compressT L _ _ _ _ _ | exact Ev.pure trivial
    | refine Ev.bind (S := fun _ => True) ?_ fun _ _ => ?_

theorem ev_compress8VectorizedT (L : Plain P) (E : Env) (w : Vector StateWords 8) (m : Vector Block 8)
    (cl ch a b : Vector U32 8) : Ev P (Portable.compress8VectorizedT E w m cl ch a b) fun _ => True := by
  unfold Portable.compress8VectorizedT Portable.joinCountT
  with_reducible repeat' first
    | exact ev_compressT L _ _ _ _ _ | exact ev_addChkT L _ _ _ | exact Ev.pure trivial
    | refine Ev.bind (S := fun _ => True) ?_ fun _ _ => ?_

theorem ev_compress (L : Plain P) {f : CompressFn} (hf : P (.compress f)) (E : Env) (h : StateWords) (m : Block)
    (c : U64) (a b : U32) : Ev P (f.callT E h m c a b) fun _ => True := by
  unfold CompressFn.callT
  refine Ev.bind (.emit hf) fun _ _ => ?_
  cases f
  · exact ev_compressT L _ _ _ _ _
  · exact .lift _

theorem ev_compress8 (L : Plain P) {f : Compress8Fn} (hf : P (.compress8 f)) (E : Env) (h : Vector StateWords 8)
    (m : Vector Block 8) (c : Vector U64 8) (a b : Vector U32 8) : Ev P (f.callT E h m c a b) fun _ => True := by
  unfold Compress8Fn.callT
  refine Ev.bind (.emit hf) fun _ _ => ?_
  cases f
  · exact ev_compress8T L _ _ _ _ _
  · exact .lift _

theorem ev_vectorize8 {f : Vectorize8Fn} (hf : P (.vectorize8 f)) (E : Env) (w : Vector StateWords 8) :
    Ev P (f.callT E w) fun _ => True := by
  unfold Vectorize8Fn.callT
  exact Ev.bind (.emit hf) fun _ _ => .lift _

theorem ev_compress8Vectorized (L : Plain P) {f : Compress8VectorizedFn} (hf : P (.compress8Vectorized f)) (E : Env)
    (w : Vector StateWords 8) (m : Vector Block 8) (cl ch a b : Vector U32 8) :
    Ev P (f.callT E w m cl ch a b) fun _ => True := by
  unfold Compress8VectorizedFn.callT
  refine Ev.bind (.emit hf) fun _ _ => ?_
  cases f
  · exact ev_compress8VectorizedT L _ _ _ _ _ _ _
  · exact .lift _

/-! ## Parameters and hashes -/

theorem Params.ev_set (L : Plain P) (p : Params) (c : Setter) : Ev P (p.setT c) fun _ => True := by
  cases c with
  | hashLength n => unfold setT setHashLengthT; plain_prims
  | key k => unfold setT setKeyT; plain_prims
  | salt k => unfold setT setSaltT; plain_prims
  | personal k => unfold setT setPersonalT; plain_prims
  | maxDepth n => unfold setT setMaxDepthT; plain_prims
  | nodeOffset n => unfold setT setNodeOffsetT; plain_prims
  | innerHashLength n => unfold setT setInnerHashLengthT; plain_prims
  | _ => exact .pure trivial

theorem Sp.Params.ev_set (L : Plain P) (p : Sp.Params) (c : Sp.Setter) : Ev P (p.setT c) fun _ => True := by
  cases c with
  | hashLength n => unfold setT setHashLengthT; plain_prims
  | key k => unfold setT setKeyT; plain_prims

theorem ev_constantTimeEqT (L : Plain P) (a b : List U8) : Ev P (constantTimeEqT a b) fun _ => True := by
  unfold constantTimeEqT; plain_prims

theorem ev_hexLoop (L : Plain P) (b : List U8) (s : List Char) : Ev P (bytesToHexLoopT b s) fun _ => True := by
  induction b generalizing s with
  | nil => unfold bytesToHexLoopT; plain_prims
  | cons x xs ih =>
    rw [bytesToHexLoopT]
    unfold hexTableT arrayStringPushT
    with_reducible repeat' first
      | exact ih _ | exact Plain.orPanic L _ _ | exact Ev.emit (L.branch _) | exact Ev.emit (L.address _)
      | refine Ev.bind (S := fun _ => True) ?_ fun _ _ => ?_

theorem Hash.ev_toHex (L : Plain P) (h : Hash) : Ev P h.toHexT fun _ => True :=
  Ev.bind (ev_asBytesT L h) fun b _ => ev_hexLoop L b []

theorem Hash.ev_debug (L : Plain P) (h : Hash) : Ev P h.debugT fun _ => True :=
  Ev.bind (h.ev_toHex L) fun _ _ => .pure trivial

theorem Hash.ev_eq (L : Plain P) (a b : Hash) : Ev P (a.eqHashT b) fun _ => True :=
  Ev.bind (ev_asBytesT L _) fun _ _ => Ev.bind (ev_asBytesT L _) fun _ _ => ev_constantTimeEqT L _ _

theorem Hash.ev_eqSlice (L : Plain P) (a : Hash) (b : List U8) : Ev P (a.eqSliceT b) fun _ => True :=
  Ev.bind (ev_asBytesT L _) fun _ _ => ev_constantTimeEqT L _ _

/-! ## States -/

variable {f : CompressFn} {g : Compress8Fn}

/-- Steps whose results do not matter. -/
macro "plain_step" : tactic => `(tactic| (refine Ev.bind (S := fun _ => True) (by plain_prims) fun _ _ => ?_))

namespace State

/-- The state uses this compression function. -/
def Uses (f : CompressFn) (s : State) : Prop := s.compressFn = f

theorem ev_fillBuf (L : Plain P) (E : Env) (s : State) (hs : s.Uses f) (input : List U8) :
    Ev P (s.fillBufT E input) fun r => r.1.Uses f := by
  unfold fillBufT
  repeat plain_step
  exact .pure hs

theorem ev_compressBuffer (L : Plain P) (hf : P (.compress f)) (E : Env) (s : State) (hs : s.Uses f)
    (input : List U8) : Ev P (s.compressBufferIfPossibleT E input) fun r => r.1.Uses f := by
  unfold compressBufferIfPossibleT
  refine Ev.bind (ev_test L _) fun _ _ => Ev.ite (fun _ => ?_) fun _ => .pure hs
  refine Ev.bind (ev_fillBuf L E s hs input) fun r hr => ?_
  obtain ⟨s, input⟩ := r
  refine Ev.bind (ev_test L _) fun _ _ => Ev.ite (fun _ => ?_) fun _ => .pure hr
  have hr : s.compressFn = f := hr
  refine Ev.bind (ev_compress L (by rw [hr]; exact hf) _ _ _ _ _ _) fun _ _ => .pure hr

theorem ev_updateLoop (L : Plain P) (hf : P (.compress f)) (E : Env) (n : Nat) (s : State) (hs : s.Uses f)
    (input : List U8) : Ev P (updateLoopT E n s input) fun r => r.1.Uses f := by
  induction n generalizing s input with
  | zero => exact .fail _
  | succ n ih =>
    rw [updateLoopT]
    refine Ev.bind (ev_test L _) fun _ _ => Ev.ite (fun _ => ?_) fun _ => .pure hs
    refine Ev.bind (ev_addChkT L _ _ _) fun _ _ => ?_
    refine Ev.bind (ev_arrayRefT L _ _ _) fun _ _ => ?_
    have hs' : s.compressFn = f := hs
    refine Ev.bind (ev_compress L (by show P (.compress s.compressFn); rw [hs']; exact hf) _ _ _ _ _ _) fun _ _ => ?_
    refine Ev.bind (ev_sliceFromT L _ _) fun _ _ => ih _ ?_ _
    exact hs

theorem ev_update (L : Plain P) (hf : P (.compress f)) (E : Env) (s : State) (hs : s.Uses f) (input : List U8) :
    Ev P (s.updateT E input) (Uses f) := by
  unfold updateT
  refine Ev.bind (ev_compressBuffer L hf E s hs input) fun r hr => ?_
  refine Ev.bind (ev_updateLoop L hf E _ _ hr _) fun r hr => ?_
  exact Ev.bind (ev_fillBuf L E _ hr _) fun r hr => .pure hr

theorem ev_withParams (L : Plain P) (hf : P (.compress (defaultCompressImpl E).compress)) (p : Params) :
    Ev P (withParamsT E p) (Uses (defaultCompressImpl E).compress) := by
  unfold withParamsT
  dsimp only
  refine Ev.bind (ev_test L _) fun _ _ => Ev.ite (fun _ => ?_) fun _ => .pure rfl
  refine Ev.bind (ev_copyFromSliceT L _ _ _ _) fun _ _ => ?_
  refine ev_update L hf E _ ?_ _
  exact (rfl : (defaultCompressImpl E).compress = _)

theorem ev_finalize (L : Plain P) (hf : P (.compress f)) (E : Env) (s : State) (hs : s.Uses f) :
    Ev P (s.finalizeT E) fun r => r.1.Uses f := by
  unfold finalizeT
  dsimp only
  refine Ev.bind (ev_zeroTailT L _ _) fun _ _ => Ev.bind (ev_flagWordT L _) fun _ _ => ?_
  have hs' : s.compressFn = f := hs
  exact Ev.bind (ev_compress L (by show P (.compress s.compressFn); rw [hs']; exact hf) _ _ _ _ _ _) fun _ _ =>
    .pure hs

theorem ev_write (L : Plain P) (hf : P (.compress f)) (E : Env) (s : State) (hs : s.Uses f) (input : List U8) :
    Ev P (s.writeT E input) fun r => r.1.Uses f :=
  Ev.bind (ev_update L hf E s hs input) fun _ h => .pure h

theorem ev_debug (L : Plain P) (s : State) : Ev P s.debugT fun _ => True := by
  unfold debugT; plain_prims

/-- Histories of one state. -/
theorem ev_run (L : Plain P) (hf : P (.compress f)) (E : Env) (ops : List Op)
    (ho : f = .portable ∨ .forcePortable ∉ ops) (s : State) (hs : s.Uses f) :
    Ev P (s.runT E ops) fun r => r.1.Uses f := by
  induction ops generalizing s with
  | nil => exact .pure hs
  | cons o ops ih =>
    have ih := ih (ho.imp_right fun h hm => h (.tail _ hm))
    cases o with
    | update i => exact Ev.bind (ev_update L hf E s hs i) fun s hs => ih s hs
    | write i => exact Ev.bind (ev_write L hf E s hs i) fun s hs => ih s.1 hs
    | flush => exact ih s hs
    | finalize =>
      exact Ev.bind (ev_finalize L hf E s hs) fun r hr => Ev.bind (ih r.1 hr) fun _ h => .pure h
    | setLastNode b => exact ih _ hs
    | forcePortable =>
      rcases ho with h | h
      · exact ih _ h.symm
      · exact absurd (List.mem_cons_self ..) h

end State

theorem ev_hashOne (L : Plain P) {E : Env} (hf : P (.compress (defaultCompressImpl E).compress)) (p : Params)
    (input : List U8) : Ev P (hashOneT E p input) fun _ => True := by
  unfold hashOneT
  refine Ev.bind (State.ev_withParams L hf p) fun s hs => ?_
  refine Ev.bind (State.ev_update L hf E s hs _) fun s hs => ?_
  exact Ev.bind (State.ev_finalize L hf E s hs) fun _ _ => .pure trivial

theorem ev_blake2s (L : Plain P) {E : Env} (hf : P (.compress (defaultCompressImpl E).compress)) (input : List U8) :
    Ev P (blake2sT E input) fun _ => True :=
  ev_hashOne L hf Params.default input

/-! ## Several inputs -/

/-- The events of code that uses these implementations. -/
structure Only (P : Event → Prop) (i : Impl) : Prop extends Plain P where
  compress : P (.compress i.compress)
  compress8 : P (.compress8 i.compress8)
  vectorize8 : P (.vectorize8 i.vectorize8)
  compress8Vectorized : P (.compress8Vectorized i.compress8Vectorized)
  hash4Exact : P (.hash4Exact i.hash4Exact)
  hash8Exact : P (.hash8Exact i.hash8Exact)
  four : i.hash4Exact = .sse41 → P (.compressTransposed 4)
  eight : i.hash8Exact = .avx2 → P (.compressTransposed 8)

theorem ev_exactLastNode (L : Plain P) (p : Params) (c n : Nat) : Ev P (exactLastNodeT p c n) fun _ => True := by
  unfold exactLastNodeT; plain_prims

theorem Sse41.ev_loop (L : Plain P) (h4 : P (.compressTransposed 4)) (p : Params) (input : Vector (List U8) 4)
    (len n : Nat) (h : Vector X86.M128 8) (c : Nat) : Ev P (hash4ExactLoopT p input len n h c) fun _ => True := by
  induction n generalizing h c with
  | zero => exact .fail _
  | succ n ih =>
    rw [hash4ExactLoopT]
    iterate 4 refine Ev.bind (ev_readBlockPtrT L _ _) fun _ _ => ?_
    refine Ev.bind (ev_usizeAddT L _ _) fun d hd => ?_
    refine Ev.bind (ev_flagWordT L _) fun _ _ => Ev.bind (ev_exactLastNode L _ _ _) fun _ _ => ?_
    refine Ev.bind (.emit h4) fun _ _ => Ev.bind (ev_test L _) fun _ _ => ?_
    exact Ev.ite (fun _ => .pure trivial) fun _ => ih _ _

theorem Avx2.ev_loop (L : Plain P) (h8 : P (.compressTransposed 8)) (p : Params) (input : Vector (List U8) 8)
    (len n : Nat) (h : Vector X86.M256 8) (c : Nat) : Ev P (hash8ExactLoopT p input len n h c) fun _ => True := by
  induction n generalizing h c with
  | zero => exact .fail _
  | succ n ih =>
    rw [hash8ExactLoopT]
    iterate 8 refine Ev.bind (ev_readBlockPtrT L _ _) fun _ _ => ?_
    refine Ev.bind (ev_usizeAddT L _ _) fun d hd => ?_
    refine Ev.bind (ev_flagWordT L _) fun _ _ => Ev.bind (ev_exactLastNode L _ _ _) fun _ _ => ?_
    refine Ev.bind (.emit h8) fun _ _ => Ev.bind (ev_test L _) fun _ _ => ?_
    exact Ev.ite (fun _ => .pure trivial) fun _ => ih _ _

theorem ev_hash4Exact {E : Env} (O : Only P (defaultCompressImpl E)) (p : Params) (input : Vector (List U8) 4) :
    Ev P (hash4ExactT E p input) fun _ => True := by
  have L := O.toPlain
  unfold hash4ExactT
  dsimp only
  refine Ev.bind (ev_testAll L _) fun _ _ => Ev.bind (ev_testAll L _) fun _ _ => ?_
  refine Ev.bind (ev_assertT L _ _) fun _ _ => ?_
  unfold Hash4ExactFn.callT
  refine Ev.bind (.emit O.hash4Exact) fun _ _ => ?_
  cases h : (defaultCompressImpl E).hash4Exact
  · dsimp only
    unfold Portable.hash4ExactT
    iterate 4 refine Ev.bind (ev_hashOne L O.compress _ _) fun _ _ => ?_
    exact .pure trivial
  · exact Ev.ite (fun _ => Sse41.ev_loop L (O.four h) _ _ _ _ _ _) fun _ => .fail _

theorem ev_hash8Exact {E : Env} (O : Only P (defaultCompressImpl E)) (p : Params) (input : Vector (List U8) 8) :
    Ev P (hash8ExactT E p input) fun _ => True := by
  have L := O.toPlain
  unfold hash8ExactT
  dsimp only
  refine Ev.bind (ev_testAll L _) fun _ _ => Ev.bind (ev_testAll L _) fun _ _ => ?_
  refine Ev.bind (ev_assertT L _ _) fun _ _ => ?_
  unfold Hash8ExactFn.callT
  refine Ev.bind (.emit O.hash8Exact) fun _ _ => ?_
  cases h : (defaultCompressImpl E).hash8Exact
  · dsimp only
    unfold Portable.hash8ExactT
    iterate 8 refine Ev.bind (ev_hashOne L O.compress _ _) fun _ _ => ?_
    exact .pure trivial
  · exact Ev.ite (fun _ => Avx2.ev_loop L (O.eight h) _ _ _ _ _ _) fun _ => .fail _

/-- Eight states use this compression function. -/
def Uses8 (f : CompressFn) (st : Vector State 8) : Prop := ∀ i : Fin 8, st[i].Uses f

theorem Uses8.mk {s0 s1 s2 s3 s4 s5 s6 s7 : State} (h0 : s0.Uses f) (h1 : s1.Uses f) (h2 : s2.Uses f)
    (h3 : s3.Uses f) (h4 : s4.Uses f) (h5 : s5.Uses f) (h6 : s6.Uses f) (h7 : s7.Uses f) :
    Uses8 f #v[s0, s1, s2, s3, s4, s5, s6, s7] := fun i =>
  match i with
  | 0 => h0 | 1 => h1 | 2 => h2 | 3 => h3 | 4 => h4 | 5 => h5 | 6 => h6 | 7 => h7

theorem ev_update8Loop (L : Plain P) (hg : P (.compress8 g)) (E : Env) (n : Nat) (st : Vector State 8)
    (hs : Uses8 f st) (input : Vector (List U8) 8) : Ev P (update8LoopT E g n st input) fun r => Uses8 f r.1 := by
  induction n generalizing st input with
  | zero => exact .fail _
  | succ n ih =>
    rw [update8LoopT]
    refine Ev.bind (ev_testAll L _) fun _ _ => Ev.ite (fun _ => ?_) fun _ => .pure hs
    iterate 8 refine Ev.bind (ev_addChkT L _ _ _) fun _ _ => ?_
    iterate 8 refine Ev.bind (ev_arrayRefT L _ _ _) fun _ _ => ?_
    refine Ev.bind (ev_compress8 L hg _ _ _ _ _ _) fun _ _ => ?_
    iterate 8 refine Ev.bind (ev_sliceFromT L _ _) fun _ _ => ?_
    refine ih _ (.mk ?_ ?_ ?_ ?_ ?_ ?_ ?_ ?_) _
    · exact hs 0
    · exact hs 1
    · exact hs 2
    · exact hs 3
    · exact hs 4
    · exact hs 5
    · exact hs 6
    · exact hs 7

theorem ev_update8 (L : Plain P) (hf : P (.compress f)) (E : Env) (hg : P (.compress8 (defaultCompressImpl E).compress8))
    (st : Vector State 8) (hs : Uses8 f st) (input : Vector (List U8) 8) : Ev P (update8T E st input) (Uses8 f) := by
  unfold update8T
  refine Ev.bind (State.ev_compressBuffer L hf E _ (hs 0) _) fun _ h0 => ?_
  refine Ev.bind (State.ev_compressBuffer L hf E _ (hs 1) _) fun _ h1 => ?_
  refine Ev.bind (State.ev_compressBuffer L hf E _ (hs 2) _) fun _ h2 => ?_
  refine Ev.bind (State.ev_compressBuffer L hf E _ (hs 3) _) fun _ h3 => ?_
  refine Ev.bind (State.ev_compressBuffer L hf E _ (hs 4) _) fun _ h4 => ?_
  refine Ev.bind (State.ev_compressBuffer L hf E _ (hs 5) _) fun _ h5 => ?_
  refine Ev.bind (State.ev_compressBuffer L hf E _ (hs 6) _) fun _ h6 => ?_
  refine Ev.bind (State.ev_compressBuffer L hf E _ (hs 7) _) fun _ h7 => ?_
  refine Ev.bind (ev_update8Loop L hg E _ _ (.mk h0 h1 h2 h3 h4 h5 h6 h7) _) fun r hr => ?_
  refine Ev.bind (State.ev_update L hf E _ (hr 0) _) fun _ h0 => ?_
  refine Ev.bind (State.ev_update L hf E _ (hr 1) _) fun _ h1 => ?_
  refine Ev.bind (State.ev_update L hf E _ (hr 2) _) fun _ h2 => ?_
  refine Ev.bind (State.ev_update L hf E _ (hr 3) _) fun _ h3 => ?_
  refine Ev.bind (State.ev_update L hf E _ (hr 4) _) fun _ h4 => ?_
  refine Ev.bind (State.ev_update L hf E _ (hr 5) _) fun _ h5 => ?_
  refine Ev.bind (State.ev_update L hf E _ (hr 6) _) fun _ h6 => ?_
  refine Ev.bind (State.ev_update L hf E _ (hr 7) _) fun _ h7 => ?_
  exact .pure (.mk h0 h1 h2 h3 h4 h5 h6 h7)

theorem ev_finalize8 (L : Plain P) (E : Env) (hg : P (.compress8 (defaultCompressImpl E).compress8))
    (st : Vector State 8) (hs : Uses8 f st) : Ev P (finalize8T E st) fun r => Uses8 f r.1 := by
  unfold finalize8T
  iterate 8 refine Ev.bind (ev_zeroTailT L _ _) fun _ _ => ?_
  iterate 8 refine Ev.bind (ev_flagWordT L _) fun _ _ => ?_
  refine Ev.bind (ev_compress8 L hg _ _ _ _ _ _) fun _ _ => .pure ?_
  refine .mk ?_ ?_ ?_ ?_ ?_ ?_ ?_ ?_
  · exact hs 0
  · exact hs 1
  · exact hs 2
  · exact hs 3
  · exact hs 4
  · exact hs 5
  · exact hs 6
  · exact hs 7

theorem ev_allRemaining (L : Plain P) (p : Nat → Bool) (c : Nat) (l : List (List U8)) :
    Ev P (allRemainingT p c l) fun _ => True := by
  induction l with
  | nil => exact .pure trivial
  | cons x xs ih =>
    rw [allRemainingT]
    refine Ev.bind (ev_usizeSubT L _ _) fun _ _ => Ev.bind (ev_test L _) fun _ _ => ?_
    exact Ev.ite (fun _ => ih) fun _ => .pure trivial

theorem ev_hash8Flags (L : Plain P) (p : Vector Params 8) (b : Bool) : Ev P (hash8FlagsT p b) fun _ => True := by
  unfold hash8FlagsT; plain_prims

theorem ev_hash8Loop {i : Impl} (O : Only P i) (E : Env) (p : Vector Params 8) (input : Vector (List U8) 8)
    (n : Nat) (w : Vector StateWords 8) (c : Nat) : Ev P (hash8LoopT E i p input n w c) fun _ => True := by
  have L := O.toPlain
  induction n generalizing w c with
  | zero => exact .fail _
  | succ n ih =>
    rw [hash8LoopT]
    refine Ev.bind (ev_allRemaining L _ _ _) fun _ _ => Ev.bind (ev_allRemaining L _ _ _) fun _ _ => ?_
    refine Ev.bind (ev_testAll L _) fun _ _ => Ev.ite (fun _ => .pure trivial) fun _ => ?_
    iterate 8 refine Ev.bind (ev_arrayRefT L _ _ _) fun _ _ => ?_
    refine Ev.bind (ev_usizeAddT L _ _) fun d hd => ?_
    refine Ev.bind (ev_hash8Flags L _ _) fun _ _ => ?_
    refine Ev.bind (ev_compress8Vectorized L O.compress8Vectorized _ _ _ _ _ _ _) fun _ _ => ?_
    refine Ev.bind (ev_test L _) fun _ _ => Ev.ite (fun _ => ?_) fun _ => ih _ _
    exact Ev.bind (ev_vectorize8 O.vectorize8 _ _) fun _ _ => .pure trivial

theorem ev_hash8Finish {i : Impl} (L : Plain P) (hf : P (.compress i.compress)) (E : Env) (c : Nat) (p : Params)
    (w : StateWords) (input : List U8) : Ev P (hash8FinishT E i c p w input) fun _ => True := by
  unfold hash8FinishT
  dsimp only
  refine Ev.bind (ev_sliceFromT L _ _) fun _ _ => Ev.bind (State.ev_update (f := i.compress) L hf E _ ?_ _) fun s hs => ?_
  · exact (rfl : i.compress = _)
  exact Ev.bind (State.ev_finalize L hf E s hs) fun _ _ => .pure trivial

theorem ev_hash8 {E : Env} (O : Only P (defaultCompressImpl E)) (p : Vector Params 8) (input : Vector (List U8) 8) :
    Ev P (hash8T E p input) fun _ => True := by
  have L := O.toPlain
  unfold hash8T
  iterate 8 refine Ev.bind (ev_assertT L _ _) fun _ _ => ?_
  dsimp only
  refine Ev.bind (ev_vectorize8 O.vectorize8 _ _) fun _ _ => ?_
  refine Ev.bind (ev_hash8Loop O E _ _ _ _ _) fun x _ => ?_
  cases x with
  | ret => exact .pure trivial
  | brk w c =>
    dsimp only
    refine Ev.bind (ev_vectorize8 O.vectorize8 _ _) fun _ _ => ?_
    iterate 8 refine Ev.bind (ev_hash8Finish L O.compress E _ _ _ _) fun _ _ => ?_
    exact .pure trivial

/-! ## BLAKE2sp -/

namespace Sp

theorem ev_baseParams (L : Plain P) (p : Params) : Ev P (State.baseParamsT p) fun _ => True := by
  unfold State.baseParamsT
  refine Ev.bind (Blake2s.Params.ev_set L _ (.hashLength _)) fun _ _ => ?_
  refine Ev.bind (ev_sliceToT L _ _) fun _ _ => ?_
  refine Ev.bind (Blake2s.Params.ev_set L _ (.key _)) fun _ _ => ?_
  refine Ev.bind (Blake2s.Params.ev_set L _ (.maxDepth _)) fun _ _ => ?_
  exact Blake2s.Params.ev_set L _ (.innerHashLength _)

theorem ev_leafState (L : Plain P) {E : Env} (hf : P (.compress (defaultCompressImpl E).compress))
    (b : Blake2s.Params) (i : U64) :
    Ev P (State.leafStateT E b i) (Blake2s.State.Uses (defaultCompressImpl E).compress) := by
  unfold State.leafStateT
  refine Ev.bind (Blake2s.Params.ev_set L _ (.nodeOffset _)) fun _ _ => ?_
  exact Ev.bind (Blake2s.State.ev_withParams L hf _) fun _ h => .pure h

namespace State

/-- The tree uses these functions. -/
structure Uses (f : CompressFn) (g : Compress8Fn) (s : State) : Prop where
  eight : s.compress8Fn = g
  root : s.root.Uses f
  leaves : Uses8 f s.leaves

theorem Uses.forced (s : State) : Uses .portable .portable s.forcePortable :=
  ⟨rfl, rfl, .mk rfl rfl rfl rfl rfl rfl rfl rfl⟩

theorem ev_withParams (L : Plain P) {E : Env} (hf : P (.compress (defaultCompressImpl E).compress)) (p : Params) :
    Ev P (withParamsT E p) (Uses (defaultCompressImpl E).compress (defaultCompressImpl E).compress8) := by
  unfold withParamsT
  refine Ev.bind (ev_baseParams L p) fun _ _ => ?_
  refine Ev.bind (Blake2s.Params.ev_set L _ (.nodeOffset _)) fun _ _ => ?_
  refine Ev.bind (Blake2s.State.ev_withParams L hf _) fun _ h => ?_
  refine Ev.bind (ev_leafState L hf _ _) fun _ h0 => ?_
  refine Ev.bind (ev_leafState L hf _ _) fun _ h1 => ?_
  refine Ev.bind (ev_leafState L hf _ _) fun _ h2 => ?_
  refine Ev.bind (ev_leafState L hf _ _) fun _ h3 => ?_
  refine Ev.bind (ev_leafState L hf _ _) fun _ h4 => ?_
  refine Ev.bind (ev_leafState L hf _ _) fun _ h5 => ?_
  refine Ev.bind (ev_leafState L hf _ _) fun _ h6 => ?_
  refine Ev.bind (ev_leafState L hf _ _) fun _ h7 => ?_
  exact .pure ⟨rfl, h, .mk h0 h1 h2 h3 h4 h5 h6 h7⟩

theorem ev_fillBuf (L : Plain P) (E : Env) (s : State) (hs : s.Uses f g) (input : List U8) :
    Ev P (s.fillBufT E input) fun r => r.1.Uses f g := by
  unfold fillBufT
  repeat plain_step
  exact .pure ⟨hs.eight, hs.root, hs.leaves⟩

theorem ev_compress8 (L : Plain P) (hg : P (.compress8 g)) (E : Env) (input : Vector U8 512)
    (lf : Vector Blake2s.State 8) (hl : Uses8 f lf) : Ev P (compress8T E input lf g) (Uses8 f) := by
  unfold compress8T
  iterate 15 refine Ev.bind (ev_debugAssertT L E _ _) fun _ _ => ?_
  iterate 8 refine Ev.bind (ev_addChkT L _ _ _) fun _ _ => ?_
  refine Ev.bind (Blake2s.ev_compress8 L hg _ _ _ _ _ _) fun _ _ => .pure ?_
  exact .mk (hl 0) (hl 1) (hl 2) (hl 3) (hl 4) (hl 5) (hl 6) (hl 7)

theorem ev_updateBuffered (L : Plain P) (hg : P (.compress8 g)) (E : Env) (s : State) (hs : s.Uses f g)
    (input : List U8) : Ev P (s.updateBufferedT E input) fun r => r.1.Uses f g := by
  unfold updateBufferedT
  refine Ev.bind (ev_test L _) fun _ _ => Ev.ite (fun _ => ?_) fun _ => .pure hs
  refine Ev.bind (ev_fillBuf L E s hs input) fun r h1 => ?_
  obtain ⟨s', rest⟩ := r
  have e : s'.compress8Fn = g := h1.eight
  dsimp only
  rw [e]
  refine Ev.bind (ev_test L _) fun b hb => Ev.ite (fun hbt => ?_) fun _ => .pure h1
  refine Ev.bind (ev_compress8 L hg E _ _ h1.leaves) fun lf hlf => Ev.bind (ev_subChkT L _ _ _) fun l hl => ?_
  refine Ev.bind (ev_test L _) fun _ _ => Ev.ite (fun _ => ?_) fun _ => ?_
  · exact Ev.bind (ev_compress8 L hg E _ _ hlf) fun lf hlf => .pure ⟨rfl, h1.root, hlf⟩
  · refine Ev.bind (ev_sliceToT L _ _) fun _ _ => ?_
    refine Ev.bind (ev_copyFromSliceT L _ _ _ _) fun _ _ => ?_
    exact .pure ⟨rfl, h1.root, hlf⟩

theorem ev_updateLoop (L : Plain P) (hg : P (.compress8 g)) (E : Env) (n : Nat) (lf : Vector Blake2s.State 8)
    (hl : Uses8 f lf) (input : List U8) : Ev P (updateLoopT E g n lf input) fun r => Uses8 f r.1 := by
  induction n generalizing lf input with
  | zero => exact .fail _
  | succ n ih =>
    rw [updateLoopT]
    refine Ev.bind (ev_test L _) fun _ _ => Ev.ite (fun _ => ?_) fun _ => .pure hl
    refine Ev.bind (ev_arrayRefT L _ _ _) fun _ _ => ?_
    refine Ev.bind (ev_compress8 L hg E _ _ hl) fun lf hl => ?_
    exact Ev.bind (ev_sliceFromT L _ _) fun _ _ => ih lf hl _

theorem ev_update (L : Plain P) (hg : P (.compress8 g)) (E : Env) (s : State) (hs : s.Uses f g) (input : List U8) :
    Ev P (s.updateT E input) (Uses f g) := by
  unfold updateT
  refine Ev.bind (ev_updateBuffered L hg E s hs input) fun r hr => ?_
  obtain ⟨s', rest⟩ := r
  have e : s'.compress8Fn = g := hr.eight
  dsimp only
  rw [e]
  refine Ev.bind (ev_updateLoop L hg E _ _ hr.leaves _) fun q hq => ?_
  refine Ev.bind (ev_fillBuf L E _ (⟨?_, ?_, ?_⟩ : Uses f g _) _) fun r hr => ?_
  · exact rfl
  · exact hr.root
  · exact hq
  exact Ev.bind (ev_debugAssertT L E _ _) fun _ _ => .pure hr

theorem ev_updateChunk (L : Plain P) (hf : P (.compress f)) (E : Env) (l : Blake2s.State) (hl : l.Uses f)
    (b : Vector U8 1024) (k : Fin 16) (n : Nat) : Ev P (updateChunkT E l b k n) (Blake2s.State.Uses f) := by
  unfold updateChunkT
  dsimp only
  refine Ev.bind (ev_minT L _ _) fun t ht => ?_
  exact Ev.bind (ev_sliceToT L _ _) fun _ _ => Blake2s.State.ev_update L hf E l hl _

theorem ev_finalize (L : Plain P) (hf : P (.compress f)) (E : Env) (s : State) (hs : s.Uses f g) :
    Ev P (s.finalizeT E) fun r => r.1.Uses f g := by
  have hr := hs.root
  have l0 : s.leaves[0].Uses f := hs.leaves 0
  have l1 : s.leaves[1].Uses f := hs.leaves 1
  have l2 : s.leaves[2].Uses f := hs.leaves 2
  have l3 : s.leaves[3].Uses f := hs.leaves 3
  have l4 : s.leaves[4].Uses f := hs.leaves 4
  have l5 : s.leaves[5].Uses f := hs.leaves 5
  have l6 : s.leaves[6].Uses f := hs.leaves 6
  have l7 : s.leaves[7].Uses f := hs.leaves 7
  unfold finalizeT
  dsimp only
  with_reducible repeat' first
    | refine Ev.bind (ev_updateChunk L hf E _ (by assumption) _ _ _) fun _ _ => ?_
    | refine Ev.bind (ev_saturatingSubT L _) fun _ _ => ?_
    | refine Ev.bind (Blake2s.State.ev_finalize L hf E _ (by assumption)) fun _ _ => ?_
    | refine Ev.bind (ev_asBytesT L _) fun _ _ => ?_
    | refine Ev.bind (Blake2s.State.ev_update L hf E _ (by assumption) _) fun _ _ => ?_
    | exact .pure hs

theorem ev_getCount (L : Plain P) (E : Env) (s : State) : Ev P (s.getCountT E) fun _ => True := by
  unfold getCountT; plain_prims

theorem ev_write (L : Plain P) (hg : P (.compress8 g)) (E : Env) (s : State) (hs : s.Uses f g) (input : List U8) :
    Ev P (s.writeT E input) fun r => r.1.Uses f g :=
  Ev.bind (ev_update L hg E s hs input) fun _ h => .pure h

theorem ev_debug (L : Plain P) (E : Env) (s : State) : Ev P (s.debugT E) fun _ => True := by
  unfold debugT
  refine Ev.bind (ev_getCount L E s) fun _ _ => Ev.bind (.emit (L.number _)) fun _ _ => ?_
  iterate 5 refine Ev.bind (Blake2s.State.ev_debug L _) fun _ _ => ?_
  exact .pure trivial

/-- Histories of one BLAKE2sp state. -/
theorem ev_run (L : Plain P) (hf : P (.compress f)) (hg : P (.compress8 g)) (E : Env) (ops : List Op)
    (ho : (f = .portable ∧ g = .portable) ∨ .forcePortable ∉ ops) (s : State) (hs : s.Uses f g) :
    Ev P (s.runT E ops) fun r => r.1.Uses f g := by
  induction ops generalizing s with
  | nil => exact .pure hs
  | cons o ops ih =>
    have ih := ih (ho.imp_right fun h hm => h (.tail _ hm))
    cases o with
    | update i => exact Ev.bind (ev_update L hg E s hs i) fun s hs => ih s hs
    | write i => exact Ev.bind (ev_write L hg E s hs i) fun s hs => ih s.1 hs
    | flush => exact ih s hs
    | finalize =>
      exact Ev.bind (ev_finalize L hf E s hs) fun r hr => Ev.bind (ih r.1 hr) fun _ h => .pure h
    | forcePortable =>
      rcases ho with h | h
      · refine ih _ ?_
        rw [h.1, h.2]
        exact Uses.forced s
      · exact absurd (List.mem_cons_self ..) h

end State

theorem Params.ev_debug (L : Plain P) (p : Params) : Ev P p.debugT fun _ => True := by
  unfold Params.debugT; plain_prims

end Sp

theorem ev_blake2sp {E : Env} (O : Only P (defaultCompressImpl E)) (input : List U8) :
    Ev P (blake2spT E input) fun _ => True := by
  have L := O.toPlain
  unfold blake2spT
  refine Ev.bind (Sp.State.ev_withParams L O.compress _) fun s hs => ?_
  refine Ev.bind (Sp.State.ev_update L O.compress8 E s hs _) fun s hs => ?_
  exact Ev.bind (Sp.State.ev_finalize L O.compress E s hs) fun _ _ => .pure trivial

/-! ## Programs -/

/-- All states use the functions of this platform. -/
structure World.Uses (i : Impl) (w : World) : Prop where
  state : ∀ s, (w.state s).Uses i.compress
  sp : ∀ s, (w.spState s).Uses i.compress i.compress8

theorem Uses8.mem {st : Vector State 8} (h : Uses8 f st) : ∀ x ∈ st.toList, x.Uses f := by
  intro x hx
  obtain ⟨i, hi, rfl⟩ := List.getElem_of_mem hx
  rw [Vector.length_toList] at hi
  rw [Vector.getElem_toList]
  exact h ⟨i, hi⟩

theorem World.ev_init {E : Env} (O : Only P (defaultCompressImpl E)) :
    Ev P (World.initT E) (World.Uses (defaultCompressImpl E)) := by
  have L := O.toPlain
  unfold World.initT
  refine Ev.bind (State.ev_withParams L O.compress _) fun s hs => Ev.bind (ev_blake2s L O.compress _) fun _ _ => ?_
  exact Ev.bind (Sp.State.ev_withParams L O.compress _) fun t ht => .pure ⟨fun _ => hs, fun _ => ht⟩

theorem World.ev_call {E : Env} {i : Impl} (hi : defaultCompressImpl E = i) (O : Only P i) (w : World)
    (hw : w.Uses i) (c : Call) (hc : (i.compress = .portable ∧ i.compress8 = .portable) ∨ c.forces = false) :
    Ev P (w.callT E c) fun r => r.1.Uses i := by
  subst hi
  have L := O.toPlain
  have ws : ∀ {s : Nat} {x : State}, x.Uses (defaultCompressImpl E).compress →
      ({ w with state := Blake2s.assign w.state s x } : World).Uses (defaultCompressImpl E) :=
    fun hx => ⟨assign_all hw.state _ hx, hw.sp⟩
  have wp : ∀ {s : Nat} {x : Sp.State},
      x.Uses (defaultCompressImpl E).compress (defaultCompressImpl E).compress8 →
      ({ w with spState := Blake2s.assign w.spState s x } : World).Uses (defaultCompressImpl E) :=
    fun hx => ⟨hw.state, assign_all hw.sp _ hx⟩
  have wh : ∀ f, ({ w with hash := f } : World).Uses (defaultCompressImpl E) := fun f => ⟨hw.state, hw.sp⟩
  cases c
  case set => exact Ev.bind (Params.ev_set L _ _) fun _ _ => .pure ⟨hw.state, hw.sp⟩
  case newParams => exact .pure ⟨hw.state, hw.sp⟩
  case cloneParams => exact .pure ⟨hw.state, hw.sp⟩
  case newState => exact Ev.bind (State.ev_withParams L O.compress _) fun _ h => .pure (ws h)
  case toState => exact Ev.bind (State.ev_withParams L O.compress _) fun _ h => .pure (ws h)
  case cloneState => exact .pure (ws (hw.state _))
  case update => exact Ev.bind (State.ev_update L O.compress _ _ (hw.state _) _) fun _ h => .pure (ws h)
  case write => exact Ev.bind (State.ev_write L O.compress _ _ (hw.state _) _) fun _ h => .pure (ws h)
  case flush => exact .pure (ws (hw.state _))
  case setLastNode s b => exact .pure (ws (s := s) (x := (w.state s).setLastNode b) (hw.state s))
  case forcePortable s =>
    refine .pure (ws (s := s) (x := (w.state s).forcePortable) ?_)
    exact (hc.resolve_right fun h => nomatch h).1.symm
  case finalize =>
    exact Ev.bind (State.ev_finalize L O.compress _ _ (hw.state _)) fun _ h =>
      .pure ⟨assign_all hw.state _ h, hw.sp⟩
  case count => exact .pure hw
  case debugState => exact Ev.bind (State.ev_debug L _) fun _ _ => .pure hw
  case blake2s => exact Ev.bind (ev_blake2s L O.compress _) fun _ _ => .pure (wh _)
  case update8 s input =>
    refine Ev.bind (ev_update8 L O.compress E O.compress8 _ (fun i => ?_) _) fun _ h =>
      .pure ⟨assignAll_all hw.state _ h.mem, hw.sp⟩
    rw [Fin.getElem_fin, Vector.getElem_map]
    exact hw.state _
  case finalize8 s h =>
    refine Ev.bind (ev_finalize8 (f := (defaultCompressImpl E).compress) L E O.compress8 _ (fun i => ?_)) fun _ h =>
      .pure ⟨assignAll_all hw.state _ h.mem, hw.sp⟩
    rw [Fin.getElem_fin, Vector.getElem_map]
    exact hw.state _
  case hash4Exact p input h => exact Ev.bind (ev_hash4Exact O _ _) fun _ _ => .pure (wh _)
  case hash8Exact p input h => exact Ev.bind (ev_hash8Exact O _ _) fun _ _ => .pure (wh _)
  case hash8 p input h => exact Ev.bind (ev_hash8 O _ _) fun _ _ => .pure (wh _)
  case cloneHash => exact .pure (wh _)
  case asBytes => exact Ev.bind (ev_asBytesT L _) fun _ _ => .pure hw
  case toHex => exact Ev.bind (Hash.ev_toHex L _) fun _ _ => .pure hw
  case debugHash => exact Ev.bind (Hash.ev_debug L _) fun _ _ => .pure hw
  case eqHash => exact Ev.bind (Hash.ev_eq L _ _) fun _ _ => .pure hw
  case eqSlice => exact Ev.bind (Hash.ev_eqSlice L _ _) fun _ _ => .pure hw
  case blake2sp => exact Ev.bind (ev_blake2sp O _) fun _ _ => .pure (wh _)
  case spNewParams => exact .pure ⟨hw.state, hw.sp⟩
  case spCloneParams => exact .pure ⟨hw.state, hw.sp⟩
  case spSet => exact Ev.bind (Sp.Params.ev_set L _ _) fun _ _ => .pure ⟨hw.state, hw.sp⟩
  case spDebugParams => exact Ev.bind (Sp.Params.ev_debug L _) fun _ _ => .pure hw
  case spNewState => exact Ev.bind (Sp.State.ev_withParams L O.compress _) fun _ h => .pure (wp h)
  case spToState => exact Ev.bind (Sp.State.ev_withParams L O.compress _) fun _ h => .pure (wp h)
  case spUpdate => exact Ev.bind (Sp.State.ev_update L O.compress8 _ _ (hw.sp _) _) fun _ h => .pure (wp h)
  case spWrite => exact Ev.bind (Sp.State.ev_write L O.compress8 _ _ (hw.sp _) _) fun _ h => .pure (wp h)
  case spFlush => exact .pure (wp (hw.sp _))
  case spFinalize =>
    exact Ev.bind (Sp.State.ev_finalize L O.compress _ _ (hw.sp _)) fun _ h =>
      .pure ⟨hw.state, assign_all hw.sp _ h⟩
  case spCount => exact Ev.bind (Sp.State.ev_getCount L _ _) fun _ _ => .pure hw
  case spDebugState => exact Ev.bind (Sp.State.ev_debug L _ _) fun _ _ => .pure hw
  case spForcePortable s =>
    obtain ⟨h1, h2⟩ := hc.resolve_right fun h => nomatch h
    refine .pure (wp (s := s) (x := (w.spState s).forcePortable) ?_)
    rw [h1, h2]
    exact Sp.State.Uses.forced _

theorem programT_ev {E : Env} (O : Only P (defaultCompressImpl E)) (calls : List Call)
    (hc : ∀ c ∈ calls, ((defaultCompressImpl E).compress = .portable ∧
      (defaultCompressImpl E).compress8 = .portable) ∨ c.forces = false) :
    Ev P (programT E calls) fun _ => True := by
  have run : ∀ (cs : List Call) (w : World), w.Uses (defaultCompressImpl E) →
      (∀ c ∈ cs, ((defaultCompressImpl E).compress = .portable ∧
        (defaultCompressImpl E).compress8 = .portable) ∨ c.forces = false) → Ev P (w.runT E cs) fun _ => True := by
    intro cs
    induction cs with
    | nil => exact fun _ _ _ => .pure trivial
    | cons c cs ih =>
      intro w hw hc
      rw [World.runT]
      refine Ev.bind (World.ev_call rfl O w hw c (hc c (.head _))) fun r hr => ?_
      exact Ev.bind (ih r.1 hr fun d hd => hc d (.tail _ hd)) fun _ _ => .pure trivial
  unfold programT
  refine Ev.bind (World.ev_init O) fun w hw => ?_
  exact Ev.bind (run calls w hw hc) fun _ _ => .pure trivial

end Blake2s
