import Verif.Messages
import Verif.Proofs.LeakAgree
/-!
# Panics come with a message, and only panics
-/

namespace Blake2s

open Tr (lift emit orPanic)

/-- A computation that says nothing unless it panics, and one thing at the end if it does. -/
def Says {α : Type} (m : Tr α) : Prop :=
  match m.1 with
  | .ok _ => messages m.2 = []
  | .error f =>
    if f.isPanic then ∃ t s, m.2 = t ++ [.panic s] ∧ messages t = [] ∧ f.Says s else messages m.2 = []

variable {α β : Type}

theorem messages_append (s t : List Event) : messages (s ++ t) = messages s ++ messages t :=
  List.filterMap_append

theorem Says.pure (a : α) : Says (Pure.pure a : Tr α) := rfl

theorem Says.bindV {m : Tr α} {f : α → Tr β} (h : Says m) (k : ∀ a, m.1 = .ok a → Says (f a)) :
    Says (m >>= f) := by
  obtain ⟨r, t⟩ := m
  cases r with
  | error e => exact h
  | ok a =>
    have ht : messages t = [] := h
    have hk := k a rfl
    show Says ((f a).1, t ++ (f a).2)
    revert hk
    generalize f a = x
    obtain ⟨r, u⟩ := x
    intro hk
    cases r with
    | ok b =>
      have hk : messages u = [] := hk
      show messages (t ++ u) = []
      rw [messages_append, ht, hk, List.append_nil]
    | error e =>
      have hk : if e.isPanic then ∃ t s, u = t ++ [.panic s] ∧ messages t = [] ∧ e.Says s else messages u = [] := hk
      show if e.isPanic then ∃ t' s, t ++ u = t' ++ [.panic s] ∧ messages t' = [] ∧ e.Says s
        else messages (t ++ u) = []
      split at hk <;> rename_i hp
      · rw [if_pos hp]
        obtain ⟨v, s, rfl, hv, hs⟩ := hk
        exact ⟨t ++ v, s, (List.append_assoc ..).symm, by rw [messages_append, ht, hv, List.append_nil], hs⟩
      · rw [if_neg hp, messages_append, ht, hk, List.append_nil]

theorem Says.bind {m : Tr α} {f : α → Tr β} (h : Says m) (k : ∀ a, Says (f a)) : Says (m >>= f) :=
  h.bindV fun a _ => k a

theorem Says.ite {c : Prop} [Decidable c] {a b : Tr α} (h : Says a) (k : Says b) :
    Says (if c then a else b) := by
  split <;> assumption

theorem Says.iteP {c : Prop} [Decidable c] {a b : Tr α} (h : c → Says a) (k : ¬ c → Says b) :
    Says (if c then a else b) := by
  split
  · exact h ‹_›
  · exact k ‹_›

theorem Says.lift {r : R α} (h : ∀ f, r = .error f → f.isPanic = false) : Says (Tr.lift r) := by
  cases r with
  | ok a => exact rfl
  | error f =>
    show if f.isPanic then _ else messages [] = []
    rw [if_neg (by rw [h f rfl]; decide)]
    rfl

theorem Says.throw {f : Fault} (h : f.isPanic = false) : Says (Tr.lift (throw f : R α)) :=
  .lift (by intro g e; cases e; exact h)

theorem Says.orPanic {r : R α} {s : String} (h : ∀ f, r = .error f → f.isPanic = true ∧ f.Says s) :
    Says (Tr.orPanic r s) := by
  cases r with
  | ok a => exact rfl
  | error f =>
    show if f.isPanic then _ else _
    rw [if_pos (h f rfl).1]
    exact ⟨[], s, rfl, rfl, (h f rfl).2⟩

theorem Says.emit {e : Event} (h : ∀ s, e ≠ .panic s) : Says (Tr.emit e) := by
  show messages [e] = []
  cases e <;> first | rfl | exact absurd rfl (h _)

/-! ## Primitives -/

macro "emits" : tactic => `(tactic| exact Says.emit (by intro s h; cases h))

theorem says_test (c : Bool) : Says (test c) := rfl

theorem says_testAll (cs : List Bool) : Says (testAll cs) := by
  induction cs with
  | nil => rfl
  | cons c cs ih =>
    unfold testAll
    exact (says_test c).bind fun _ => Says.ite ih (Says.pure _)

theorem says_addChkT {w : Nat} (E : Env) (a b : BitVec w) : Says (addChkT E a b) := by
  have h : Says (Tr.orPanic (addChk E a b) "attempt to add with overflow") := by
    refine .orPanic fun f e => ?_
    unfold addChk at e
    split at e <;> cases e
    exact ⟨rfl, .inl rfl⟩
  unfold addChkT
  split
  · exact Says.bind (by emits) fun _ => h
  · exact h

theorem says_subChkT {w : Nat} (E : Env) (a b : BitVec w) : Says (subChkT E a b) := by
  have h : Says (Tr.orPanic (subChk E a b) "attempt to subtract with overflow") := by
    refine .orPanic fun f e => ?_
    unfold subChk at e
    split at e <;> cases e
    exact ⟨rfl, .inr rfl⟩
  unfold subChkT
  split
  · exact Says.bind (by emits) fun _ => h
  · exact h

theorem says_usizeSubT (a b : Nat) : Says (usizeSubT a b) := by
  refine Says.bind (by emits) fun _ => Says.bind (by emits) fun _ => .orPanic fun f e => ?_
  unfold usizeSub at e
  split at e <;> cases e
  exact ⟨rfl, .inr rfl⟩

theorem says_usizeAddT (a b : Nat) : Says (usizeAddT a b) := rfl

theorem says_minT (a b : Nat) : Says (minT a b) := rfl

theorem says_sliceToT (s : List U8) (n : Nat) : Says (sliceToT s n) := by
  refine Says.bind (by emits) fun _ => Says.bind (by emits) fun _ => .orPanic fun f e => ?_
  unfold sliceTo at e
  split at e <;> cases e
  exact ⟨rfl, trivial⟩

theorem says_sliceFromT (s : List U8) (n : Nat) : Says (sliceFromT s n) := by
  refine Says.bind (by emits) fun _ => Says.bind (by emits) fun _ => .orPanic fun f e => ?_
  unfold sliceFrom at e
  split at e <;> cases e
  exact ⟨rfl, trivial⟩

theorem says_copyFromSliceT {n : Nat} (d : Vector U8 n) (a b : Nat) (s : List U8) :
    Says (copyFromSliceT d a b s) := by
  unfold copyFromSliceT
  iterate 5 refine Says.bind (by emits) fun _ => ?_
  refine .orPanic fun f e => ?_
  unfold copyFromSlice at e
  split at e <;> cases e
  exact ⟨rfl, trivial⟩

theorem says_arrayRefT (s : List U8) (o n : Nat) : Says (arrayRefT s o n) := by
  refine Says.bind (by emits) fun _ => Says.bind (by emits) fun _ => Says.bind (by emits) fun _ => .orPanic fun f e => ?_
  unfold arrayRef at e
  split at e <;> cases e
  exact ⟨rfl, trivial⟩

theorem says_readBlockPtrT (s : List U8) (o : Nat) : Says (readBlockPtrT s o) := by
  refine Says.bind (by emits) fun _ => .lift fun f e => ?_
  unfold readBlockPtr at e
  split at e <;> cases e
  rfl

theorem says_assertT {c : Bool} {s : String} (h : c = false → Fault.Says .assertFailed s) : Says (assertT c s) := by
  refine Says.bind (by emits) fun _ => .orPanic fun f e => ?_
  unfold assert at e
  split at e <;> cases e
  rename_i hc
  exact ⟨rfl, h (Bool.eq_false_iff.mpr hc)⟩

theorem says_debugAssertT (E : Env) {a b : Nat} {c : Prop} [Decidable c] (h : a = b → c) :
    Says (debugAssertT E (decide c) (notEqualMessage a b)) := by
  have h : Says (Tr.orPanic (debugAssert E (decide c)) (notEqualMessage a b)) := by
    refine .orPanic fun f e => ?_
    unfold debugAssert at e
    split at e <;> cases e
    rename_i hc
    refine ⟨rfl, a, b, fun i => ?_, rfl⟩
    have := h i
    simp [this] at hc
  unfold debugAssertT
  split
  · exact Says.bind (by emits) fun _ => h
  · exact h

theorem says_zeroTailT (b : Block) (n : U8) : Says (State.zeroTailT b n) := rfl
theorem says_flagWordT (b : Bool) : Says (State.flagWordT b) := by cases b <;> rfl
theorem says_wordT (m : Vector U32 16) (r : Fin 12) (i : Fin 16) : Says (Portable.wordT m r i) := rfl
theorem says_asBytesT (h : Hash) : Says h.asBytesT := says_sliceToT _ _
theorem says_saturatingSubT (n : Nat) : Says (Sp.State.saturatingSubT n) := rfl

theorem says_arrayStringPushT (cap : Nat) (s : List Char) (c : Char) : Says (arrayStringPushT cap s c) := by
  refine Says.bind (by emits) fun _ => Says.bind (by emits) fun _ => .orPanic fun f e => ?_
  unfold arrayStringPush at e
  split at e <;> cases e
  exact ⟨rfl, trivial⟩

theorem says_hexTableT (i : Nat) : Says (hexTableT i) := by
  refine Says.bind (by emits) fun _ => .orPanic fun f e => ?_
  unfold hexTable at e
  split at e <;> cases e
  exact ⟨rfl, trivial⟩

/-- Go through a computation step by step. -/
macro "says" : tactic => `(tactic| with_reducible repeat' first
  | exact Says.pure _ | exact says_test _ | exact says_testAll _
  | exact says_addChkT _ _ _ | exact says_subChkT _ _ _ | exact says_usizeSubT _ _
  | exact says_usizeAddT _ _
  | exact says_minT _ _ | exact says_sliceToT _ _ | exact says_sliceFromT _ _
  | exact says_copyFromSliceT _ _ _ _ | exact says_arrayRefT _ _ _ | exact says_readBlockPtrT _ _
  | exact says_zeroTailT _ _
  | exact says_flagWordT _ | exact says_wordT _ _ _ | exact says_asBytesT _
  | exact says_saturatingSubT _ | exact says_arrayStringPushT _ _ _ | exact says_hexTableT _
  | assumption
  | refine Says.bind ?_ fun _ => ?_ | refine Says.ite ?_ ?_)

/-! ## Compression -/

theorem says_roundT (r : Fin 12) (m v : Vector U32 16) : Says (Portable.roundT r m v) := by
  unfold Portable.roundT; says

theorem says_compressT (h : StateWords) (m : Block) (c : U64) (a b : U32) :
    Says (Portable.compressT h m c a b) := by
  unfold Portable.compressT
  dsimp only
  with_reducible repeat' first | exact says_roundT _ _ _ | exact Says.pure _ | refine Says.bind ?_ fun _ => ?_

theorem says_compress8T (h : Vector StateWords 8) (m : Vector Block 8) (c : Vector U64 8)
    (a b : Vector U32 8) : Says (Portable.compress8T h m c a b) := by
  unfold Portable.compress8T
  with_reducible repeat' first | exact says_compressT _ _ _ _ _ | exact Says.pure _ | refine Says.bind ?_ fun _ => ?_

theorem says_compress8VectorizedT (E : Env) (w : Vector StateWords 8) (m : Vector Block 8)
    (cl ch a b : Vector U32 8) : Says (Portable.compress8VectorizedT E w m cl ch a b) := by
  unfold Portable.compress8VectorizedT Portable.joinCountT
  with_reducible repeat' first
    | exact says_compressT _ _ _ _ _ | exact says_addChkT _ _ _ | exact Says.pure _
    | refine Says.bind ?_ fun _ => ?_

theorem says_compress (E : Env) (f : CompressFn) (h : StateWords) (m : Block) (c : U64) (a b : U32) :
    Says (f.callT E h m c a b) := by
  unfold CompressFn.callT
  refine Says.bind (by emits) fun _ => ?_
  cases f
  · exact says_compressT _ _ _ _ _
  · refine .lift fun f e => ?_
    unfold CompressFn.call at e
    dsimp only at e
    split at e <;> cases e
    rfl

theorem says_compress8 (E : Env) (f : Compress8Fn) (h : Vector StateWords 8) (m : Vector Block 8)
    (c : Vector U64 8) (a b : Vector U32 8) : Says (f.callT E h m c a b) := by
  unfold Compress8Fn.callT
  refine Says.bind (by emits) fun _ => ?_
  cases f
  · exact says_compress8T _ _ _ _ _
  · refine .lift fun f e => ?_
    unfold Compress8Fn.call at e
    dsimp only at e
    split at e <;> cases e
    rfl

theorem says_vectorize8 (E : Env) (f : Vectorize8Fn) (w : Vector StateWords 8) : Says (f.callT E w) := by
  unfold Vectorize8Fn.callT
  refine Says.bind (by emits) fun _ => .lift fun g e => ?_
  unfold Vectorize8Fn.call at e
  cases f
  · cases e
  · dsimp only at e
    split at e <;> cases e
    rfl

theorem says_compress8Vectorized (E : Env) (f : Compress8VectorizedFn) (w : Vector StateWords 8)
    (m : Vector Block 8) (cl ch a b : Vector U32 8) : Says (f.callT E w m cl ch a b) := by
  unfold Compress8VectorizedFn.callT
  refine Says.bind (by emits) fun _ => ?_
  cases f
  · exact says_compress8VectorizedT _ _ _ _ _ _ _
  · refine .lift fun f e => ?_
    unfold Compress8VectorizedFn.call at e
    dsimp only at e
    split at e <;> cases e
    rfl

/-! ## Parameters and hashes -/

theorem testAll_val {cs : List Bool} {b : Bool} (h : (testAll cs).1 = .ok b) : b = cs.all id := by
  rw [testAll_fst] at h
  exact (Except.ok.inj h).symm

theorem Params.says_set (p : Params) (c : Setter) : Says (p.setT c) := by
  cases c with
  | hashLength n =>
    refine Says.bindV (says_testAll _) fun b hb => ?_
    have hb := testAll_val hb
    refine Says.bind (says_assertT fun h => .inl ⟨.hashLength n, ?_⟩) fun _ => Says.pure _
    rw [h] at hb
    show _ ∈ (if 1 ≤ n ∧ n ≤ 32 then _ else _)
    rw [if_neg (by intro ⟨h1, h2⟩; simp [OUTBYTES, h1, h2] at hb)]
    exact .head _
  | key k =>
    refine Says.bind (says_assertT fun h => .inl ⟨.key k, ?_⟩) fun _ =>
      Says.bind (says_copyFromSliceT _ _ _ _) fun _ => Says.pure _
    show _ ∈ (if k.length ≤ 32 then _ else _)
    rw [if_neg (by simpa [KEYBYTES] using h)]
    exact .head _
  | salt k =>
    refine Says.bind (says_assertT fun h => .inl ⟨.salt k, ?_⟩) fun _ =>
      Says.bind (says_copyFromSliceT _ _ _ _) fun _ => Says.pure _
    show _ ∈ (if k.length ≤ 8 then _ else _)
    rw [if_neg (by simpa [SALTBYTES] using h)]
    exact .head _
  | personal k =>
    refine Says.bind (says_assertT fun h => .inl ⟨.personal k, ?_⟩) fun _ =>
      Says.bind (says_copyFromSliceT _ _ _ _) fun _ => Says.pure _
    show _ ∈ (if k.length ≤ 8 then _ else _)
    rw [if_neg (by simpa [PERSONALBYTES] using h)]
    exact .head _
  | maxDepth n =>
    refine Says.bind (says_assertT fun h => .inl ⟨.maxDepth n, ?_⟩) fun _ => Says.pure _
    have h : n = 0 := by simpa using h
    subst h
    exact .head _
  | nodeOffset n =>
    refine Says.bind (says_assertT fun h => .inl ⟨.nodeOffset n, ?_⟩) fun _ => Says.pure _
    show _ ∈ (if n.toNat < 2 ^ 48 then _ else _)
    rw [if_neg (by simpa using h)]
    exact .head _
  | innerHashLength n =>
    refine Says.bind (says_assertT fun h => .inl ⟨.innerHashLength n, ?_⟩) fun _ => Says.pure _
    show _ ∈ (if n ≤ 32 then _ else _)
    rw [if_neg (by simpa [OUTBYTES] using h)]
    exact .head _
  | _ => exact Says.pure _

theorem Sp.Params.says_set (p : Sp.Params) (c : Sp.Setter) : Says (p.setT c) := by
  cases c with
  | hashLength n =>
    refine Says.bindV (says_testAll _) fun b hb => ?_
    have hb := testAll_val hb
    refine Says.bind (says_assertT fun h => .inl ⟨.hashLength n, ?_⟩) fun _ => Says.pure _
    rw [h] at hb
    show _ ∈ (if 1 ≤ n ∧ n ≤ 32 then _ else _)
    rw [if_neg (by intro ⟨h1, h2⟩; simp [OUTBYTES, h1, h2] at hb)]
    exact .head _
  | key k =>
    refine Says.bind (says_assertT fun h => .inl ⟨.key k, ?_⟩) fun _ =>
      Says.bind (says_copyFromSliceT _ _ _ _) fun _ => Says.pure _
    show _ ∈ (if k.length ≤ 32 then _ else _)
    rw [if_neg (by simpa [KEYBYTES] using h)]
    exact .head _

theorem says_constantTimeEqT (a b : List U8) : Says (constantTimeEqT a b) := by
  unfold constantTimeEqT
  refine Says.bind (says_test _) fun _ => Says.ite (Says.bind (by emits) fun _ => Says.pure _) (Says.pure _)

theorem says_bytesToHexLoopT (b : List U8) (s : List Char) : Says (bytesToHexLoopT b s) := by
  induction b generalizing s with
  | nil => exact rfl
  | cons x xs ih =>
    rw [bytesToHexLoopT]
    refine Says.bind (by emits) fun _ => ?_
    refine Says.bind (says_hexTableT _) fun _ => Says.bind (says_arrayStringPushT _ _ _) fun _ => ?_
    exact Says.bind (says_hexTableT _) fun _ => Says.bind (says_arrayStringPushT _ _ _) fun _ => ih _

theorem Hash.says_toHex (h : Hash) : Says h.toHexT :=
  Says.bind (says_asBytesT _) fun _ => says_bytesToHexLoopT _ _

theorem Hash.says_debug (h : Hash) : Says h.debugT := Says.bind h.says_toHex fun _ => Says.pure _

theorem Hash.says_eq (a b : Hash) : Says (a.eqHashT b) :=
  Says.bind (says_asBytesT _) fun _ => Says.bind (says_asBytesT _) fun _ => says_constantTimeEqT _ _

theorem Hash.says_eqSlice (a : Hash) (b : List U8) : Says (a.eqSliceT b) :=
  Says.bind (says_asBytesT _) fun _ => says_constantTimeEqT _ _

/-! ## States -/

namespace State

theorem says_fillBuf (E : Env) (s : State) (input : List U8) : Says (s.fillBufT E input) := by
  unfold fillBufT; says

theorem says_compressBuffer (E : Env) (s : State) (input : List U8) :
    Says (s.compressBufferIfPossibleT E input) := by
  unfold compressBufferIfPossibleT
  refine Says.bind (says_test _) fun _ => Says.ite ?_ (Says.pure _)
  refine Says.bind (says_fillBuf _ _ _) fun _ => Says.bind (says_test _) fun _ => Says.ite ?_ (Says.pure _)
  exact Says.bind (says_compress _ _ _ _ _ _ _) fun _ => Says.pure _

theorem says_updateLoop (E : Env) (n : Nat) (s : State) (input : List U8) :
    Says (updateLoopT E n s input) := by
  induction n generalizing s input with
  | zero => exact .throw rfl
  | succ n ih =>
    rw [updateLoopT]
    refine Says.bind (says_test _) fun _ => Says.ite ?_ (Says.pure _)
    refine Says.bind (says_addChkT _ _ _) fun _ => Says.bind (says_arrayRefT _ _ _) fun _ => ?_
    exact Says.bind (says_compress _ _ _ _ _ _ _) fun _ => Says.bind (says_sliceFromT _ _) fun _ => ih _ _

theorem says_update (E : Env) (s : State) (input : List U8) : Says (s.updateT E input) :=
  Says.bind (says_compressBuffer _ _ _) fun _ => Says.bind (says_updateLoop _ _ _ _) fun _ =>
    Says.bind (says_fillBuf _ _ _) fun _ => Says.pure _

theorem says_withParams (E : Env) (p : Params) : Says (withParamsT E p) := by
  unfold withParamsT
  dsimp only
  refine Says.bind (says_test _) fun _ => Says.ite ?_ (Says.pure _)
  exact Says.bind (says_copyFromSliceT _ _ _ _) fun _ => says_update _ _ _

theorem says_finalize (E : Env) (s : State) : Says (s.finalizeT E) := by
  unfold finalizeT
  dsimp only
  refine Says.bind (says_zeroTailT _ _) fun _ => Says.bind (says_flagWordT _) fun _ => ?_
  exact Says.bind (says_compress _ _ _ _ _ _ _) fun _ => Says.pure _

theorem says_write (E : Env) (s : State) (input : List U8) : Says (s.writeT E input) :=
  Says.bind (says_update _ _ _) fun _ => Says.pure _

theorem says_debug (s : State) : Says s.debugT := rfl

end State

theorem says_blake2s (E : Env) (input : List U8) : Says (blake2sT E input) := by
  unfold blake2sT
  refine Says.bind (State.says_withParams _ _) fun _ => ?_
  refine Says.bind (State.says_update _ _ _) fun _ => ?_
  exact Says.bind (State.says_finalize _ _) fun _ => Says.pure _

/-! ## Several inputs -/

theorem says_hashOne (E : Env) (p : Params) (input : List U8) : Says (hashOneT E p input) := by
  unfold hashOneT
  refine Says.bind (State.says_withParams _ _) fun _ => ?_
  refine Says.bind (State.says_update _ _ _) fun _ => ?_
  exact Says.bind (State.says_finalize _ _) fun _ => Says.pure _

theorem says_exactLastNode (p : Params) (c n : Nat) : Says (exactLastNodeT p c n) :=
  Says.bind (says_testAll _) fun _ => Says.ite (Says.pure _) (Says.pure _)

theorem Sse41.says_loop (p : Params) (input : Vector (List U8) 4) (len n : Nat) (h : Vector X86.M128 8) (c : Nat) :
    Says (hash4ExactLoopT p input len n h c) := by
  induction n generalizing h c with
  | zero => exact .throw rfl
  | succ n ih =>
    rw [hash4ExactLoopT]
    iterate 4 refine Says.bind (says_readBlockPtrT _ _) fun _ => ?_
    refine Says.bind (says_usizeAddT _ _) fun _ => ?_
    refine Says.bind (says_flagWordT _) fun _ => Says.bind (says_exactLastNode _ _ _) fun _ => ?_
    refine Says.bind (by emits) fun _ => Says.bind (says_test _) fun _ => ?_
    exact Says.ite (Says.pure _) (ih _ _)

theorem Avx2.says_loop (p : Params) (input : Vector (List U8) 8) (len n : Nat) (h : Vector X86.M256 8) (c : Nat) :
    Says (hash8ExactLoopT p input len n h c) := by
  induction n generalizing h c with
  | zero => exact .throw rfl
  | succ n ih =>
    rw [hash8ExactLoopT]
    iterate 8 refine Says.bind (says_readBlockPtrT _ _) fun _ => ?_
    refine Says.bind (says_usizeAddT _ _) fun _ => ?_
    refine Says.bind (says_flagWordT _) fun _ => Says.bind (says_exactLastNode _ _ _) fun _ => ?_
    refine Says.bind (by emits) fun _ => Says.bind (says_test _) fun _ => ?_
    exact Says.ite (Says.pure _) (ih _ _)

theorem says_hash4ExactFn (E : Env) (f : Hash4ExactFn) (p : Params) (input : Vector (List U8) 4) :
    Says (f.callT E p input) := by
  unfold Hash4ExactFn.callT
  refine Says.bind (by emits) fun _ => ?_
  cases f
  · dsimp only
    unfold Portable.hash4ExactT
    iterate 4 refine Says.bind (says_hashOne _ _ _) fun _ => ?_
    exact Says.pure _
  · exact Says.ite (Sse41.says_loop _ _ _ _ _ _) (.throw rfl)

theorem says_hash8ExactFn (E : Env) (f : Hash8ExactFn) (p : Params) (input : Vector (List U8) 8) :
    Says (f.callT E p input) := by
  unfold Hash8ExactFn.callT
  refine Says.bind (by emits) fun _ => ?_
  cases f
  · dsimp only
    unfold Portable.hash8ExactT
    iterate 8 refine Says.bind (says_hashOne _ _ _) fun _ => ?_
    exact Says.pure _
  · exact Says.ite (Avx2.says_loop _ _ _ _ _ _) (.throw rfl)

theorem says_hash4Exact (E : Env) (p : Params) (input : Vector (List U8) 4) : Says (hash4ExactT E p input) := by
  unfold hash4ExactT
  dsimp only
  refine Says.bind (says_testAll _) fun _ => Says.bind (says_testAll _) fun _ => ?_
  exact Says.bind (says_assertT fun _ => .inr (.inl rfl)) fun _ => says_hash4ExactFn _ _ _ _

theorem says_hash8Exact (E : Env) (p : Params) (input : Vector (List U8) 8) : Says (hash8ExactT E p input) := by
  unfold hash8ExactT
  dsimp only
  refine Says.bind (says_testAll _) fun _ => Says.bind (says_testAll _) fun _ => ?_
  exact Says.bind (says_assertT fun _ => .inr (.inl rfl)) fun _ => says_hash8ExactFn _ _ _ _

theorem says_update8Loop (E : Env) (fn : Compress8Fn) (n : Nat) (st : Vector State 8)
    (input : Vector (List U8) 8) : Says (update8LoopT E fn n st input) := by
  induction n generalizing st input with
  | zero => exact .throw rfl
  | succ n ih =>
    rw [update8LoopT]
    refine Says.bind (says_testAll _) fun _ => Says.ite ?_ (Says.pure _)
    iterate 8 refine Says.bind (says_addChkT _ _ _) fun _ => ?_
    iterate 8 refine Says.bind (says_arrayRefT _ _ _) fun _ => ?_
    refine Says.bind (says_compress8 _ _ _ _ _ _ _) fun _ => ?_
    iterate 8 refine Says.bind (says_sliceFromT _ _) fun _ => ?_
    exact ih _ _

theorem says_update8 (E : Env) (st : Vector State 8) (input : Vector (List U8) 8) :
    Says (update8T E st input) := by
  unfold update8T
  iterate 8 refine Says.bind (State.says_compressBuffer _ _ _) fun _ => ?_
  refine Says.bind (says_update8Loop _ _ _ _ _) fun _ => ?_
  iterate 8 refine Says.bind (State.says_update _ _ _) fun _ => ?_
  exact Says.pure _

theorem says_finalize8 (E : Env) (st : Vector State 8) : Says (finalize8T E st) := by
  unfold finalize8T
  iterate 8 refine Says.bind (says_zeroTailT _ _) fun _ => ?_
  iterate 8 refine Says.bind (says_flagWordT _) fun _ => ?_
  exact Says.bind (says_compress8 _ _ _ _ _ _ _) fun _ => Says.pure _

theorem says_allRemaining (p : Nat → Bool) (c : Nat) (l : List (List U8)) : Says (allRemainingT p c l) := by
  induction l with
  | nil => exact rfl
  | cons x xs ih =>
    rw [allRemainingT]
    refine Says.bind (says_usizeSubT _ _) fun _ => Says.bind (says_test _) fun _ => ?_
    exact Says.ite ih (Says.pure _)

theorem says_hash8Flags (p : Vector Params 8) (b : Bool) : Says (hash8FlagsT p b) := by
  unfold hash8FlagsT
  refine Says.bind (says_test _) fun _ => Says.ite ?_ (Says.pure _)
  iterate 8 refine Says.bind (says_flagWordT _) fun _ => ?_
  exact Says.pure _

theorem says_hash8Loop (E : Env) (impl : Impl) (p : Vector Params 8) (input : Vector (List U8) 8) (n : Nat)
    (w : Vector StateWords 8) (c : Nat) : Says (hash8LoopT E impl p input n w c) := by
  induction n generalizing w c with
  | zero => exact .throw rfl
  | succ n ih =>
    rw [hash8LoopT]
    refine Says.bind (says_allRemaining _ _ _) fun _ => Says.bind (says_allRemaining _ _ _) fun _ => ?_
    refine Says.bind (says_testAll _) fun _ => Says.ite (Says.pure _) ?_
    iterate 8 refine Says.bind (says_arrayRefT _ _ _) fun _ => ?_
    refine Says.bind (says_usizeAddT _ _) fun _ => Says.bind (says_hash8Flags _ _) fun _ => ?_
    refine Says.bind (says_compress8Vectorized _ _ _ _ _ _ _ _) fun _ => ?_
    refine Says.bind (says_test _) fun _ => Says.ite ?_ (ih _ _)
    exact Says.bind (says_vectorize8 _ _ _) fun _ => Says.pure _

theorem says_hash8Finish (E : Env) (impl : Impl) (c : Nat) (p : Params) (w : StateWords) (input : List U8) :
    Says (hash8FinishT E impl c p w input) := by
  unfold hash8FinishT
  dsimp only
  refine Says.bind (says_sliceFromT _ _) fun _ => Says.bind (State.says_update _ _ _) fun _ => ?_
  exact Says.bind (State.says_finalize _ _) fun _ => Says.pure _

theorem says_key (k : U8) (h : decide (k = 0) = false) :
    Fault.Says .assertFailed (notEqualMessage 0 k.toNat) :=
  .inr (.inr ⟨k.toNat, fun e => by simp [BitVec.eq_of_toNat_eq (x := k) (y := 0) e] at h, rfl⟩)

theorem says_hash8 (E : Env) (p : Vector Params 8) (input : Vector (List U8) 8) : Says (hash8T E p input) := by
  unfold hash8T
  iterate 8 refine Says.bind (says_assertT (says_key _)) fun _ => ?_
  dsimp only
  refine Says.bind (says_vectorize8 _ _ _) fun _ => Says.bind (says_hash8Loop _ _ _ _ _ _ _) fun x => ?_
  cases x
  · exact Says.pure _
  · dsimp only
    refine Says.bind (says_vectorize8 _ _ _) fun _ => ?_
    iterate 8 refine Says.bind (says_hash8Finish _ _ _ _ _ _) fun _ => ?_
    exact Says.pure _

/-! ## BLAKE2sp -/

namespace Sp

theorem says_baseParams (p : Params) : Says (State.baseParamsT p) := by
  unfold State.baseParamsT
  refine Says.bind (Blake2s.Params.says_set _ (.hashLength _)) fun _ => ?_
  refine Says.bind (says_sliceToT _ _) fun _ => ?_
  refine Says.bind (Blake2s.Params.says_set _ (.key _)) fun _ => ?_
  refine Says.bind (Blake2s.Params.says_set _ (.maxDepth _)) fun _ => ?_
  exact Blake2s.Params.says_set _ (.innerHashLength _)

theorem says_leafState (E : Env) (b : Blake2s.Params) (i : U64) : Says (State.leafStateT E b i) := by
  unfold State.leafStateT
  refine Says.bind (Blake2s.Params.says_set _ (.nodeOffset _)) fun _ => ?_
  exact Says.bind (Blake2s.State.says_withParams _ _) fun _ => Says.pure _

namespace State

theorem says_withParams (E : Env) (p : Params) : Says (withParamsT E p) := by
  unfold withParamsT
  refine Says.bind (says_baseParams _) fun _ => ?_
  refine Says.bind (Blake2s.Params.says_set _ (.nodeOffset _)) fun _ => ?_
  refine Says.bind (Blake2s.State.says_withParams _ _) fun _ => ?_
  iterate 8 refine Says.bind (says_leafState _ _ _) fun _ => ?_
  exact Says.pure _

theorem says_fillBuf (E : Env) (s : State) (input : List U8) : Says (s.fillBufT E input) := by
  unfold fillBufT; says

theorem says_compress8 (E : Env) (input : Vector U8 512) (lf : Vector Blake2s.State 8) (fn : Compress8Fn) :
    Says (compress8T E input lf fn) := by
  unfold compress8T
  iterate 8 refine Says.bind (says_debugAssertT E fun h => BitVec.eq_of_toNat_eq h) fun _ => ?_
  iterate 7 refine Says.bind (says_debugAssertT E fun h => BitVec.eq_of_toNat_eq h) fun _ => ?_
  iterate 8 refine Says.bind (says_addChkT _ _ _) fun _ => ?_
  exact Says.bind (Blake2s.says_compress8 _ _ _ _ _ _ _) fun _ => Says.pure _

theorem says_updateBuffered (E : Env) (s : State) (input : List U8) : Says (s.updateBufferedT E input) := by
  unfold updateBufferedT
  refine Says.bind (says_test _) fun _ => Says.ite ?_ (Says.pure _)
  refine Says.bind (says_fillBuf _ _ _) fun _ => Says.bind (says_test _) fun _ => Says.ite ?_ (Says.pure _)
  refine Says.bind (says_compress8 _ _ _ _) fun _ => Says.bind (says_subChkT _ _ _) fun _ => ?_
  refine Says.bind (says_test _) fun _ => Says.ite ?_ ?_
  · exact Says.bind (says_compress8 _ _ _ _) fun _ => Says.pure _
  · refine Says.bind (says_sliceToT _ _) fun _ => Says.bind (says_copyFromSliceT _ _ _ _) fun _ => ?_
    exact Says.pure _

theorem says_updateLoop (E : Env) (fn : Compress8Fn) (n : Nat) (lf : Vector Blake2s.State 8) (input : List U8) :
    Says (updateLoopT E fn n lf input) := by
  induction n generalizing lf input with
  | zero => exact .throw rfl
  | succ n ih =>
    rw [updateLoopT]
    refine Says.bind (says_test _) fun _ => Says.ite ?_ (Says.pure _)
    refine Says.bind (says_arrayRefT _ _ _) fun _ => Says.bind (says_compress8 _ _ _ _) fun _ => ?_
    exact Says.bind (says_sliceFromT _ _) fun _ => ih _ _

theorem says_update (E : Env) (s : State) (input : List U8) : Says (s.updateT E input) := by
  unfold updateT
  refine Says.bind (says_updateBuffered _ _ _) fun _ => Says.bind (says_updateLoop _ _ _ _ _) fun _ => ?_
  refine Says.bind (says_fillBuf _ _ _) fun _ => ?_
  exact Says.bind (says_debugAssertT E id) fun _ => Says.pure _

theorem says_updateChunk (E : Env) (l : Blake2s.State) (b : Vector U8 1024) (k : Fin 16) (n : Nat) :
    Says (updateChunkT E l b k n) :=
  Says.bind (says_minT _ _) fun _ => Says.bind (says_sliceToT _ _) fun _ => Blake2s.State.says_update _ _ _

theorem says_finalize (E : Env) (s : State) : Says (s.finalizeT E) := by
  unfold finalizeT
  with_reducible repeat' first
    | exact says_updateChunk _ _ _ _ _ | exact says_saturatingSubT _ | exact Blake2s.State.says_finalize _ _
    | exact Blake2s.State.says_update _ _ _ | exact says_asBytesT _
    | exact Says.pure _ | refine Says.bind ?_ fun _ => ?_

theorem says_getCount (E : Env) (s : State) : Says (s.getCountT E) := by
  unfold getCountT; says

theorem says_write (E : Env) (s : State) (input : List U8) : Says (s.writeT E input) :=
  Says.bind (says_update _ _ _) fun _ => Says.pure _

theorem says_debug (E : Env) (s : State) : Says (s.debugT E) := by
  unfold debugT
  refine Says.bind (says_getCount _ _) fun _ => Says.bind (by emits) fun _ => ?_
  iterate 5 refine Says.bind (Blake2s.State.says_debug _) fun _ => ?_
  exact Says.pure _

end State

theorem Params.says_debug (p : Params) : Says p.debugT := rfl

end Sp

theorem says_blake2sp (E : Env) (input : List U8) : Says (blake2spT E input) := by
  unfold blake2spT
  refine Says.bind (Sp.State.says_withParams _ _) fun _ => ?_
  refine Says.bind (Sp.State.says_update _ _ _) fun _ => ?_
  exact Says.bind (Sp.State.says_finalize _ _) fun _ => Says.pure _

/-! ## Programs -/

theorem World.says_init (E : Env) : Says (World.initT E) := by
  unfold World.initT
  refine Says.bind (State.says_withParams _ _) fun _ => Says.bind (says_blake2s _ _) fun _ => ?_
  exact Says.bind (Sp.State.says_withParams _ _) fun _ => Says.pure _

theorem World.says_call (E : Env) (w : World) (c : Call) : Says (w.callT E c) := by
  cases c
  case set => exact Says.bind (Params.says_set _ _) fun _ => Says.pure _
  case newState => exact Says.bind (State.says_withParams _ _) fun _ => Says.pure _
  case toState => exact Says.bind (State.says_withParams _ _) fun _ => Says.pure _
  case update => exact Says.bind (State.says_update _ _ _) fun _ => Says.pure _
  case write => exact Says.bind (State.says_write _ _ _) fun _ => Says.pure _
  case finalize => exact Says.bind (State.says_finalize _ _) fun _ => Says.pure _
  case debugState => exact Says.bind (State.says_debug _) fun _ => Says.pure _
  case blake2s => exact Says.bind (says_blake2s _ _) fun _ => Says.pure _
  case update8 => exact Says.bind (says_update8 _ _ _) fun _ => Says.pure _
  case finalize8 => exact Says.bind (says_finalize8 _ _) fun _ => Says.pure _
  case hash4Exact => exact Says.bind (says_hash4Exact _ _ _) fun _ => Says.pure _
  case hash8Exact => exact Says.bind (says_hash8Exact _ _ _) fun _ => Says.pure _
  case hash8 => exact Says.bind (says_hash8 _ _ _) fun _ => Says.pure _
  case asBytes => exact Says.bind (says_asBytesT _) fun _ => Says.pure _
  case toHex => exact Says.bind (Hash.says_toHex _) fun _ => Says.pure _
  case debugHash => exact Says.bind (Hash.says_debug _) fun _ => Says.pure _
  case eqHash => exact Says.bind (Hash.says_eq _ _) fun _ => Says.pure _
  case eqSlice => exact Says.bind (Hash.says_eqSlice _ _) fun _ => Says.pure _
  case blake2sp => exact Says.bind (says_blake2sp _ _) fun _ => Says.pure _
  case spSet => exact Says.bind (Sp.Params.says_set _ _) fun _ => Says.pure _
  case spDebugParams => exact Says.bind (Sp.Params.says_debug _) fun _ => Says.pure _
  case spNewState => exact Says.bind (Sp.State.says_withParams _ _) fun _ => Says.pure _
  case spToState => exact Says.bind (Sp.State.says_withParams _ _) fun _ => Says.pure _
  case spUpdate => exact Says.bind (Sp.State.says_update _ _ _) fun _ => Says.pure _
  case spWrite => exact Says.bind (Sp.State.says_write _ _ _) fun _ => Says.pure _
  case spFinalize => exact Says.bind (Sp.State.says_finalize _ _) fun _ => Says.pure _
  case spCount => exact Says.bind (Sp.State.says_getCount _ _) fun _ => Says.pure _
  case spDebugState => exact Says.bind (Sp.State.says_debug _ _) fun _ => Says.pure _
  all_goals exact Says.pure _

theorem World.says_run (E : Env) (w : World) (cs : List Call) : Says (w.runT E cs) := by
  induction cs generalizing w with
  | nil => exact Says.pure _
  | cons c cs ih =>
    rw [World.runT]
    exact Says.bind (World.says_call _ _ _) fun _ => Says.bind (ih _) fun _ => Says.pure _

theorem says_program (E : Env) (cs : List Call) : Says (programT E cs) := by
  unfold programT
  exact Says.bind (World.says_init _) fun _ => Says.bind (World.says_run _ _ _) fun _ => Says.pure _

end Blake2s
