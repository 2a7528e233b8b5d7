import Verif.Proofs.WorkMany
/-!
# The number of steps

`Ws n m Q`: the trace of `m` has at most `n` events, and `Q` is known about the result.
-/

namespace Blake2s

open Tr (lift emit orPanic)

variable {α β : Type}

/-- At most `n` events, and this is known about the result. -/
def Ws (n : Nat) (m : Tr α) (Q : α → Prop) : Prop := m.2.length ≤ n ∧ ∀ a, m.1 = .ok a → Q a

theorem Ws.le {n k : Nat} {m : Tr α} {Q : α → Prop} (h : Ws n m Q) (l : n ≤ k) : Ws k m Q :=
  ⟨Nat.le_trans h.1 l, h.2⟩

theorem Ws.pure {n : Nat} {Q : α → Prop} {a : α} (h : Q a) : Ws n (Pure.pure a) Q :=
  ⟨Nat.zero_le n, fun _ e => by cases e; exact h⟩

/-- One computation after the other: `n` of the `N` events go to the first. -/
theorem Ws.bind {n N : Nat} {m : Tr α} {f : α → Tr β} {P : α → Prop} {Q : β → Prop}
    (h : Ws n m P) (l : ∀ a, P a → Ws (N - n) (f a) Q) (hn : n ≤ N := by omega) : Ws N (m >>= f) Q := by
  obtain ⟨r, t⟩ := m
  cases r with
  | error x => exact ⟨Nat.le_trans h.1 hn, fun a e => by cases e⟩
  | ok a =>
    obtain ⟨k1, k2⟩ := l a (h.2 a rfl)
    refine ⟨?_, k2⟩
    show (t ++ (f a).2).length ≤ N
    rw [List.length_append]
    have := h.1
    dsimp only at this
    omega

theorem Ws.mono {n : Nat} {m : Tr α} {P Q : α → Prop} (h : Ws n m P) (i : ∀ a, P a → Q a) : Ws n m Q :=
  ⟨h.1, fun a e => i a (h.2 a e)⟩

theorem Ws.any {n : Nat} {m : Tr α} {P : α → Prop} (h : Ws n m P) : Ws n m fun _ => True := h.mono fun _ _ => trivial

theorem Ws.ite {n : Nat} {c : Prop} [Decidable c] {a b : Tr α} {Q : α → Prop} (h : c → Ws n a Q)
    (l : ¬ c → Ws n b Q) : Ws n (if c then a else b) Q := by
  split
  · exact h ‹_›
  · exact l ‹_›

theorem Ws.lift {n : Nat} (r : R α) : Ws n (Tr.lift r) fun a => r = .ok a := ⟨Nat.zero_le n, fun _ e => e⟩

theorem Ws.fail {n : Nat} {Q : α → Prop} (f : Fault) : Ws n (Tr.lift (throw f : R α)) Q :=
  ⟨Nat.zero_le n, fun _ e => by cases e⟩

theorem Ws.orPanic (r : R α) (s : String) : Ws 1 (Tr.orPanic r s) fun a => r = .ok a := by
  refine ⟨?_, fun _ e => e⟩
  cases r with
  | ok a => exact Nat.zero_le 1
  | error f => exact Nat.le_refl 1

theorem Ws.emit (e : Event) : Ws 1 (Tr.emit e) fun _ => True := ⟨Nat.le_refl 1, fun _ _ => trivial⟩

/-- At most `N` events, and if there is a result, `ψ` of it is left over for what follows. -/
def Wp (N : Nat) (m : Tr α) (ψ : α → Nat) : Prop :=
  m.2.length ≤ N ∧ ∀ a, m.1 = .ok a → m.2.length + ψ a ≤ N

theorem Wp.le {n k : Nat} {m : Tr α} {ψ : α → Nat} (h : Wp n m ψ) (l : n ≤ k) : Wp k m ψ :=
  ⟨Nat.le_trans h.1 l, fun a e => Nat.le_trans (h.2 a e) l⟩

theorem Wp.pure {n : Nat} {ψ : α → Nat} {a : α} (h : ψ a ≤ n) : Wp n (Pure.pure a) ψ :=
  ⟨Nat.zero_le n, fun _ e => by cases e; exact Nat.le_trans (Nat.le_of_eq (Nat.zero_add _)) h⟩

theorem Wp.fail {n : Nat} {ψ : α → Nat} (f : Fault) : Wp n (Tr.lift (throw f : R α)) ψ :=
  ⟨Nat.zero_le n, fun _ e => by cases e⟩

theorem Wp.ite {n : Nat} {c : Prop} [Decidable c] {a b : Tr α} {ψ : α → Nat} (h : c → Wp n a ψ)
    (l : ¬ c → Wp n b ψ) : Wp n (if c then a else b) ψ := by
  split
  · exact h ‹_›
  · exact l ‹_›

theorem Wp.bind {n N : Nat} {m : Tr α} {f : α → Tr β} {P : α → Prop} {ψ : β → Nat}
    (h : Ws n m P) (l : ∀ a, P a → Wp (N - n) (f a) ψ) (hn : n ≤ N := by omega) : Wp N (m >>= f) ψ := by
  obtain ⟨r, t⟩ := m
  have h1 : t.length ≤ n := h.1
  cases r with
  | error x => exact ⟨Nat.le_trans h1 hn, fun a e => by cases e⟩
  | ok a =>
    obtain ⟨k1, k2⟩ := l a (h.2 a rfl)
    have e : ((.ok a, t) >>= f : Tr β).2.length = t.length + (f a).2.length := List.length_append
    refine ⟨?_, fun b hb => ?_⟩
    · rw [e]; omega
    · have := k2 b hb
      rw [e]; omega

theorem Wp.use {N : Nat} {m : Tr α} {f : α → Tr β} {ψ : α → Nat} {Q : β → Prop}
    (h : Wp N m ψ) (l : ∀ a, Ws (ψ a) (f a) Q) : Ws N (m >>= f) Q := by
  obtain ⟨r, t⟩ := m
  cases r with
  | error x => exact ⟨h.1, fun a e => by cases e⟩
  | ok a =>
    have h2 : t.length + ψ a ≤ N := h.2 a rfl
    obtain ⟨k1, k2⟩ := l a
    have e : ((.ok a, t) >>= f : Tr β).2.length = t.length + (f a).2.length := List.length_append
    exact ⟨by rw [e]; omega, k2⟩

/-! ## Primitives -/

theorem ws_test (c : Bool) : Ws 1 (test c) fun b => b = c := Ws.bind (.emit _) fun _ _ => .pure rfl

theorem ws_testAll (cs : List Bool) : Ws cs.length (testAll cs) fun b => b = cs.all id := by
  induction cs with
  | nil => exact .pure rfl
  | cons c cs ih =>
    unfold testAll
    refine Ws.bind (ws_test c) (fun b hb => ?_) (by rw [List.length_cons]; omega)
    subst hb
    refine Ws.ite (fun h => (ih.mono fun b hb => ?_).le (by rw [List.length_cons]; omega)) fun h => .pure ?_
    · rw [hb, List.all_cons]; simp [h]
    · rw [List.all_cons]; simp [h]

theorem ws_addChkT {w : Nat} (E : Env) (a b : BitVec w) : Ws 2 (addChkT E a b) fun _ => True := by
  unfold addChkT
  split
  · exact Ws.bind (.emit _) fun _ _ => (Ws.orPanic _ _).any
  · exact (Ws.orPanic _ _).any.le (by decide)

theorem ws_subChkT {w : Nat} (E : Env) (a b : BitVec w) : Ws 2 (subChkT E a b) fun _ => True := by
  unfold subChkT
  split
  · exact Ws.bind (.emit _) fun _ _ => (Ws.orPanic _ _).any
  · exact (Ws.orPanic _ _).any.le (by decide)

theorem ws_usizeSubT (a b : Nat) : Ws 3 (usizeSubT a b) fun _ => True :=
  Ws.bind (.emit _) fun _ _ => Ws.bind (.emit _) fun _ _ => (Ws.orPanic _ _).any

theorem ws_usizeAddT (a b : Nat) : Ws 1 (usizeAddT a b) fun c => c = a + b :=
  Ws.bind (.emit _) fun _ _ => .pure rfl

theorem ws_minT (a b : Nat) : Ws 1 (minT a b) fun c => c ≤ a ∧ c ≤ b :=
  Ws.bind (.emit _) fun _ _ => .pure ⟨Nat.min_le_left _ _, Nat.min_le_right _ _⟩

theorem ws_sliceToT (s : List U8) (n : Nat) : Ws 3 (sliceToT s n) fun r => r.length = n ∧ n ≤ s.length := by
  refine Ws.bind (.emit _) fun _ _ => Ws.bind (.emit _) fun _ _ => (Ws.orPanic _ _).mono fun c e => ?_
  unfold sliceTo at e
  split at e <;> cases e
  rename_i hn
  exact ⟨by rw [List.length_take]; omega, hn⟩

theorem ws_sliceFromT (s : List U8) (n : Nat) : Ws 3 (sliceFromT s n) fun r => r.length + n = s.length := by
  refine Ws.bind (.emit _) fun _ _ => Ws.bind (.emit _) fun _ _ => (Ws.orPanic _ _).mono fun c e => ?_
  unfold sliceFrom at e
  split at e <;> cases e
  rw [List.length_drop]
  omega

theorem ws_copyFromSliceT {n : Nat} (d : Vector U8 n) (a b : Nat) (s : List U8) :
    Ws 6 (copyFromSliceT d a b s) fun _ => True := by
  unfold copyFromSliceT
  iterate 5 refine Ws.bind (.emit _) fun _ _ => ?_
  exact (Ws.orPanic _ _).any

theorem ws_arrayRefT (s : List U8) (o n : Nat) : Ws 4 (arrayRefT s o n) fun _ => o + n ≤ s.length := by
  refine Ws.bind (.emit _) fun _ _ => Ws.bind (.emit _) fun _ _ => Ws.bind (.emit _) fun _ _ =>
    (Ws.orPanic _ _).mono fun c e => ?_
  unfold arrayRef at e
  split at e <;> cases e
  assumption

theorem ws_readBlockPtrT (s : List U8) (o : Nat) : Ws 1 (readBlockPtrT s o) fun _ => o + 64 ≤ s.length := by
  refine Ws.bind (.emit _) fun _ _ => (Ws.lift _).mono fun c e => ?_
  unfold readBlockPtr at e
  split at e <;> cases e
  assumption

theorem ws_assertT (c : Bool) (s : String) : Ws 2 (assertT c s) fun _ => True :=
  Ws.bind (.emit _) fun _ _ => (Ws.orPanic _ _).any

theorem ws_debugAssertT (E : Env) (c : Bool) (s : String) : Ws 2 (debugAssertT E c s) fun _ => True := by
  unfold debugAssertT
  split
  · exact Ws.bind (.emit _) fun _ _ => (Ws.orPanic _ _).any
  · exact (Ws.orPanic _ _).any.le (by decide)

theorem ws_zeroTailT (b : Block) (n : U8) : Ws 1 (State.zeroTailT b n) fun _ => True :=
  Ws.bind (.emit _) fun _ _ => .pure trivial

theorem ws_flagWordT (b : Bool) : Ws 1 (State.flagWordT b) fun _ => True :=
  Ws.bind (ws_test b) fun _ _ => .ite (fun _ => .pure trivial) fun _ => .pure trivial

theorem ws_wordT (m : Vector U32 16) (r : Fin 12) (i : Fin 16) : Ws 1 (Portable.wordT m r i) fun _ => True :=
  Ws.bind (.emit _) fun _ _ => .pure trivial

theorem ws_asBytesT (h : Hash) : Ws 3 h.asBytesT fun b => b.length ≤ 32 := by
  refine (ws_sliceToT _ _).mono fun b hb => ?_
  have := hb.2
  rw [Vector.length_toList] at this
  omega

theorem ws_saturatingSubT (n : Nat) : Ws 1 (Sp.State.saturatingSubT n) fun _ => True :=
  Ws.bind (.emit _) fun _ _ => .pure trivial

/-! ## Compression -/

theorem ws_roundT (r : Fin 12) (m v : Vector U32 16) : Ws 16 (Portable.roundT r m v) fun _ => True := by
  unfold Portable.roundT
  iterate 16 refine Ws.bind (ws_wordT _ _ _) fun _ _ => ?_
  exact .pure trivial

theorem ws_compressT (h : StateWords) (m : Block) (c : U64) (a b : U32) :
    Ws 160 (Portable.compressT h m c a b) fun _ => True := by
  unfold Portable.compressT
  dsimp only
  iterate 10 refine Ws.bind (ws_roundT _ _ _) fun _ _ => ?_
  exact .pure trivial

theorem ws_compress8T (h : Vector StateWords 8) (m : Vector Block 8) (c : Vector U64 8)
    (a b : Vector U32 8) : Ws 1280 (Portable.compress8T h m c a b) fun _ => True := by
  unfold Portable.compress8T
  iterate 8 refine Ws.bind (ws_compressT _ _ _ _ _) fun _ _ => ?_
  exact .pure trivial

theorem ws_compress8VectorizedT (E : Env) (w : Vector StateWords 8) (m : Vector Block 8)
    (cl ch a b : Vector U32 8) : Ws 1296 (Portable.compress8VectorizedT E w m cl ch a b) fun _ => True := by
  unfold Portable.compress8VectorizedT Portable.joinCountT
  iterate 8 refine Ws.bind (ws_addChkT _ _ _) fun _ _ => Ws.bind (ws_compressT _ _ _ _ _) fun _ _ => ?_
  exact .pure trivial

theorem ws_compress (E : Env) (f : CompressFn) (h : StateWords) (m : Block) (c : U64) (a b : U32) :
    Ws 161 (f.callT E h m c a b) fun _ => True := by
  unfold CompressFn.callT
  refine Ws.bind (.emit _) fun _ _ => ?_
  cases f
  · exact ws_compressT _ _ _ _ _
  · exact (Ws.lift _).any

theorem ws_compress8 (E : Env) (f : Compress8Fn) (h : Vector StateWords 8) (m : Vector Block 8)
    (c : Vector U64 8) (a b : Vector U32 8) : Ws 1281 (f.callT E h m c a b) fun _ => True := by
  unfold Compress8Fn.callT
  refine Ws.bind (.emit _) fun _ _ => ?_
  cases f
  · exact ws_compress8T _ _ _ _ _
  · exact (Ws.lift _).any

theorem ws_vectorize8 (E : Env) (f : Vectorize8Fn) (w : Vector StateWords 8) : Ws 1 (f.callT E w) fun _ => True := by
  unfold Vectorize8Fn.callT
  exact Ws.bind (.emit _) fun _ _ => (Ws.lift _).any

theorem ws_compress8Vectorized (E : Env) (f : Compress8VectorizedFn) (w : Vector StateWords 8)
    (m : Vector Block 8) (cl ch a b : Vector U32 8) : Ws 1297 (f.callT E w m cl ch a b) fun _ => True := by
  unfold Compress8VectorizedFn.callT
  refine Ws.bind (.emit _) fun _ _ => ?_
  cases f
  · exact ws_compress8VectorizedT _ _ _ _ _ _ _
  · exact (Ws.lift _).any

/-! ## Parameters and hashes -/

theorem ws_short {n : Nat} (p : Vector U8 n → α) (k : List U8) (m : Nat) (s : String) :
    Ws 8 (assertT (decide (k.length ≤ m)) s >>= fun _ => copyFromSliceT (Vector.replicate n 0) 0 k.length k >>=
      fun b => Pure.pure (p b)) fun _ => True :=
  Ws.bind (ws_assertT _ _) fun _ _ => Ws.bind (ws_copyFromSliceT _ _ _ _) fun _ _ => .pure trivial

theorem Params.ws_set (p : Params) (c : Setter) : Ws 8 (p.setT c) fun _ => True := by
  cases c with
  | hashLength n =>
    exact Ws.bind (n := 2) (ws_testAll _) fun _ _ => Ws.bind (ws_assertT _ _) fun _ _ => .pure trivial
  | key k => exact ws_short _ k 32 _
  | salt k => exact ws_short _ k 8 _
  | personal k => exact ws_short _ k 8 _
  | maxDepth n => exact Ws.bind (ws_assertT _ _) fun _ _ => .pure trivial
  | nodeOffset n => exact Ws.bind (ws_assertT _ _) fun _ _ => .pure trivial
  | innerHashLength n => exact Ws.bind (ws_assertT _ _) fun _ _ => .pure trivial
  | _ => exact .pure trivial

theorem Sp.Params.ws_set (p : Sp.Params) (c : Sp.Setter) : Ws 8 (p.setT c) fun _ => True := by
  cases c with
  | hashLength n =>
    exact Ws.bind (n := 2) (ws_testAll _) fun _ _ => Ws.bind (ws_assertT _ _) fun _ _ => .pure trivial
  | key k => exact ws_short _ k 32 _

theorem ws_constantTimeEqT (a b : List U8) : Ws 2 (constantTimeEqT a b) fun _ => True := by
  unfold constantTimeEqT
  refine Ws.bind (ws_test _) fun _ _ => .ite (fun _ => ?_) fun _ => .pure trivial
  exact Ws.bind (.emit _) fun _ _ => .pure trivial

theorem ws_push (cap : Nat) (s : List Char) (c : Char) : Ws 3 (arrayStringPushT cap s c) fun _ => True :=
  Ws.bind (.emit _) fun _ _ => Ws.bind (.emit _) fun _ _ => (Ws.orPanic _ _).any

theorem ws_hexTableT (i : Nat) : Ws 2 (hexTableT i) fun _ => True :=
  Ws.bind (.emit _) fun _ _ => (Ws.orPanic _ _).any

theorem ws_hexLoop (b : List U8) (s : List Char) : Ws (1 + 11 * b.length) (bytesToHexLoopT b s) fun _ => True := by
  induction b generalizing s with
  | nil => exact Ws.bind (.emit _) fun _ _ => .pure trivial
  | cons x xs ih =>
    rw [bytesToHexLoopT, List.length_cons]
    refine Ws.bind (.emit _) fun _ _ => ?_
    refine Ws.bind (ws_hexTableT _) fun _ _ => Ws.bind (ws_push _ _ _) fun t _ => ?_
    refine Ws.bind (ws_hexTableT _) fun _ _ => Ws.bind (ws_push _ _ _) fun u _ => ?_
    exact (ih u).le (by omega)

theorem Hash.ws_toHex (h : Hash) : Ws 356 h.toHexT fun _ => True :=
  Ws.bind (ws_asBytesT h) fun b hb => (ws_hexLoop b []).le (by omega)

theorem Hash.ws_debug (h : Hash) : Ws 356 h.debugT fun _ => True :=
  Ws.bind (h.ws_toHex) fun _ _ => .pure trivial

theorem Hash.ws_eq (a b : Hash) : Ws 8 (a.eqHashT b) fun _ => True :=
  Ws.bind (ws_asBytesT _) fun _ _ => Ws.bind (ws_asBytesT _) fun _ _ => ws_constantTimeEqT _ _

theorem Hash.ws_eqSlice (a : Hash) (b : List U8) : Ws 5 (a.eqSliceT b) fun _ => True :=
  Ws.bind (ws_asBytesT _) fun _ _ => ws_constantTimeEqT _ _

/-! ## States -/

namespace State

theorem ws_fillBuf (E : Env) (s : State) (input : List U8) :
    Ws 21 (s.fillBufT E input) fun r => r.2.length ≤ input.length := by
  unfold fillBufT
  refine Ws.bind (ws_usizeSubT _ _) fun d _ => Ws.bind (ws_minT _ _) fun t _ => ?_
  refine Ws.bind (ws_usizeAddT _ _) fun n _ => Ws.bind (ws_sliceToT _ _) fun part _ => ?_
  refine Ws.bind (ws_copyFromSliceT _ _ _ _) fun buf _ => ?_
  refine Ws.bind (ws_addChkT _ _ _) fun l _ => Ws.bind (ws_addChkT _ _ _) fun c _ => ?_
  exact Ws.bind (ws_sliceFromT _ _) fun rest hr => .pure (by dsimp only; omega)

theorem ws_compressBuffer (E : Env) (s : State) (input : List U8) :
    Ws 184 (s.compressBufferIfPossibleT E input) fun r => r.2.length ≤ input.length := by
  unfold compressBufferIfPossibleT
  refine Ws.bind (ws_test _) fun _ _ => Ws.ite (fun _ => ?_) fun _ => .pure (Nat.le_refl _)
  refine Ws.bind (ws_fillBuf E s input) fun r hr => ?_
  obtain ⟨s, input⟩ := r
  refine Ws.bind (ws_test _) fun _ _ => Ws.ite (fun _ => ?_) fun _ => .pure hr
  exact Ws.bind (ws_compress _ _ _ _ _ _ _) fun _ _ => .pure hr

theorem ws_updateLoop (E : Env) (n : Nat) (s : State) (input : List U8) :
    Ws (1 + 3 * input.length) (updateLoopT E n s input) fun r => r.2.length ≤ input.length := by
  induction n generalizing s input with
  | zero => exact .fail _
  | succ n ih =>
    rw [updateLoopT]
    refine Ws.bind (ws_test _) fun b hb => Ws.ite (fun hc => ?_) fun _ => .pure (Nat.le_refl _)
    rw [hb] at hc
    have hl : input.length > 64 := of_decide_eq_true hc
    refine Ws.bind (ws_addChkT _ _ _) fun c _ => Ws.bind (ws_arrayRefT _ _ _) fun block _ => ?_
    refine Ws.bind (ws_compress _ _ _ _ _ _ _) fun h _ => Ws.bind (ws_sliceFromT _ _) fun rest hr => ?_
    simp only [BLOCKBYTES] at hr
    exact ((ih _ rest).mono fun r h => by omega).le (by omega)

theorem ws_update (E : Env) (s : State) (input : List U8) :
    Ws (206 + 3 * input.length) (s.updateT E input) fun _ => True := by
  unfold updateT
  refine Ws.bind (ws_compressBuffer E s input) fun r hr => ?_
  refine Ws.bind ((ws_updateLoop E _ _ _).le (k := 1 + 3 * input.length) (by omega)) fun q hq => ?_
  exact Ws.bind (ws_fillBuf E _ _) fun _ _ => .pure trivial

theorem ws_withParams (E : Env) (p : Params) : Ws 405 (withParamsT E p) fun _ => True := by
  unfold withParamsT
  dsimp only
  refine Ws.bind (ws_test _) fun _ _ => Ws.ite (fun _ => ?_) fun _ => .pure trivial
  refine Ws.bind (ws_copyFromSliceT _ _ _ _) fun b _ => (ws_update _ _ _).le ?_
  rw [Vector.length_toList]
  omega

theorem ws_new (E : Env) : Ws 405 (newT E) fun _ => True := ws_withParams E _

theorem ws_finalize (E : Env) (s : State) : Ws 163 (s.finalizeT E) fun _ => True := by
  unfold finalizeT
  refine Ws.bind (ws_zeroTailT _ _) fun _ _ => Ws.bind (ws_flagWordT _) fun _ _ => ?_
  exact Ws.bind (ws_compress _ _ _ _ _ _ _) fun _ _ => .pure trivial

theorem ws_write (E : Env) (s : State) (input : List U8) :
    Ws (206 + 3 * input.length) (s.writeT E input) fun _ => True :=
  Ws.bind (ws_update _ _ _) fun _ _ => .pure trivial

theorem ws_debug (s : State) : Ws 3 s.debugT fun _ => True :=
  Ws.bind (.emit _) fun _ _ => Ws.bind (.emit _) fun _ _ => Ws.bind (.emit _) fun _ _ => .pure trivial

end State

theorem ws_hashOne (E : Env) (p : Params) (input : List U8) :
    Ws (774 + 3 * input.length) (hashOneT E p input) fun _ => True := by
  unfold hashOneT Params.toStateT
  refine Ws.bind (State.ws_withParams _ _) fun _ _ => Ws.bind (State.ws_update _ _ _) fun _ _ => ?_
  exact Ws.bind (State.ws_finalize _ _) fun _ _ => .pure trivial

theorem ws_blake2s (E : Env) (input : List U8) : Ws (774 + 3 * input.length) (blake2sT E input) fun _ => True := by
  unfold blake2sT
  refine Ws.bind (State.ws_new _) fun _ _ => Ws.bind (State.ws_update _ _ _) fun _ _ => ?_
  exact Ws.bind (State.ws_finalize _ _) fun _ _ => .pure trivial

/-! ## Several inputs -/

/-- The bytes of several inputs together. -/
def total8 (input : Vector (List U8) 8) : Nat :=
  input[0].length + input[1].length + input[2].length + input[3].length + input[4].length + input[5].length +
    input[6].length + input[7].length

theorem ws_exactLastNode (p : Params) (c n : Nat) : Ws 2 (exactLastNodeT p c n) fun _ => True :=
  Ws.bind (n := 2) (ws_testAll _) fun _ _ => Ws.ite (fun _ => .pure trivial) fun _ => .pure trivial

theorem Sse41.ws_loop (p : Params) (input : Vector (List U8) 4) (len n : Nat) (h : Vector X86.M128 8) (c : Nat) :
    Ws (1 + (input[0].length - c)) (hash4ExactLoopT p input len n h c) fun _ => True := by
  induction n generalizing h c with
  | zero => exact .fail _
  | succ n ih =>
    rw [hash4ExactLoopT]
    refine Ws.bind (ws_readBlockPtrT _ _) fun _ h0 => ?_
    iterate 3 refine Ws.bind (ws_readBlockPtrT _ _) fun _ _ => ?_
    refine Ws.bind (ws_usizeAddT _ _) fun d hd => ?_
    simp only [BLOCKBYTES] at hd
    refine Ws.bind (ws_flagWordT _) fun _ _ => Ws.bind (ws_exactLastNode _ _ _) fun _ _ => ?_
    refine Ws.bind (.emit _) fun _ _ => Ws.bind (ws_test _) fun _ _ => ?_
    exact Ws.ite (fun _ => .pure trivial) fun _ => (ih _ d).le (by omega)

theorem Avx2.ws_loop (p : Params) (input : Vector (List U8) 8) (len n : Nat) (h : Vector X86.M256 8) (c : Nat) :
    Ws (1 + (input[0].length - c)) (hash8ExactLoopT p input len n h c) fun _ => True := by
  induction n generalizing h c with
  | zero => exact .fail _
  | succ n ih =>
    rw [hash8ExactLoopT]
    refine Ws.bind (ws_readBlockPtrT _ _) fun _ h0 => ?_
    iterate 7 refine Ws.bind (ws_readBlockPtrT _ _) fun _ _ => ?_
    refine Ws.bind (ws_usizeAddT _ _) fun d hd => ?_
    simp only [BLOCKBYTES] at hd
    refine Ws.bind (ws_flagWordT _) fun _ _ => Ws.bind (ws_exactLastNode _ _ _) fun _ _ => ?_
    refine Ws.bind (.emit _) fun _ _ => Ws.bind (ws_test _) fun _ _ => ?_
    exact Ws.ite (fun _ => .pure trivial) fun _ => (ih _ d).le (by omega)

theorem ws_hash4Exact (E : Env) (p : Params) (input : Vector (List U8) 4) :
    Ws (3105 + 3 * (input[0].length + input[1].length + input[2].length + input[3].length)) (hash4ExactT E p input)
      fun _ => True := by
  unfold hash4ExactT
  dsimp only
  refine Ws.bind (n := 3) (ws_testAll _) fun _ _ => Ws.bind (n := 3) (ws_testAll _) fun _ _ => ?_
  refine Ws.bind (ws_assertT _ _) fun _ _ => ?_
  unfold Hash4ExactFn.callT
  refine Ws.bind (.emit _) fun _ _ => ?_
  cases (defaultCompressImpl E).hash4Exact
  · dsimp only
    unfold Portable.hash4ExactT
    iterate 4 refine Ws.bind (ws_hashOne _ _ _) fun _ _ => ?_
    exact .pure trivial
  · exact Ws.ite (fun _ => (Sse41.ws_loop _ _ _ _ _ _).le (by omega)) fun _ => .fail _

theorem ws_hash8Exact (E : Env) (p : Params) (input : Vector (List U8) 8) :
    Ws (6205 + 3 * total8 input) (hash8ExactT E p input) fun _ => True := by
  unfold hash8ExactT total8
  dsimp only
  refine Ws.bind (n := 7) (ws_testAll _) fun _ _ => Ws.bind (n := 3) (ws_testAll _) fun _ _ => ?_
  refine Ws.bind (ws_assertT _ _) fun _ _ => ?_
  unfold Hash8ExactFn.callT
  refine Ws.bind (.emit _) fun _ _ => ?_
  cases (defaultCompressImpl E).hash8Exact
  · dsimp only
    unfold Portable.hash8ExactT
    iterate 8 refine Ws.bind (ws_hashOne _ _ _) fun _ _ => ?_
    exact .pure trivial
  · exact Ws.ite (fun _ => (Avx2.ws_loop _ _ _ _ _ _).le (by omega)) fun _ => .fail _

theorem all_gt {cs : List Bool} {b : Bool} (h : b = cs.all id) (hb : b = true) : ∀ c ∈ cs, c = true := by
  rw [hb] at h
  exact fun c hc => List.all_eq_true.mp h.symm c hc

theorem ws_update8Loop (E : Env) (fn : Compress8Fn) (n : Nat) (st : Vector State 8) (input : Vector (List U8) 8)
    (C : Nat) : Wp (8 + C + 3 * total8 input) (update8LoopT E fn n st input) fun r => C + 3 * total8 r.2 := by
  induction n generalizing st input with
  | zero => exact .fail _
  | succ n ih =>
    rw [update8LoopT]
    refine Wp.bind (n := 8) (ws_testAll _) fun b hb => Wp.ite (fun hc => ?_) fun _ => .pure (by dsimp only; omega)
    have hl := all_gt hb hc
    simp only [List.mem_cons, List.not_mem_nil, or_false, forall_eq_or_imp, forall_eq, decide_eq_true_eq,
      BLOCKBYTES] at hl
    obtain ⟨g0, g1, g2, g3, g4, g5, g6, g7⟩ := hl
    have ht : total8 input = input[0].length + input[1].length + input[2].length + input[3].length +
      input[4].length + input[5].length + input[6].length + input[7].length := rfl
    iterate 8 refine Wp.bind (ws_addChkT _ _ _) fun _ _ => ?_
    iterate 8 refine Wp.bind (ws_arrayRefT _ _ _) fun _ _ => ?_
    refine Wp.bind (ws_compress8 _ _ _ _ _ _ _) fun _ _ => ?_
    refine Wp.bind (ws_sliceFromT _ _) fun i0 h0 => Wp.bind (ws_sliceFromT _ _) fun i1 h1 => ?_
    refine Wp.bind (ws_sliceFromT _ _) fun i2 h2 => Wp.bind (ws_sliceFromT _ _) fun i3 h3 => ?_
    refine Wp.bind (ws_sliceFromT _ _) fun i4 h4 => Wp.bind (ws_sliceFromT _ _) fun i5 h5 => ?_
    refine Wp.bind (ws_sliceFromT _ _) fun i6 h6 => Wp.bind (ws_sliceFromT _ _) fun i7 h7 => ?_
    simp only [BLOCKBYTES] at h0 h1 h2 h3 h4 h5 h6 h7
    have he : total8 #v[i0, i1, i2, i3, i4, i5, i6, i7] = i0.length + i1.length + i2.length + i3.length +
      i4.length + i5.length + i6.length + i7.length := rfl
    exact (ih _ #v[i0, i1, i2, i3, i4, i5, i6, i7]).le (by omega)

theorem ws_update8 (E : Env) (st : Vector State 8) (input : Vector (List U8) 8) :
    Ws (3128 + 3 * total8 input) (update8T E st input) fun _ => True := by
  have ht : total8 input = input[0].length + input[1].length + input[2].length + input[3].length +
    input[4].length + input[5].length + input[6].length + input[7].length := rfl
  unfold update8T
  refine Ws.bind (State.ws_compressBuffer _ _ _) fun ⟨s0, i0⟩ h0 => ?_
  refine Ws.bind (State.ws_compressBuffer _ _ _) fun ⟨s1, i1⟩ h1 => ?_
  refine Ws.bind (State.ws_compressBuffer _ _ _) fun ⟨s2, i2⟩ h2 => ?_
  refine Ws.bind (State.ws_compressBuffer _ _ _) fun ⟨s3, i3⟩ h3 => ?_
  refine Ws.bind (State.ws_compressBuffer _ _ _) fun ⟨s4, i4⟩ h4 => ?_
  refine Ws.bind (State.ws_compressBuffer _ _ _) fun ⟨s5, i5⟩ h5 => ?_
  refine Ws.bind (State.ws_compressBuffer _ _ _) fun ⟨s6, i6⟩ h6 => ?_
  refine Ws.bind (State.ws_compressBuffer _ _ _) fun ⟨s7, i7⟩ h7 => ?_
  dsimp only at h0 h1 h2 h3 h4 h5 h6 h7
  have he : total8 #v[i0, i1, i2, i3, i4, i5, i6, i7] = i0.length + i1.length + i2.length + i3.length +
    i4.length + i5.length + i6.length + i7.length := rfl
  refine Wp.use ((ws_update8Loop E _ _ _ _ 1648).le (by omega)) fun ⟨st, rest⟩ => ?_
  dsimp only
  have hs : total8 rest = rest[0].length + rest[1].length + rest[2].length + rest[3].length +
    rest[4].length + rest[5].length + rest[6].length + rest[7].length := rfl
  iterate 8 refine Ws.bind (State.ws_update _ _ _) fun _ _ => ?_
  exact .pure trivial

theorem ws_finalize8 (E : Env) (st : Vector State 8) : Ws 1297 (finalize8T E st) fun _ => True := by
  unfold finalize8T
  iterate 8 refine Ws.bind (ws_zeroTailT _ _) fun _ _ => ?_
  iterate 8 refine Ws.bind (ws_flagWordT _) fun _ _ => ?_
  dsimp only
  exact Ws.bind (ws_compress8 _ _ _ _ _ _ _) fun _ _ => .pure trivial

theorem ws_allRemaining (p : Nat → Bool) (count : Nat) (l : List (List U8)) :
    Ws (4 * l.length) (allRemainingT p count l) fun _ => True := by
  induction l with
  | nil => exact .pure trivial
  | cons i is ih =>
    rw [allRemainingT, List.length_cons]
    refine Ws.bind (ws_usizeSubT _ _) fun _ _ => Ws.bind (ws_test _) fun _ _ => ?_
    exact Ws.ite (fun _ => ih.le (by omega)) fun _ => .pure trivial

theorem ws_hash8Flags (p : Vector Params 8) (b : Bool) : Ws 9 (hash8FlagsT p b) fun _ => True := by
  unfold hash8FlagsT
  refine Ws.bind (ws_test _) fun _ _ => Ws.ite (fun _ => ?_) fun _ => .pure trivial
  iterate 8 refine Ws.bind (ws_flagWordT _) fun _ _ => ?_
  exact .pure trivial

/-- What is left of an input behind `count` bytes, for all eight. -/
def rest8 (input : Vector (List U8) 8) (count : Nat) : Nat :=
  (input[0].length - count) + (input[1].length - count) + (input[2].length - count) + (input[3].length - count) +
    (input[4].length - count) + (input[5].length - count) + (input[6].length - count) + (input[7].length - count)

/-- What `hash8` needs after its loop: nothing, or `C` and the rest of the inputs. -/
def left8 (input : Vector (List U8) 8) (C : Nat) : Hash8Exit → Nat
  | .ret _ => 0
  | .brk _ count => C + 3 * rest8 input count

theorem ws_hash8Loop (E : Env) (impl : Impl) (p : Vector Params 8) (input : Vector (List U8) 8) (n : Nat)
    (w : Vector StateWords 8) (count : Nat)
    (C : Nat) : Wp (100 + C + 3 * rest8 input count) (hash8LoopT E impl p input n w count) (left8 input C) := by
  induction n generalizing w count with
  | zero => exact .fail _
  | succ n ih =>
    have hr : rest8 input count = (input[0].length - count) + (input[1].length - count) +
      (input[2].length - count) + (input[3].length - count) + (input[4].length - count) +
      (input[5].length - count) + (input[6].length - count) + (input[7].length - count) := rfl
    rw [hash8LoopT]
    refine Wp.bind (n := 32) (ws_allRemaining _ _ _) fun u _ => ?_
    refine Wp.bind (n := 32) (ws_allRemaining _ _ _) fun f _ => ?_
    refine Wp.bind (n := 2) (ws_testAll _) fun _ _ => Wp.ite (fun _ => .pure (by show _ + _ ≤ _; omega)) fun _ => ?_
    refine Wp.bind (ws_arrayRefT _ _ _) fun _ g0 => Wp.bind (ws_arrayRefT _ _ _) fun _ g1 => ?_
    refine Wp.bind (ws_arrayRefT _ _ _) fun _ g2 => Wp.bind (ws_arrayRefT _ _ _) fun _ g3 => ?_
    refine Wp.bind (ws_arrayRefT _ _ _) fun _ g4 => Wp.bind (ws_arrayRefT _ _ _) fun _ g5 => ?_
    refine Wp.bind (ws_arrayRefT _ _ _) fun _ g6 => Wp.bind (ws_arrayRefT _ _ _) fun _ g7 => ?_
    simp only [BLOCKBYTES] at g0 g1 g2 g3 g4 g5 g6 g7
    refine Wp.bind (ws_usizeAddT _ _) fun d hd => ?_
    simp only [BLOCKBYTES] at hd
    refine Wp.bind (ws_hash8Flags _ _) fun fl _ => ?_
    obtain ⟨a, b⟩ := fl
    refine Wp.bind (ws_compress8Vectorized _ _ _ _ _ _ _ _) fun w' _ => ?_
    refine Wp.bind (ws_test _) fun _ _ => Wp.ite (fun _ => ?_) fun _ => ?_
    · exact Wp.bind (ws_vectorize8 _ _ _) fun _ _ => .pure (Nat.zero_le _)
    · have he : rest8 input d = (input[0].length - d) + (input[1].length - d) +
        (input[2].length - d) + (input[3].length - d) + (input[4].length - d) +
        (input[5].length - d) + (input[6].length - d) + (input[7].length - d) := rfl
      exact (ih w' d).le (by omega)

theorem ws_hash8Finish (E : Env) (impl : Impl) (count : Nat) (p : Params) (w : StateWords) (input : List U8) :
    Ws (372 + 3 * (input.length - count)) (hash8FinishT E impl count p w input) fun _ => True := by
  unfold hash8FinishT
  dsimp only
  refine Ws.bind (ws_sliceFromT _ _) fun rest hr => ?_
  refine Ws.bind (State.ws_update _ _ _) fun _ _ => Ws.bind (State.ws_finalize _ _) fun _ _ => .pure trivial

theorem ws_hash8 (E : Env) (p : Vector Params 8) (input : Vector (List U8) 8) :
    Ws (3094 + 3 * total8 input) (hash8T E p input) fun _ => True := by
  have ht : total8 input = input[0].length + input[1].length + input[2].length + input[3].length +
    input[4].length + input[5].length + input[6].length + input[7].length := rfl
  have he : rest8 input 0 = input[0].length + input[1].length + input[2].length + input[3].length +
    input[4].length + input[5].length + input[6].length + input[7].length := rfl
  unfold hash8T
  iterate 8 refine Ws.bind (ws_assertT _ _) fun _ _ => ?_
  dsimp only
  refine Ws.bind (ws_vectorize8 _ _ _) fun _ _ => ?_
  refine Wp.use ((ws_hash8Loop _ _ _ _ _ _ _ 2977).le (by omega)) fun x => ?_
  cases x with
  | ret h => exact .pure trivial
  | brk w count =>
    have hr : rest8 input count = (input[0].length - count) + (input[1].length - count) +
      (input[2].length - count) + (input[3].length - count) + (input[4].length - count) +
      (input[5].length - count) + (input[6].length - count) + (input[7].length - count) := rfl
    dsimp only [left8]
    refine Ws.bind (ws_vectorize8 _ _ _) fun _ _ => ?_
    iterate 8 refine Ws.bind (ws_hash8Finish _ _ _ _ _ _) fun _ _ => ?_
    exact .pure trivial

end Blake2s
