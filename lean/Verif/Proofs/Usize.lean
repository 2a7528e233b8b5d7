import Verif.Usize
import Verif.Proofs.WorkMany
/-!
# Every `usize` computed along the way fits
-/

namespace Blake2s

open Tr (lift emit orPanic)

variable {α β : Type} {B : Nat}

/-- `Event.Fits` with half the number of values of `usize` instead of its width. -/
def Event.Below (B : Nat) : Event → Prop
  | .usize n => 0 ≤ n ∧ n < 2 * B
  | .address n => n < B
  | _ => True

/-- Everything fits, and this is known about the result. -/
def Sz (B : Nat) (m : Tr α) (Q : α → Prop) : Prop :=
  (∀ e ∈ m.2, e.Below B) ∧ ∀ a, m.1 = .ok a → Q a

theorem Sz.pure {Q : α → Prop} {a : α} (h : Q a) : Sz B (Pure.pure a) Q :=
  ⟨fun _ h => (List.not_mem_nil h).elim, fun _ e => by cases e; exact h⟩

theorem Sz.bind {m : Tr α} {f : α → Tr β} {P : α → Prop} {Q : β → Prop}
    (h : Sz B m P) (k : ∀ a, P a → Sz B (f a) Q) : Sz B (m >>= f) Q := by
  obtain ⟨r, t⟩ := m
  cases r with
  | error x => exact ⟨h.1, fun a e => by cases e⟩
  | ok a =>
    obtain ⟨k1, k2⟩ := k a (h.2 a rfl)
    refine ⟨fun e he => ?_, k2⟩
    have he : e ∈ t ++ (f a).2 := he
    rcases List.mem_append.mp he with he | he
    · exact h.1 e he
    · exact k1 e he

theorem Sz.mono {m : Tr α} {P Q : α → Prop} (h : Sz B m P) (i : ∀ a, P a → Q a) : Sz B m Q :=
  ⟨h.1, fun a e => i a (h.2 a e)⟩

theorem Sz.any {m : Tr α} {P : α → Prop} (h : Sz B m P) : Sz B m fun _ => True := h.mono fun _ _ => trivial

theorem Sz.ite {c : Prop} [Decidable c] {a b : Tr α} {Q : α → Prop} (h : c → Sz B a Q) (k : ¬ c → Sz B b Q) :
    Sz B (if c then a else b) Q := by
  split
  · exact h ‹_›
  · exact k ‹_›

theorem Sz.lift (r : R α) : Sz B (Tr.lift r) fun a => r = .ok a :=
  ⟨fun _ h => (List.not_mem_nil h).elim, fun _ e => e⟩

theorem Sz.fail {Q : α → Prop} (f : Fault) : Sz B (Tr.lift (throw f : R α)) Q :=
  ⟨fun _ h => (List.not_mem_nil h).elim, fun _ e => by cases e⟩

theorem Sz.orPanic (r : R α) (s : String) : Sz B (Tr.orPanic r s) fun a => r = .ok a := by
  refine ⟨fun e h => ?_, fun _ e => e⟩
  cases r with
  | ok a => exact (List.not_mem_nil h).elim
  | error f =>
    rcases List.mem_cons.mp h with rfl | h
    · trivial
    · exact (List.not_mem_nil h).elim

theorem Sz.emit {e : Event} (h : e.Below B) : Sz B (Tr.emit e) fun _ => True := by
  refine ⟨fun x hx => ?_, fun _ _ => trivial⟩
  rcases List.mem_cons.mp hx with rfl | hx
  · exact h
  · exact (List.not_mem_nil hx).elim

/-! ## Primitives -/

theorem sz_test (c : Bool) : Sz B (test c) fun b => b = c :=
  Sz.bind (.emit trivial) fun _ _ => .pure rfl

theorem sz_testAll (cs : List Bool) : Sz B (testAll cs) fun b => b = cs.all id := by
  induction cs with
  | nil => exact .pure rfl
  | cons c cs ih =>
    unfold testAll
    refine Sz.bind (sz_test c) fun b hb => ?_
    subst hb
    refine Sz.ite (fun h => ih.mono fun b hb => ?_) fun h => .pure ?_
    · rw [hb, List.all_cons]; simp [h]
    · rw [List.all_cons]; simp [h]

theorem sz_addChkT {w : Nat} (E : Env) (a b : BitVec w) : Sz B (addChkT E a b) fun c => c = a + b := by
  have h : Sz B (Tr.orPanic (addChk E a b) "attempt to add with overflow") fun c => c = a + b := by
    refine (Sz.orPanic _ _).mono fun c e => ?_
    unfold addChk at e
    split at e <;> cases e
    rfl
  unfold addChkT
  split
  · exact Sz.bind (.emit trivial) fun _ _ => h
  · exact h

theorem sz_subChkT {w : Nat} (E : Env) (a b : BitVec w) : Sz B (subChkT E a b) fun c => c = a - b := by
  have h : Sz B (Tr.orPanic (subChk E a b) "attempt to subtract with overflow") fun c => c = a - b := by
    refine (Sz.orPanic _ _).mono fun c e => ?_
    unfold subChk at e
    split at e <;> cases e
    rfl
  unfold subChkT
  split
  · exact Sz.bind (.emit trivial) fun _ _ => h
  · exact h

theorem sz_usizeSubT {a b : Nat} (h : b ≤ a) (ha : a < 2 * B) : Sz B (usizeSubT a b) fun c => c = a - b := by
  refine Sz.bind (.emit ?_) fun _ _ => Sz.bind (.emit trivial) fun _ _ => (Sz.orPanic _ _).mono fun c e => ?_
  · show 0 ≤ (a : Int) - b ∧ (a : Int) - b < 2 * B
    omega
  · unfold usizeSub at e
    rw [if_pos h] at e
    exact (Except.ok.inj e).symm

theorem sz_usizeAddT {a b : Nat} (h : a + b < 2 * B) : Sz B (usizeAddT a b) fun c => c = a + b := by
  refine Sz.bind (.emit ?_) fun _ _ => .pure rfl
  show 0 ≤ (a : Int) + b ∧ (a : Int) + b < 2 * B
  omega

theorem sz_minT (a b : Nat) : Sz B (minT a b) fun c => c = min a b :=
  Sz.bind (.emit trivial) fun _ _ => .pure rfl

theorem sz_sliceToT {s : List U8} {n : Nat} (h : n < B) :
    Sz B (sliceToT s n) fun r => r.length = n ∧ n ≤ s.length := by
  refine Sz.bind (.emit trivial) fun _ _ => Sz.bind (.emit h) fun _ _ => (Sz.orPanic _ _).mono fun c e => ?_
  unfold sliceTo at e
  split at e <;> cases e
  rename_i hn
  exact ⟨by rw [List.length_take]; omega, hn⟩

theorem sz_sliceFromT {s : List U8} {n : Nat} (h : n < B) :
    Sz B (sliceFromT s n) fun r => r.length = s.length - n := by
  refine Sz.bind (.emit trivial) fun _ _ => Sz.bind (.emit h) fun _ _ => (Sz.orPanic _ _).mono fun c e => ?_
  unfold sliceFrom at e
  split at e <;> cases e
  rw [List.length_drop]

theorem sz_copyFromSliceT {n : Nat} (d : Vector U8 n) {a b : Nat} (s : List U8) (ha : a < B) (hb : b < B) :
    Sz B (copyFromSliceT d a b s) fun _ => True := by
  unfold copyFromSliceT
  iterate 3 refine Sz.bind (.emit trivial) fun _ _ => ?_
  exact Sz.bind (.emit ha) fun _ _ => Sz.bind (.emit hb) fun _ _ => (Sz.orPanic _ _).any

theorem sz_arrayRefT {s : List U8} {o n : Nat} (ho : o < B) (h : o + n < 2 * B) :
    Sz B (arrayRefT s o n) fun _ => o + n ≤ s.length := by
  refine Sz.bind (.emit ?_) fun _ _ => Sz.bind (.emit trivial) fun _ _ => Sz.bind (.emit ho) fun _ _ =>
    (Sz.orPanic _ _).mono fun c e => ?_
  · show 0 ≤ (o : Int) + n ∧ (o : Int) + n < 2 * B
    omega
  · unfold arrayRef at e
    split at e <;> cases e
    assumption

theorem sz_readBlockPtrT {s : List U8} {o : Nat} (ho : o < B) :
    Sz B (readBlockPtrT s o) fun _ => o + 64 ≤ s.length := by
  refine Sz.bind (.emit ho) fun _ _ => (Sz.lift _).mono fun c e => ?_
  unfold readBlockPtr at e
  split at e <;> cases e
  assumption

theorem sz_assertT (c : Bool) (s : String) : Sz B (assertT c s) fun _ => c = true := by
  refine Sz.bind (.emit trivial) fun _ _ => (Sz.orPanic _ _).mono fun a e => ?_
  unfold assert at e
  split at e
  · assumption
  · cases e

theorem sz_debugAssertT (E : Env) (c : Bool) (s : String) : Sz B (debugAssertT E c s) fun _ => True := by
  unfold debugAssertT
  split
  · exact Sz.bind (.emit trivial) fun _ _ => (Sz.orPanic _ _).any
  · exact (Sz.orPanic _ _).any

theorem u8_lt (x : U8) : x.toNat < 256 := x.isLt
theorem u16_lt (x : U16) : x.toNat < 65536 := x.isLt

theorem sz_zeroTailT (hB : 2 ^ 15 ≤ B) (b : Block) (n : U8) : Sz B (State.zeroTailT b n) fun _ => True :=
  Sz.bind (.emit (by have := u8_lt n; show n.toNat < B; omega)) fun _ _ => .pure trivial

theorem sz_flagWordT (b : Bool) : Sz B (State.flagWordT b) fun _ => True :=
  Sz.bind (sz_test b) fun _ _ => .ite (fun _ => .pure trivial) fun _ => .pure trivial

theorem sz_wordT (hB : 2 ^ 15 ≤ B) (m : Vector U32 16) (r : Fin 12) (i : Fin 16) :
    Sz B (Portable.wordT m r i) fun _ => True :=
  Sz.bind (.emit (by have := SIGMA[r][i].isLt; show SIGMA[r][i].val < B; omega)) fun _ _ => .pure trivial

theorem sz_asBytesT (hB : 2 ^ 15 ≤ B) (h : Hash) : Sz B h.asBytesT fun b => b.length ≤ 32 := by
  have hl := u8_lt h.len
  refine (sz_sliceToT (by omega)).mono fun b hb => ?_
  have := hb.2
  rw [Vector.length_toList] at this
  omega

theorem sz_saturatingSubT (n : Nat) : Sz B (Sp.State.saturatingSubT n) fun _ => True :=
  Sz.bind (.emit trivial) fun _ _ => .pure trivial

/-! ## Compression -/

theorem sz_roundT (hB : 2 ^ 15 ≤ B) (r : Fin 12) (m v : Vector U32 16) :
    Sz B (Portable.roundT r m v) fun _ => True := by
  unfold Portable.roundT
  with_reducible repeat' first
    | exact sz_wordT hB _ _ _ | exact Sz.pure trivial | refine Sz.bind (P := fun _ => True) ?_ fun _ _ => ?_

theorem sz_compressT (hB : 2 ^ 15 ≤ B) (h : StateWords) (m : Block) (c : U64) (a b : U32) :
    Sz B (Portable.compressT h m c a b) fun _ => True := by
  unfold Portable.compressT
  dsimp only
  with_reducible repeat' first
    | exact sz_roundT hB _ _ _ | exact Sz.pure trivial | refine Sz.bind (P := fun _ => True) ?_ fun _ _ => ?_

theorem sz_compress8T (hB : 2 ^ 15 ≤ B) (h : Vector StateWords 8) (m : Vector Block 8) (c : Vector U64 8)
    (a b : Vector U32 8) : Sz B (Portable.compress8T h m c a b) fun _ => True := by
  unfold Portable.compress8T
  with_reducible repeat' first
    | exact sz_compressT hB _ _ _ _ _ | exact Sz.pure trivial
    | refine Sz.bind (P := fun _ => True) ?_ fun _ _ => ?_

theorem sz_compress8VectorizedT (hB : 2 ^ 15 ≤ B) (E : Env) (w : Vector StateWords 8) (m : Vector Block 8)
    (cl ch a b : Vector U32 8) : Sz B (Portable.compress8VectorizedT E w m cl ch a b) fun _ => True := by
  unfold Portable.compress8VectorizedT Portable.joinCountT
  with_reducible repeat' first
    | exact sz_compressT hB _ _ _ _ _ | exact (sz_addChkT _ _ _).any | exact Sz.pure trivial
    | refine Sz.bind (P := fun _ => True) ?_ fun _ _ => ?_

theorem sz_compress (hB : 2 ^ 15 ≤ B) (E : Env) (f : CompressFn) (h : StateWords) (m : Block) (c : U64) (a b : U32) :
    Sz B (f.callT E h m c a b) fun _ => True := by
  unfold CompressFn.callT
  refine Sz.bind (.emit trivial) fun _ _ => ?_
  cases f
  · exact sz_compressT hB _ _ _ _ _
  · exact (Sz.lift _).any

theorem sz_compress8 (hB : 2 ^ 15 ≤ B) (E : Env) (f : Compress8Fn) (h : Vector StateWords 8) (m : Vector Block 8)
    (c : Vector U64 8) (a b : Vector U32 8) : Sz B (f.callT E h m c a b) fun _ => True := by
  unfold Compress8Fn.callT
  refine Sz.bind (.emit trivial) fun _ _ => ?_
  cases f
  · exact sz_compress8T hB _ _ _ _ _
  · exact (Sz.lift _).any

theorem sz_vectorize8 (E : Env) (f : Vectorize8Fn) (w : Vector StateWords 8) : Sz B (f.callT E w) fun _ => True := by
  unfold Vectorize8Fn.callT
  exact Sz.bind (.emit trivial) fun _ _ => (Sz.lift _).any

theorem sz_compress8Vectorized (hB : 2 ^ 15 ≤ B) (E : Env) (f : Compress8VectorizedFn) (w : Vector StateWords 8)
    (m : Vector Block 8) (cl ch a b : Vector U32 8) : Sz B (f.callT E w m cl ch a b) fun _ => True := by
  unfold Compress8VectorizedFn.callT
  refine Sz.bind (.emit trivial) fun _ _ => ?_
  cases f
  · exact sz_compress8VectorizedT hB _ _ _ _ _ _ _
  · exact (Sz.lift _).any

/-! ## Parameters and hashes -/

theorem sz_short (hB : 2 ^ 15 ≤ B) {n : Nat} (p : Vector U8 n → α) (k : List U8) (m : Nat) (hm : m ≤ 32) (s : String) :
    Sz B (assertT (decide (k.length ≤ m)) s >>= fun _ => copyFromSliceT (Vector.replicate n 0) 0 k.length k >>=
      fun b => Pure.pure (p b)) fun _ => True := by
  refine Sz.bind (sz_assertT _ _) fun _ h => ?_
  have h : k.length ≤ m := of_decide_eq_true h
  exact Sz.bind (sz_copyFromSliceT _ _ (by omega) (by omega)) fun _ _ => .pure trivial

theorem Params.sz_set (hB : 2 ^ 15 ≤ B) (p : Params) (c : Setter) : Sz B (p.setT c) fun _ => True := by
  cases c with
  | hashLength n => exact Sz.bind (sz_testAll _) fun _ _ => Sz.bind (sz_assertT _ _) fun _ _ => .pure trivial
  | key k => exact sz_short hB _ k 32 (by omega) _
  | salt k => exact sz_short hB _ k 8 (by omega) _
  | personal k => exact sz_short hB _ k 8 (by omega) _
  | maxDepth n => exact Sz.bind (sz_assertT _ _) fun _ _ => .pure trivial
  | nodeOffset n => exact Sz.bind (sz_assertT _ _) fun _ _ => .pure trivial
  | innerHashLength n => exact Sz.bind (sz_assertT _ _) fun _ _ => .pure trivial
  | _ => exact .pure trivial

theorem Sp.Params.sz_set (hB : 2 ^ 15 ≤ B) (p : Sp.Params) (c : Sp.Setter) : Sz B (p.setT c) fun _ => True := by
  cases c with
  | hashLength n => exact Sz.bind (sz_testAll _) fun _ _ => Sz.bind (sz_assertT _ _) fun _ _ => .pure trivial
  | key k => exact sz_short hB _ k 32 (by omega) _

theorem sz_constantTimeEqT (hB : 2 ^ 15 ≤ B) {a b : List U8} (h : a.length ≤ 32) :
    Sz B (constantTimeEqT a b) fun _ => True := by
  unfold constantTimeEqT
  refine Sz.bind (sz_test _) fun _ _ => .ite (fun _ => ?_) fun _ => .pure trivial
  exact Sz.bind (.emit (show a.length < B by omega)) fun _ _ => .pure trivial

theorem sz_push {cap : Nat} {s : List Char} {c : Char} (h : s.length < B) :
    Sz B (arrayStringPushT cap s c) fun t => t.length = s.length + 1 := by
  refine Sz.bind (.emit trivial) fun _ _ => Sz.bind (.emit h) fun _ _ => (Sz.orPanic _ _).mono fun t e => ?_
  unfold arrayStringPush at e
  split at e <;> cases e
  rw [List.length_append]
  rfl

theorem sz_hexTableT {i : Nat} (h : i < B) : Sz B (hexTableT i) fun _ => True :=
  Sz.bind (.emit h) fun _ _ => (Sz.orPanic _ _).any

theorem sz_hexLoop (hB : 2 ^ 15 ≤ B) (b : List U8) (s : List Char) (h : s.length + 2 * b.length ≤ 64) :
    Sz B (bytesToHexLoopT b s) fun _ => True := by
  induction b generalizing s with
  | nil => exact Sz.bind (.emit trivial) fun _ _ => .pure trivial
  | cons x xs ih =>
    rw [List.length_cons] at h
    have h1 := u8_lt (x >>> 4)
    have h2 := u8_lt (x &&& 0xf)
    rw [bytesToHexLoopT]
    refine Sz.bind (.emit trivial) fun _ _ => ?_
    refine Sz.bind (sz_hexTableT (by omega)) fun _ _ => Sz.bind (sz_push (by omega)) fun t ht => ?_
    refine Sz.bind (sz_hexTableT (by omega)) fun _ _ => Sz.bind (sz_push (by omega)) fun u hu => ?_
    exact ih u (by omega)

theorem Hash.sz_toHex (hB : 2 ^ 15 ≤ B) (h : Hash) : Sz B h.toHexT fun _ => True :=
  Sz.bind (sz_asBytesT hB h) fun b hb => sz_hexLoop hB b [] (by simp; omega)

theorem Hash.sz_debug (hB : 2 ^ 15 ≤ B) (h : Hash) : Sz B h.debugT fun _ => True :=
  Sz.bind (h.sz_toHex hB) fun _ _ => .pure trivial

theorem Hash.sz_eq (hB : 2 ^ 15 ≤ B) (a b : Hash) : Sz B (a.eqHashT b) fun _ => True :=
  Sz.bind (sz_asBytesT hB _) fun _ h => Sz.bind (sz_asBytesT hB _) fun _ _ => sz_constantTimeEqT hB h

theorem Hash.sz_eqSlice (hB : 2 ^ 15 ≤ B) (a : Hash) (b : List U8) : Sz B (a.eqSliceT b) fun _ => True :=
  Sz.bind (sz_asBytesT hB _) fun _ h => sz_constantTimeEqT hB h

/-! ## States -/

namespace State

/-- The buffer length is one. -/
def Sized (s : State) : Prop := s.buflen.toNat ≤ 64

theorem sz_fillBuf (hB : 2 ^ 15 ≤ B) (E : Env) (s : State) (hs : s.Sized) (input : List U8) :
    Sz B (s.fillBufT E input) fun r => r.1.Sized ∧ r.2.length = input.length - (64 - s.buflen.toNat) := by
  unfold Sized at hs
  unfold fillBufT
  refine Sz.bind (sz_usizeSubT hs (by simp only [BLOCKBYTES]; omega)) fun d hd => ?_
  subst hd
  refine Sz.bind (sz_minT _ _) fun t ht => ?_
  simp only [BLOCKBYTES] at ht
  refine Sz.bind (sz_usizeAddT (by omega)) fun n hn => ?_
  refine Sz.bind (sz_sliceToT (by omega)) fun part _ => ?_
  refine Sz.bind (sz_copyFromSliceT _ _ (by omega) (by omega)) fun buf _ => ?_
  refine Sz.bind (sz_addChkT _ _ _) fun l hl => Sz.bind (sz_addChkT _ _ _) fun c _ => ?_
  refine Sz.bind (sz_sliceFromT (by omega)) fun rest hr => .pure ⟨?_, ?_⟩
  · show l.toNat ≤ 64
    rw [hl, BitVec.toNat_add, BitVec.toNat_ofNat]
    omega
  · show rest.length = _
    omega

theorem sz_compressBuffer (hB : 2 ^ 15 ≤ B) (E : Env) (s : State) (hs : s.Sized) (input : List U8) :
    Sz B (s.compressBufferIfPossibleT E input) fun r => r.1.Sized ∧ r.2.length ≤ input.length := by
  unfold compressBufferIfPossibleT
  refine Sz.bind (sz_test _) fun _ _ => Sz.ite (fun _ => ?_) fun _ => .pure ⟨hs, Nat.le_refl _⟩
  refine Sz.bind (sz_fillBuf hB E s hs input) fun r hr => ?_
  obtain ⟨s, input⟩ := r
  refine Sz.bind (sz_test _) fun _ _ => Sz.ite (fun _ => ?_) fun _ => .pure ⟨hr.1, by have := hr.2; dsimp only at *; omega⟩
  refine Sz.bind (sz_compress hB _ _ _ _ _ _ _) fun _ _ => .pure ⟨Nat.zero_le 64, ?_⟩
  have := hr.2
  dsimp only at *
  omega

theorem sz_updateLoop (hB : 2 ^ 15 ≤ B) (E : Env) (n : Nat) (s : State) (hs : s.Sized) (input : List U8) :
    Sz B (updateLoopT E n s input) fun r => r.1.Sized := by
  induction n generalizing s input with
  | zero => exact .fail _
  | succ n ih =>
    rw [updateLoopT]
    refine Sz.bind (sz_test _) fun _ _ => Sz.ite (fun _ => ?_) fun _ => .pure hs
    refine Sz.bind (sz_addChkT _ _ _) fun _ _ => ?_
    refine Sz.bind (sz_arrayRefT (by omega) (by simp only [BLOCKBYTES]; omega)) fun _ _ => ?_
    refine Sz.bind (sz_compress hB _ _ _ _ _ _ _) fun _ _ => ?_
    exact Sz.bind (sz_sliceFromT (by simp only [BLOCKBYTES]; omega)) fun _ _ => by
      refine ih _ ?_ _
      exact hs

theorem sz_update (hB : 2 ^ 15 ≤ B) (E : Env) (s : State) (hs : s.Sized) (input : List U8) :
    Sz B (s.updateT E input) fun s => s.Sized := by
  unfold updateT
  refine Sz.bind (sz_compressBuffer hB E s hs input) fun r hr => ?_
  refine Sz.bind (sz_updateLoop hB E _ _ hr.1 _) fun r hr => ?_
  exact Sz.bind (sz_fillBuf hB E _ hr _) fun r hr => .pure hr.1

theorem sz_withParams (hB : 2 ^ 15 ≤ B) (E : Env) (p : Params) : Sz B (withParamsT E p) fun s => s.Sized := by
  unfold withParamsT
  dsimp only
  refine Sz.bind (sz_test _) fun _ _ => Sz.ite (fun _ => ?_) fun _ => .pure (Nat.zero_le 64)
  refine Sz.bind (sz_copyFromSliceT _ _ (by omega) (by simp only [KEYBYTES]; omega)) fun _ _ => ?_
  refine sz_update hB E _ ?_ _
  exact Nat.zero_le 64

theorem sz_finalize (hB : 2 ^ 15 ≤ B) (E : Env) (s : State) (hs : s.Sized) :
    Sz B (s.finalizeT E) fun r => r.1.Sized := by
  unfold finalizeT
  dsimp only
  refine Sz.bind (sz_zeroTailT hB _ _) fun _ _ => Sz.bind (sz_flagWordT _) fun _ _ => ?_
  exact Sz.bind (sz_compress hB _ _ _ _ _ _ _) fun _ _ => .pure hs

theorem sz_write (hB : 2 ^ 15 ≤ B) (E : Env) (s : State) (hs : s.Sized) (input : List U8) :
    Sz B (s.writeT E input) fun r => r.1.Sized :=
  Sz.bind (sz_update hB E s hs input) fun _ h => .pure h

theorem sz_debug (s : State) : Sz B s.debugT fun _ => True := by
  unfold debugT
  iterate 3 refine Sz.bind (.emit trivial) fun _ _ => ?_
  exact .pure trivial

end State

theorem sz_hashOne (hB : 2 ^ 15 ≤ B) (E : Env) (p : Params) (input : List U8) :
    Sz B (hashOneT E p input) fun _ => True := by
  unfold hashOneT
  refine Sz.bind (State.sz_withParams hB E p) fun s hs => ?_
  refine Sz.bind (State.sz_update hB E s hs _) fun s hs => ?_
  exact Sz.bind (State.sz_finalize hB E s hs) fun _ _ => .pure trivial

theorem sz_blake2s (hB : 2 ^ 15 ≤ B) (E : Env) (input : List U8) : Sz B (blake2sT E input) fun _ => True :=
  sz_hashOne hB E Params.default input

/-! ## Several inputs -/

theorem sz_exactLastNode (p : Params) (c n : Nat) : Sz B (exactLastNodeT p c n) fun _ => True :=
  Sz.bind (sz_testAll _) fun _ _ => Sz.ite (fun _ => .pure trivial) fun _ => .pure trivial

theorem Sse41.sz_loop (p : Params) (input : Vector (List U8) 4) (hi : input[0].length < B)
    (len n : Nat) (h : Vector X86.M128 8) (c : Nat) (hc : c < B) :
    Sz B (hash4ExactLoopT p input len n h c) fun _ => True := by
  induction n generalizing h c with
  | zero => exact .fail _
  | succ n ih =>
    rw [hash4ExactLoopT]
    refine Sz.bind (sz_readBlockPtrT hc) fun _ h0 => ?_
    iterate 3 refine Sz.bind (sz_readBlockPtrT hc) fun _ _ => ?_
    refine Sz.bind (sz_usizeAddT (by simp only [BLOCKBYTES]; omega)) fun d hd => ?_
    simp only [BLOCKBYTES] at hd
    refine Sz.bind (sz_flagWordT _) fun _ _ => Sz.bind (sz_exactLastNode _ _ _) fun _ _ => ?_
    refine Sz.bind (.emit trivial) fun _ _ => Sz.bind (sz_test _) fun _ _ => ?_
    exact Sz.ite (fun _ => .pure trivial) fun _ => ih _ _ (by omega)

theorem Avx2.sz_loop (p : Params) (input : Vector (List U8) 8) (hi : input[0].length < B)
    (len n : Nat) (h : Vector X86.M256 8) (c : Nat) (hc : c < B) :
    Sz B (hash8ExactLoopT p input len n h c) fun _ => True := by
  induction n generalizing h c with
  | zero => exact .fail _
  | succ n ih =>
    rw [hash8ExactLoopT]
    refine Sz.bind (sz_readBlockPtrT hc) fun _ h0 => ?_
    iterate 7 refine Sz.bind (sz_readBlockPtrT hc) fun _ _ => ?_
    refine Sz.bind (sz_usizeAddT (by simp only [BLOCKBYTES]; omega)) fun d hd => ?_
    simp only [BLOCKBYTES] at hd
    refine Sz.bind (sz_flagWordT _) fun _ _ => Sz.bind (sz_exactLastNode _ _ _) fun _ _ => ?_
    refine Sz.bind (.emit trivial) fun _ _ => Sz.bind (sz_test _) fun _ _ => ?_
    exact Sz.ite (fun _ => .pure trivial) fun _ => ih _ _ (by omega)

theorem sz_hash4Exact (hB : 2 ^ 15 ≤ B) (E : Env) (p : Params) (input : Vector (List U8) 4)
    (hi : input[0].length < B) : Sz B (hash4ExactT E p input) fun _ => True := by
  unfold hash4ExactT
  dsimp only
  refine Sz.bind (sz_testAll _) fun _ _ => Sz.bind (sz_testAll _) fun _ _ => ?_
  refine Sz.bind (sz_assertT _ _) fun _ _ => ?_
  unfold Hash4ExactFn.callT
  refine Sz.bind (.emit trivial) fun _ _ => ?_
  cases (defaultCompressImpl E).hash4Exact
  · dsimp only
    unfold Portable.hash4ExactT
    iterate 4 refine Sz.bind (sz_hashOne hB _ _ _) fun _ _ => ?_
    exact .pure trivial
  · exact Sz.ite (fun _ => Sse41.sz_loop _ _ hi _ _ _ _ (by omega)) fun _ => .fail _

theorem sz_hash8Exact (hB : 2 ^ 15 ≤ B) (E : Env) (p : Params) (input : Vector (List U8) 8)
    (hi : input[0].length < B) : Sz B (hash8ExactT E p input) fun _ => True := by
  unfold hash8ExactT
  dsimp only
  refine Sz.bind (sz_testAll _) fun _ _ => Sz.bind (sz_testAll _) fun _ _ => ?_
  refine Sz.bind (sz_assertT _ _) fun _ _ => ?_
  unfold Hash8ExactFn.callT
  refine Sz.bind (.emit trivial) fun _ _ => ?_
  cases (defaultCompressImpl E).hash8Exact
  · dsimp only
    unfold Portable.hash8ExactT
    iterate 8 refine Sz.bind (sz_hashOne hB _ _ _) fun _ _ => ?_
    exact .pure trivial
  · exact Sz.ite (fun _ => Avx2.sz_loop _ _ hi _ _ _ _ (by omega)) fun _ => .fail _

/-- Eight states with buffer lengths that are ones. -/
def Sized8 (st : Vector State 8) : Prop := ∀ i : Fin 8, st[i].Sized

theorem Sized8.mk {s0 s1 s2 s3 s4 s5 s6 s7 : State} (h0 : s0.Sized) (h1 : s1.Sized) (h2 : s2.Sized)
    (h3 : s3.Sized) (h4 : s4.Sized) (h5 : s5.Sized) (h6 : s6.Sized) (h7 : s7.Sized) :
    Sized8 #v[s0, s1, s2, s3, s4, s5, s6, s7] := fun i =>
  match i with
  | 0 => h0 | 1 => h1 | 2 => h2 | 3 => h3 | 4 => h4 | 5 => h5 | 6 => h6 | 7 => h7

theorem sz_update8Loop (hB : 2 ^ 15 ≤ B) (E : Env) (fn : Compress8Fn) (n : Nat) (st : Vector State 8)
    (hs : Sized8 st) (input : Vector (List U8) 8) : Sz B (update8LoopT E fn n st input) fun r => Sized8 r.1 := by
  induction n generalizing st input with
  | zero => exact .fail _
  | succ n ih =>
    rw [update8LoopT]
    refine Sz.bind (sz_testAll _) fun _ _ => Sz.ite (fun _ => ?_) fun _ => .pure hs
    iterate 8 refine Sz.bind (sz_addChkT _ _ _) fun _ _ => ?_
    iterate 8 refine Sz.bind (sz_arrayRefT (by omega) (by simp only [BLOCKBYTES]; omega)) fun _ _ => ?_
    refine Sz.bind (sz_compress8 hB _ _ _ _ _ _ _) fun _ _ => ?_
    iterate 8 refine Sz.bind (sz_sliceFromT (by simp only [BLOCKBYTES]; omega)) fun _ _ => ?_
    refine ih _ (.mk ?_ ?_ ?_ ?_ ?_ ?_ ?_ ?_) _
    · exact hs 0
    · exact hs 1
    · exact hs 2
    · exact hs 3
    · exact hs 4
    · exact hs 5
    · exact hs 6
    · exact hs 7

theorem sz_update8 (hB : 2 ^ 15 ≤ B) (E : Env) (st : Vector State 8) (hs : Sized8 st)
    (input : Vector (List U8) 8) : Sz B (update8T E st input) Sized8 := by
  unfold update8T
  refine Sz.bind (State.sz_compressBuffer hB E _ (hs 0) _) fun _ h0 => ?_
  refine Sz.bind (State.sz_compressBuffer hB E _ (hs 1) _) fun _ h1 => ?_
  refine Sz.bind (State.sz_compressBuffer hB E _ (hs 2) _) fun _ h2 => ?_
  refine Sz.bind (State.sz_compressBuffer hB E _ (hs 3) _) fun _ h3 => ?_
  refine Sz.bind (State.sz_compressBuffer hB E _ (hs 4) _) fun _ h4 => ?_
  refine Sz.bind (State.sz_compressBuffer hB E _ (hs 5) _) fun _ h5 => ?_
  refine Sz.bind (State.sz_compressBuffer hB E _ (hs 6) _) fun _ h6 => ?_
  refine Sz.bind (State.sz_compressBuffer hB E _ (hs 7) _) fun _ h7 => ?_
  refine Sz.bind (sz_update8Loop hB E _ _ _ (.mk h0.1 h1.1 h2.1 h3.1 h4.1 h5.1 h6.1 h7.1) _) fun r hr => ?_
  refine Sz.bind (State.sz_update hB E _ (hr 0) _) fun _ h0 => ?_
  refine Sz.bind (State.sz_update hB E _ (hr 1) _) fun _ h1 => ?_
  refine Sz.bind (State.sz_update hB E _ (hr 2) _) fun _ h2 => ?_
  refine Sz.bind (State.sz_update hB E _ (hr 3) _) fun _ h3 => ?_
  refine Sz.bind (State.sz_update hB E _ (hr 4) _) fun _ h4 => ?_
  refine Sz.bind (State.sz_update hB E _ (hr 5) _) fun _ h5 => ?_
  refine Sz.bind (State.sz_update hB E _ (hr 6) _) fun _ h6 => ?_
  refine Sz.bind (State.sz_update hB E _ (hr 7) _) fun _ h7 => ?_
  exact .pure (.mk h0 h1 h2 h3 h4 h5 h6 h7)

theorem sz_finalize8 (hB : 2 ^ 15 ≤ B) (E : Env) (st : Vector State 8) (hs : Sized8 st) :
    Sz B (finalize8T E st) fun r => Sized8 r.1 := by
  unfold finalize8T
  iterate 8 refine Sz.bind (sz_zeroTailT hB _ _) fun _ _ => ?_
  iterate 8 refine Sz.bind (sz_flagWordT _) fun _ _ => ?_
  refine Sz.bind (sz_compress8 hB _ _ _ _ _ _ _) fun _ _ => .pure ?_
  refine .mk ?_ ?_ ?_ ?_ ?_ ?_ ?_ ?_
  · exact hs 0
  · exact hs 1
  · exact hs 2
  · exact hs 3
  · exact hs 4
  · exact hs 5
  · exact hs 6
  · exact hs 7

theorem sz_allRemaining (p : Nat → Bool) (c : Nat) (l : List (List U8)) (h : ∀ i ∈ l, c ≤ i.length ∧ i.length < B) :
    Sz B (allRemainingT p c l) fun _ => True := by
  induction l with
  | nil => exact .pure trivial
  | cons x xs ih =>
    have hx := h x (.head _)
    rw [allRemainingT]
    refine Sz.bind (sz_usizeSubT hx.1 (by omega)) fun _ _ => Sz.bind (sz_test _) fun _ _ => ?_
    exact Sz.ite (fun _ => ih fun i hi => h i (.tail _ hi)) fun _ => .pure trivial

theorem sz_hash8Flags (p : Vector Params 8) (b : Bool) : Sz B (hash8FlagsT p b) fun _ => True := by
  unfold hash8FlagsT
  refine Sz.bind (sz_test _) fun _ _ => Sz.ite (fun _ => ?_) fun _ => .pure trivial
  iterate 8 refine Sz.bind (sz_flagWordT _) fun _ _ => ?_
  exact .pure trivial

theorem mem8 {a : Vector (List U8) 8} {P : List U8 → Prop} (h : ∀ i : Fin 8, P a[i]) :
    ∀ x ∈ [a[0], a[1], a[2], a[3], a[4], a[5], a[6], a[7]], P x := by
  intro x hx
  simp only [List.mem_cons, List.not_mem_nil, or_false] at hx
  rcases hx with rfl | rfl | rfl | rfl | rfl | rfl | rfl | rfl
  · exact h 0
  · exact h 1
  · exact h 2
  · exact h 3
  · exact h 4
  · exact h 5
  · exact h 6
  · exact h 7

theorem sz_hash8Loop (hB : 2 ^ 15 ≤ B) (E : Env) (impl : Impl) (p : Vector Params 8) (input : Vector (List U8) 8)
    (hi : ∀ i : Fin 8, input[i].length < B) (n : Nat) (w : Vector StateWords 8) (c : Nat)
    (hc : ∀ i : Fin 8, c ≤ input[i].length) :
    Sz B (hash8LoopT E impl p input n w c) fun r => ∀ w c, r = .brk w c → c < B := by
  induction n generalizing w c with
  | zero => exact .fail _
  | succ n ih =>
    have hb : c < B := by have := hc 0; have := hi 0; omega
    rw [hash8LoopT]
    have hm := mem8 (P := fun x => c ≤ x.length ∧ x.length < B) fun i => ⟨hc i, hi i⟩
    refine Sz.bind (sz_allRemaining _ _ _ hm) fun _ _ => Sz.bind (sz_allRemaining _ _ _ hm) fun _ _ => ?_
    refine Sz.bind (sz_testAll _) fun _ _ => Sz.ite (fun _ => .pure ?_) fun _ => ?_
    · intro w d e
      cases e
      exact hb
    have h2 : c + BLOCKBYTES < 2 * B := by simp only [BLOCKBYTES]; omega
    refine Sz.bind (sz_arrayRefT hb h2) fun _ h0 => ?_
    refine Sz.bind (sz_arrayRefT hb h2) fun _ h1 => ?_
    refine Sz.bind (sz_arrayRefT hb h2) fun _ h2' => ?_
    refine Sz.bind (sz_arrayRefT hb h2) fun _ h3 => ?_
    refine Sz.bind (sz_arrayRefT hb h2) fun _ h4 => ?_
    refine Sz.bind (sz_arrayRefT hb h2) fun _ h5 => ?_
    refine Sz.bind (sz_arrayRefT hb h2) fun _ h6 => ?_
    refine Sz.bind (sz_arrayRefT hb h2) fun _ h7 => ?_
    refine Sz.bind (sz_usizeAddT h2) fun d hd => ?_
    subst hd
    refine Sz.bind (sz_hash8Flags _ _) fun _ _ => ?_
    refine Sz.bind (sz_compress8Vectorized hB _ _ _ _ _ _ _ _) fun _ _ => ?_
    refine Sz.bind (sz_test _) fun _ _ => Sz.ite (fun _ => ?_) fun _ => ih _ _ ?_
    · refine Sz.bind (sz_vectorize8 _ _ _) fun _ _ => .pure ?_
      intro w d e
      cases e
    · intro i
      match i with
      | 0 => exact h0
      | 1 => exact h1
      | 2 => exact h2'
      | 3 => exact h3
      | 4 => exact h4
      | 5 => exact h5
      | 6 => exact h6
      | 7 => exact h7

theorem sz_hash8Finish (hB : 2 ^ 15 ≤ B) (E : Env) (impl : Impl) {c : Nat} (hc : c < B) (p : Params)
    (w : StateWords) (input : List U8) : Sz B (hash8FinishT E impl c p w input) fun _ => True := by
  unfold hash8FinishT
  dsimp only
  refine Sz.bind (sz_sliceFromT hc) fun _ _ => Sz.bind (State.sz_update hB E _ ?_ _) fun s hs => ?_
  · exact Nat.zero_le 64
  exact Sz.bind (State.sz_finalize hB E s hs) fun _ _ => .pure trivial

theorem sz_hash8 (hB : 2 ^ 15 ≤ B) (E : Env) (p : Vector Params 8) (input : Vector (List U8) 8)
    (hi : ∀ i : Fin 8, input[i].length < B) : Sz B (hash8T E p input) fun _ => True := by
  unfold hash8T
  iterate 8 refine Sz.bind (sz_assertT _ _) fun _ _ => ?_
  dsimp only
  refine Sz.bind (sz_vectorize8 _ _ _) fun _ _ => ?_
  refine Sz.bind (sz_hash8Loop hB E _ _ _ hi _ _ _ fun _ => Nat.zero_le _) fun x hx => ?_
  cases x with
  | ret => exact .pure trivial
  | brk w c =>
    have hc := hx w c rfl
    dsimp only
    refine Sz.bind (sz_vectorize8 _ _ _) fun _ _ => ?_
    iterate 8 refine Sz.bind (sz_hash8Finish hB E _ hc _ _ _) fun _ _ => ?_
    exact .pure trivial

/-! ## BLAKE2sp -/

namespace Sp

theorem sz_baseParams (hB : 2 ^ 15 ≤ B) (p : Params) : Sz B (State.baseParamsT p) fun _ => True := by
  have := u8_lt p.keyLength
  unfold State.baseParamsT
  refine Sz.bind (Blake2s.Params.sz_set hB _ (.hashLength _)) fun _ _ => ?_
  refine Sz.bind (sz_sliceToT (by omega)) fun _ _ => ?_
  refine Sz.bind (Blake2s.Params.sz_set hB _ (.key _)) fun _ _ => ?_
  refine Sz.bind (Blake2s.Params.sz_set hB _ (.maxDepth _)) fun _ _ => ?_
  exact Blake2s.Params.sz_set hB _ (.innerHashLength _)

theorem sz_leafState (hB : 2 ^ 15 ≤ B) (E : Env) (b : Blake2s.Params) (i : U64) :
    Sz B (State.leafStateT E b i) fun s => s.Sized := by
  unfold State.leafStateT
  refine Sz.bind (Blake2s.Params.sz_set hB _ (.nodeOffset _)) fun _ _ => ?_
  exact Sz.bind (Blake2s.State.sz_withParams hB E _) fun _ h => .pure h

namespace State

/-- All buffer lengths are ones. -/
structure Sized (s : State) : Prop where
  buflen : s.buflen.toNat ≤ 1024
  root : s.root.Sized
  leaves : Sized8 s.leaves

theorem sz_withParams (hB : 2 ^ 15 ≤ B) (E : Env) (p : Params) : Sz B (withParamsT E p) fun s => s.Sized := by
  unfold withParamsT
  refine Sz.bind (sz_baseParams hB p) fun _ _ => ?_
  refine Sz.bind (Blake2s.Params.sz_set hB _ (.nodeOffset _)) fun _ _ => ?_
  refine Sz.bind (Blake2s.State.sz_withParams hB E _) fun _ h => ?_
  refine Sz.bind (sz_leafState hB E _ _) fun _ h0 => ?_
  refine Sz.bind (sz_leafState hB E _ _) fun _ h1 => ?_
  refine Sz.bind (sz_leafState hB E _ _) fun _ h2 => ?_
  refine Sz.bind (sz_leafState hB E _ _) fun _ h3 => ?_
  refine Sz.bind (sz_leafState hB E _ _) fun _ h4 => ?_
  refine Sz.bind (sz_leafState hB E _ _) fun _ h5 => ?_
  refine Sz.bind (sz_leafState hB E _ _) fun _ h6 => ?_
  refine Sz.bind (sz_leafState hB E _ _) fun _ h7 => ?_
  exact .pure ⟨Nat.zero_le 1024, Nat.zero_le 64, .mk h0 h1 h2 h3 h4 h5 h6 h7⟩

theorem sz_fillBuf (hB : 2 ^ 15 ≤ B) (E : Env) (s : State) (hs : s.Sized) (input : List U8) :
    Sz B (s.fillBufT E input) fun r => r.1.Sized ∧
      r.1.buflen.toNat = s.buflen.toNat + min (1024 - s.buflen.toNat) input.length ∧
      r.2.length = input.length - (1024 - s.buflen.toNat) := by
  have hl := hs.buflen
  unfold fillBufT
  refine Sz.bind (sz_usizeSubT hl (by omega)) fun d hd => ?_
  subst hd
  refine Sz.bind (sz_minT _ _) fun t ht => ?_
  refine Sz.bind (sz_usizeAddT (by omega)) fun n hn => ?_
  refine Sz.bind (sz_sliceToT (by omega)) fun part _ => ?_
  refine Sz.bind (sz_copyFromSliceT _ _ (by omega) (by omega)) fun buf _ => ?_
  refine Sz.bind (sz_addChkT _ _ _) fun l hl => ?_
  have e : l.toNat = s.buflen.toNat + t := by
    rw [hl, BitVec.toNat_add, BitVec.toNat_ofNat]
    omega
  refine Sz.bind (sz_sliceFromT (by omega)) fun rest hr => .pure ⟨⟨?_, hs.root, hs.leaves⟩, ?_, ?_⟩
  · show l.toNat ≤ 1024
    omega
  · show l.toNat = _
    omega
  · show rest.length = _
    omega

theorem sz_compress8 (hB : 2 ^ 15 ≤ B) (E : Env) (input : Vector U8 512) (lf : Vector Blake2s.State 8)
    (hl : Sized8 lf) (fn : Compress8Fn) : Sz B (compress8T E input lf fn) Sized8 := by
  unfold compress8T
  iterate 15 refine Sz.bind (sz_debugAssertT E _ _) fun _ _ => ?_
  iterate 8 refine Sz.bind (sz_addChkT _ _ _) fun _ _ => ?_
  refine Sz.bind (Blake2s.sz_compress8 hB _ _ _ _ _ _ _) fun _ _ => .pure ?_
  exact .mk (hl 0) (hl 1) (hl 2) (hl 3) (hl 4) (hl 5) (hl 6) (hl 7)

theorem sz_updateBuffered (hB : 2 ^ 15 ≤ B) (E : Env) (s : State) (hs : s.Sized) (input : List U8) :
    Sz B (s.updateBufferedT E input) fun r => r.1.Sized := by
  unfold updateBufferedT
  refine Sz.bind (sz_test _) fun _ _ => Sz.ite (fun _ => ?_) fun _ => .pure hs
  refine Sz.bind (sz_fillBuf hB E s hs input) fun r hr => ?_
  obtain ⟨s', rest⟩ := r
  obtain ⟨h1, h2, h3⟩ := hr
  dsimp only at h1 h2 h3 ⊢
  refine Sz.bind (sz_test _) fun b hb => Sz.ite (fun hbt => ?_) fun _ => .pure h1
  have full : s'.buflen.toNat = 1024 := by
    have hr : rest ≠ [] := by
      rw [hbt] at hb
      intro e
      rw [e] at hb
      cases hb
    have := List.length_pos_iff.mpr hr
    have := hs.buflen
    omega
  refine Sz.bind (sz_compress8 hB E _ _ h1.leaves _) fun lf hlf => Sz.bind (sz_subChkT _ _ _) fun l hl => ?_
  have e : l.toNat = 512 := by
    rw [hl, BitVec.toNat_sub, full]
    rfl
  refine Sz.bind (sz_test _) fun _ _ => Sz.ite (fun _ => ?_) fun _ => ?_
  · exact Sz.bind (sz_compress8 hB E _ _ hlf _) fun lf hlf => .pure ⟨Nat.zero_le 1024, h1.root, hlf⟩
  · refine Sz.bind (sz_sliceToT (show l.toNat < B by omega)) fun _ _ => ?_
    refine Sz.bind (sz_copyFromSliceT _ _ (by omega) (show l.toNat < B by omega)) fun _ _ => ?_
    exact .pure ⟨show l.toNat ≤ 1024 by omega, h1.root, hlf⟩

theorem sz_updateLoop (hB : 2 ^ 15 ≤ B) (E : Env) (fn : Compress8Fn) (n : Nat) (lf : Vector Blake2s.State 8)
    (hl : Sized8 lf) (input : List U8) : Sz B (updateLoopT E fn n lf input) fun r => Sized8 r.1 := by
  induction n generalizing lf input with
  | zero => exact .fail _
  | succ n ih =>
    rw [updateLoopT]
    refine Sz.bind (sz_test _) fun _ _ => Sz.ite (fun _ => ?_) fun _ => .pure hl
    refine Sz.bind (sz_arrayRefT (by omega) (by omega)) fun _ _ => ?_
    refine Sz.bind (sz_compress8 hB E _ _ hl _) fun lf hl => ?_
    exact Sz.bind (sz_sliceFromT (by simp only [BLOCKBYTES]; omega)) fun _ _ => ih lf hl _

theorem sz_update (hB : 2 ^ 15 ≤ B) (E : Env) (s : State) (hs : s.Sized) (input : List U8) :
    Sz B (s.updateT E input) fun s => s.Sized := by
  unfold updateT
  refine Sz.bind (sz_updateBuffered hB E s hs input) fun r hr => ?_
  refine Sz.bind (sz_updateLoop hB E _ _ _ hr.leaves _) fun q hq => ?_
  refine Sz.bind (sz_fillBuf hB E _ (⟨?_, ?_, ?_⟩ : Sized _) _) fun r hr => ?_
  · exact hr.buflen
  · exact hr.root
  · exact hq
  exact Sz.bind (sz_debugAssertT E _ _) fun _ _ => .pure hr.1

theorem sz_updateChunk (hB : 2 ^ 15 ≤ B) (E : Env) (l : Blake2s.State) (hl : l.Sized) (b : Vector U8 1024)
    (k : Fin 16) (n : Nat) : Sz B (updateChunkT E l b k n) fun s => s.Sized := by
  unfold updateChunkT
  dsimp only
  refine Sz.bind (sz_minT _ _) fun t ht => ?_
  simp only [BLOCKBYTES] at ht
  exact Sz.bind (sz_sliceToT (by omega)) fun _ _ => Blake2s.State.sz_update hB E l hl _

theorem sz_finalize (hB : 2 ^ 15 ≤ B) (E : Env) (s : State) (hs : s.Sized) :
    Sz B (s.finalizeT E) fun r => r.1.Sized := by
  have hr := hs.root
  have l0 : s.leaves[0].Sized := hs.leaves 0
  have l1 : s.leaves[1].Sized := hs.leaves 1
  have l2 : s.leaves[2].Sized := hs.leaves 2
  have l3 : s.leaves[3].Sized := hs.leaves 3
  have l4 : s.leaves[4].Sized := hs.leaves 4
  have l5 : s.leaves[5].Sized := hs.leaves 5
  have l6 : s.leaves[6].Sized := hs.leaves 6
  have l7 : s.leaves[7].Sized := hs.leaves 7
  unfold finalizeT
  dsimp only
  with_reducible repeat' first
    | refine Sz.bind (sz_updateChunk hB E _ (by assumption) _ _ _) fun _ _ => ?_
    | refine Sz.bind (sz_saturatingSubT _) fun _ _ => ?_
    | refine Sz.bind (Blake2s.State.sz_finalize hB E _ (by assumption)) fun _ _ => ?_
    | refine Sz.bind (sz_asBytesT hB _) fun _ _ => ?_
    | refine Sz.bind (Blake2s.State.sz_update hB E _ (by assumption) _) fun _ _ => ?_
    | exact .pure hs

theorem sz_getCount (E : Env) (s : State) : Sz B (s.getCountT E) fun _ => True := by
  unfold getCountT
  iterate 7 refine Sz.bind (sz_addChkT _ _ _) fun _ _ => ?_
  exact (sz_addChkT _ _ _).any

theorem sz_write (hB : 2 ^ 15 ≤ B) (E : Env) (s : State) (hs : s.Sized) (input : List U8) :
    Sz B (s.writeT E input) fun r => r.1.Sized :=
  Sz.bind (sz_update hB E s hs input) fun _ h => .pure h

theorem sz_debug (E : Env) (s : State) : Sz B (s.debugT E) fun _ => True := by
  unfold debugT
  refine Sz.bind (sz_getCount E s) fun _ _ => Sz.bind (.emit trivial) fun _ _ => ?_
  iterate 5 refine Sz.bind (Blake2s.State.sz_debug _) fun _ _ => ?_
  exact .pure trivial

end State

theorem Params.sz_debug (p : Params) : Sz B p.debugT fun _ => True :=
  Sz.bind (.emit trivial) fun _ _ => Sz.bind (.emit trivial) fun _ _ => .pure trivial

end Sp

theorem sz_blake2sp (hB : 2 ^ 15 ≤ B) (E : Env) (input : List U8) : Sz B (blake2spT E input) fun _ => True := by
  unfold blake2spT
  refine Sz.bind (Sp.State.sz_withParams hB E _) fun s hs => ?_
  refine Sz.bind (Sp.State.sz_update hB E s hs _) fun s hs => ?_
  exact Sz.bind (Sp.State.sz_finalize hB E s hs) fun _ _ => .pure trivial

/-! ## Programs -/

/-- All buffer lengths are ones. -/
structure World.Sized (w : World) : Prop where
  state : ∀ s, (w.state s).Sized
  sp : ∀ s, (w.spState s).Sized

theorem assign_all {P : α → Prop} {f : Nat → α} (h : ∀ s, P (f s)) (i : Nat) {x : α} (hx : P x) :
    ∀ s, P (Blake2s.assign f i x s) := by
  intro s
  unfold Blake2s.assign
  split
  · exact hx
  · exact h s

theorem assignAll_all {P : α → Prop} {n : Nat} {f : Nat → α} (h : ∀ s, P (f s)) (is : Vector Nat n)
    {xs : Vector α n} (hx : ∀ x ∈ xs.toList, P x) : ∀ s, P (assignAll f is xs s) := by
  unfold assignAll
  generalize is.toList = l
  generalize xs.toList = m at hx
  induction l generalizing f m with
  | nil => exact h
  | cons i l ih =>
    cases m with
    | nil => exact h
    | cons x m =>
      exact ih (assign_all h i (hx x (.head _))) m fun y hy => hx y (.tail _ hy)

theorem Sized8.mem {st : Vector State 8} (h : Sized8 st) : ∀ x ∈ st.toList, x.Sized := by
  intro x hx
  obtain ⟨i, hi, rfl⟩ := List.getElem_of_mem hx
  rw [Vector.length_toList] at hi
  rw [Vector.getElem_toList]
  exact h ⟨i, hi⟩

theorem World.sz_init (hB : 2 ^ 15 ≤ B) (E : Env) : Sz B (World.initT E) fun w => w.Sized := by
  unfold World.initT
  refine Sz.bind (State.sz_withParams hB E _) fun s hs => Sz.bind (sz_blake2s hB E _) fun _ _ => ?_
  exact Sz.bind (Sp.State.sz_withParams hB E _) fun t ht => .pure ⟨fun _ => hs, fun _ => ht⟩

theorem vmem {n : Nat} (v : Vector (List U8) n) (i : Nat) (h : i < n) : v[i] ∈ v.toList := by
  rw [Vector.mem_toList_iff]
  exact Vector.getElem_mem h

theorem World.sz_call (hB : 2 ^ 15 ≤ B) (E : Env) (w : World) (hw : w.Sized) (c : Call)
    (hc : ∀ b ∈ c.slices, b.length < B) : Sz B (w.callT E c) fun r => r.1.Sized := by
  have ws : ∀ {s : Nat} {x : State}, x.Sized → ({ w with state := Blake2s.assign w.state s x } : World).Sized :=
    fun hx => ⟨assign_all hw.state _ hx, hw.sp⟩
  have wp : ∀ {s : Nat} {x : Sp.State}, x.Sized →
      ({ w with spState := Blake2s.assign w.spState s x } : World).Sized :=
    fun hx => ⟨hw.state, assign_all hw.sp _ hx⟩
  have wh : ∀ f, ({ w with hash := f } : World).Sized := fun f => ⟨hw.state, hw.sp⟩
  cases c
  case set => exact Sz.bind (Params.sz_set hB _ _) fun _ _ => .pure ⟨hw.state, hw.sp⟩
  case newParams => exact .pure ⟨hw.state, hw.sp⟩
  case cloneParams => exact .pure ⟨hw.state, hw.sp⟩
  case newState => exact Sz.bind (State.sz_withParams hB _ _) fun _ h => .pure (ws h)
  case toState => exact Sz.bind (State.sz_withParams hB _ _) fun _ h => .pure (ws h)
  case cloneState => exact .pure (ws (hw.state _))
  case update => exact Sz.bind (State.sz_update hB _ _ (hw.state _) _) fun _ h => .pure (ws h)
  case write => exact Sz.bind (State.sz_write hB _ _ (hw.state _) _) fun _ h => .pure (ws h)
  case flush => exact .pure (ws (hw.state _))
  case setLastNode s b => exact .pure (ws (s := s) (x := (w.state s).setLastNode b) (hw.state s))
  case forcePortable s => exact .pure (ws (s := s) (x := (w.state s).forcePortable) (hw.state s))
  case finalize =>
    exact Sz.bind (State.sz_finalize hB _ _ (hw.state _)) fun _ h => .pure ⟨assign_all hw.state _ h, hw.sp⟩
  case count => exact .pure hw
  case debugState => exact Sz.bind (State.sz_debug _) fun _ _ => .pure hw
  case blake2s => exact Sz.bind (sz_blake2s hB _ _) fun _ _ => .pure (wh _)
  case update8 s input =>
    refine Sz.bind (sz_update8 hB E _ (fun i => ?_) _) fun _ h =>
      .pure ⟨assignAll_all hw.state _ h.mem, hw.sp⟩
    rw [Fin.getElem_fin, Vector.getElem_map]
    exact hw.state _
  case finalize8 s h =>
    refine Sz.bind (sz_finalize8 hB E _ (fun i => ?_)) fun _ h =>
      .pure ⟨assignAll_all hw.state _ h.mem, hw.sp⟩
    rw [Fin.getElem_fin, Vector.getElem_map]
    exact hw.state _
  case hash4Exact p input h =>
    exact Sz.bind (sz_hash4Exact hB _ _ _ (hc _ (vmem input 0 (by omega)))) fun _ _ => .pure (wh _)
  case hash8Exact p input h =>
    exact Sz.bind (sz_hash8Exact hB _ _ _ (hc _ (vmem input 0 (by omega)))) fun _ _ => .pure (wh _)
  case hash8 p input h =>
    exact Sz.bind (sz_hash8 hB _ _ _ fun i => hc _ (vmem input i i.isLt)) fun _ _ => .pure (wh _)
  case cloneHash => exact .pure (wh _)
  case asBytes => exact Sz.bind (sz_asBytesT hB _) fun _ _ => .pure hw
  case toHex => exact Sz.bind (Hash.sz_toHex hB _) fun _ _ => .pure hw
  case debugHash => exact Sz.bind (Hash.sz_debug hB _) fun _ _ => .pure hw
  case eqHash => exact Sz.bind (Hash.sz_eq hB _ _) fun _ _ => .pure hw
  case eqSlice => exact Sz.bind (Hash.sz_eqSlice hB _ _) fun _ _ => .pure hw
  case blake2sp => exact Sz.bind (sz_blake2sp hB _ _) fun _ _ => .pure (wh _)
  case spNewParams => exact .pure ⟨hw.state, hw.sp⟩
  case spCloneParams => exact .pure ⟨hw.state, hw.sp⟩
  case spSet => exact Sz.bind (Sp.Params.sz_set hB _ _) fun _ _ => .pure ⟨hw.state, hw.sp⟩
  case spDebugParams => exact Sz.bind (Sp.Params.sz_debug _) fun _ _ => .pure hw
  case spNewState => exact Sz.bind (Sp.State.sz_withParams hB _ _) fun _ h => .pure (wp h)
  case spToState => exact Sz.bind (Sp.State.sz_withParams hB _ _) fun _ h => .pure (wp h)
  case spUpdate => exact Sz.bind (Sp.State.sz_update hB _ _ (hw.sp _) _) fun _ h => .pure (wp h)
  case spWrite => exact Sz.bind (Sp.State.sz_write hB _ _ (hw.sp _) _) fun _ h => .pure (wp h)
  case spFlush => exact .pure (wp (hw.sp _))
  case spFinalize =>
    exact Sz.bind (Sp.State.sz_finalize hB _ _ (hw.sp _)) fun _ h => .pure ⟨hw.state, assign_all hw.sp _ h⟩
  case spCount => exact Sz.bind (Sp.State.sz_getCount _ _) fun _ _ => .pure hw
  case spDebugState => exact Sz.bind (Sp.State.sz_debug _ _) fun _ _ => .pure hw
  case spForcePortable s =>
    have h := hw.sp s
    refine .pure (wp (s := s) (x := (w.spState s).forcePortable) ⟨h.buflen, h.root, .mk ?_ ?_ ?_ ?_ ?_ ?_ ?_ ?_⟩)
    · exact h.leaves 0
    · exact h.leaves 1
    · exact h.leaves 2
    · exact h.leaves 3
    · exact h.leaves 4
    · exact h.leaves 5
    · exact h.leaves 6
    · exact h.leaves 7

theorem World.sz_run (hB : 2 ^ 15 ≤ B) (E : Env) (w : World) (hw : w.Sized) (cs : List Call)
    (hc : ∀ c ∈ cs, ∀ b ∈ c.slices, b.length < B) : Sz B (w.runT E cs) fun _ => True := by
  induction cs generalizing w with
  | nil => exact .pure trivial
  | cons c cs ih =>
    rw [World.runT]
    refine Sz.bind (World.sz_call hB E w hw c (hc c (.head _))) fun r hr => ?_
    exact Sz.bind (ih r.1 hr fun d hd => hc d (.tail _ hd)) fun _ _ => .pure trivial

theorem programT_sz (hB : 2 ^ 15 ≤ B) (E : Env) (calls : List Call)
    (hc : ∀ c ∈ calls, ∀ b ∈ c.slices, b.length < B) : Sz B (programT E calls) fun _ => True := by
  unfold programT
  refine Sz.bind (World.sz_init hB E) fun w hw => ?_
  exact Sz.bind (World.sz_run hB E w hw calls hc) fun _ _ => .pure trivial

end Blake2s
