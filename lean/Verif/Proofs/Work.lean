import Verif.Work
import Verif.Proofs.LeakAgree
/-!
# How many blocks each function compresses
-/

namespace Blake2s

open Tr (lift emit)

variable {α β : Type}

theorem blocks_append (t u : List Event) : blocks (t ++ u) = blocks t + blocks u := by
  unfold blocks; rw [List.map_append, List.sum_append]

/-- What is known about the result and the number of blocks, if the computation returns. -/
def Post (m : Tr α) (Q : α → Nat → Prop) : Prop := ∀ a, m.1 = .ok a → Q a (blocks m.2)

/-- No block is compressed. -/
def Quiet (m : Tr α) : Prop := blocks m.2 = 0

theorem Post.pure {Q : α → Nat → Prop} {a : α} (h : Q a 0) : Post (Pure.pure a) Q := by
  intro b e
  cases e
  exact h

theorem Post.bind {m : Tr α} {f : α → Tr β} {P : α → Nat → Prop} {Q : β → Nat → Prop}
    (h : Post m P) (k : ∀ a n, P a n → Post (f a) fun b n' => Q b (n + n')) :
    Post (m >>= f) Q := by
  intro b e
  obtain ⟨r, t⟩ := m
  cases r with
  | error x => cases e
  | ok a =>
    show Q b (blocks (t ++ (f a).2))
    rw [blocks_append]
    exact k a _ (h a rfl) b e

theorem Post.mono {m : Tr α} {P Q : α → Nat → Prop} (h : Post m P) (i : ∀ a n, P a n → Q a n) :
    Post m Q := fun a e => i a _ (h a e)

theorem Post.quiet {m : Tr α} {f : α → Tr β} {Q : β → Nat → Prop}
    (h : Quiet m) (k : ∀ a, m.1 = .ok a → Post (f a) Q) : Post (m >>= f) Q := by
  refine Post.bind (P := fun a n => m.1 = .ok a ∧ n = 0) (fun a e => ⟨e, h⟩) ?_
  rintro a n ⟨e, rfl⟩ b eb
  have := k a e b eb
  rwa [Nat.zero_add]

theorem Quiet.bind {m : Tr α} {f : α → Tr β} (h : Quiet m) (k : ∀ a, Quiet (f a)) :
    Quiet (m >>= f) := by
  obtain ⟨r, t⟩ := m
  cases r with
  | error x => exact h
  | ok a =>
    show blocks (t ++ (f a).2) = 0
    rw [blocks_append]
    have h1 : blocks t = 0 := h
    have h2 : blocks (f a).2 = 0 := k a
    omega

theorem Quiet.pure (a : α) : Quiet (Pure.pure a : Tr α) := rfl

theorem Quiet.lift (r : R α) : Quiet (Tr.lift r) := rfl

theorem Quiet.orPanic (r : R α) (s : String) : Quiet (Tr.orPanic r s) := by
  cases r <;> rfl

theorem Quiet.emit {e : Event} {m : Unit → Tr α} (he : e.blocks = 0) (h : Quiet (m ())) :
    Quiet (Tr.emit e >>= m) := by
  show blocks ([e] ++ (m ()).2) = 0
  have h : blocks (m ()).2 = 0 := h
  rw [blocks_append, h]
  show (e.blocks + 0) + 0 = 0
  rw [he]

theorem Quiet.ite {c : Prop} [Decidable c] {a b : Tr α} (h : Quiet a) (k : Quiet b) :
    Quiet (if c then a else b) := by
  split <;> assumption

theorem quiet_test (c : Bool) : Quiet (test c) := rfl

theorem quiet_testAll (cs : List Bool) : Quiet (testAll cs) := by
  induction cs with
  | nil => rfl
  | cons c cs ih =>
    unfold testAll
    exact (quiet_test c).bind fun _ => Quiet.ite ih (Quiet.pure _)

theorem quiet_addChkT {w : Nat} (E : Env) (a b : BitVec w) : Quiet (addChkT E a b) := by
  unfold addChkT; split
  · exact .emit rfl (.orPanic _ _)
  · exact .orPanic _ _

theorem quiet_subChkT {w : Nat} (E : Env) (a b : BitVec w) : Quiet (subChkT E a b) := by
  unfold subChkT; split
  · exact .emit rfl (.orPanic _ _)
  · exact .orPanic _ _

theorem quiet_usizeSubT (a b : Nat) : Quiet (usizeSubT a b) :=
  .emit rfl (.emit rfl (.orPanic _ _))
theorem quiet_usizeAddT (a b : Nat) : Quiet (usizeAddT a b) := rfl
theorem quiet_minT (a b : Nat) : Quiet (minT a b) := rfl
theorem quiet_sliceToT (s : List U8) (n : Nat) : Quiet (sliceToT s n) :=
  .emit rfl (.emit rfl (.orPanic _ _))
theorem quiet_sliceFromT (s : List U8) (n : Nat) : Quiet (sliceFromT s n) :=
  .emit rfl (.emit rfl (.orPanic _ _))
theorem quiet_copyFromSliceT {n : Nat} (d : Vector U8 n) (a b : Nat) (s : List U8) :
    Quiet (copyFromSliceT d a b s) :=
  .emit rfl (.emit rfl (.emit rfl (.emit rfl (.emit rfl (.orPanic _ _)))))
theorem quiet_arrayRefT (s : List U8) (o n : Nat) : Quiet (arrayRefT s o n) :=
  .emit rfl (.emit rfl (.emit rfl (.orPanic _ _)))
theorem quiet_readBlockPtrT (s : List U8) (o : Nat) : Quiet (readBlockPtrT s o) := rfl
theorem quiet_assertT (c : Bool) (s : String) : Quiet (assertT c s) :=
  .emit rfl (.orPanic _ _)
theorem quiet_debugAssertT (E : Env) (c : Bool) (s : String) : Quiet (debugAssertT E c s) := by
  unfold debugAssertT; split
  · exact .emit rfl (.orPanic _ _)
  · exact .orPanic _ _
theorem quiet_zeroTailT (b : Block) (n : U8) : Quiet (State.zeroTailT b n) := rfl
theorem quiet_flagWordT (b : Bool) : Quiet (State.flagWordT b) := by cases b <;> rfl
theorem quiet_wordT (m : Vector U32 16) (r : Fin 12) (i : Fin 16) : Quiet (Portable.wordT m r i) := rfl
theorem quiet_asBytesT (h : Hash) : Quiet h.asBytesT := quiet_sliceToT _ _
theorem quiet_saturatingSubT (n : Nat) : Quiet (Sp.State.saturatingSubT n) := rfl

/-- Go through computations that compress nothing. -/
macro "quiet" : tactic => `(tactic| with_reducible repeat' first
  | exact Quiet.pure _ | exact Quiet.lift _ | exact quiet_test _ | exact quiet_testAll _
  | exact quiet_addChkT _ _ _ | exact quiet_subChkT _ _ _ | exact quiet_usizeSubT _ _
  | exact quiet_usizeAddT _ _
  | exact quiet_minT _ _ | exact quiet_sliceToT _ _ | exact quiet_sliceFromT _ _
  | exact quiet_copyFromSliceT _ _ _ _ | exact quiet_arrayRefT _ _ _ | exact quiet_readBlockPtrT _ _
  | exact quiet_assertT _ _ | exact quiet_debugAssertT _ _ _ | exact quiet_zeroTailT _ _
  | exact quiet_flagWordT _ | exact quiet_wordT _ _ _ | exact quiet_asBytesT _
  | exact quiet_saturatingSubT _
  | refine Quiet.bind ?_ fun _ => ?_ | refine Quiet.ite ?_ ?_)

theorem quiet_roundT (r : Fin 12) (m v : Vector U32 16) : Quiet (Portable.roundT r m v) := by
  unfold Portable.roundT; quiet

theorem quiet_compressT (h : StateWords) (m : Block) (c : U64) (a b : U32) :
    Quiet (Portable.compressT h m c a b) := by
  unfold Portable.compressT
  dsimp only
  with_reducible repeat' first | exact quiet_roundT _ _ _ | exact Quiet.pure _ | refine Quiet.bind ?_ fun _ => ?_

theorem quiet_compress8T (h : Vector StateWords 8) (m : Vector Block 8) (c : Vector U64 8)
    (a b : Vector U32 8) : Quiet (Portable.compress8T h m c a b) := by
  unfold Portable.compress8T
  with_reducible repeat' first | exact quiet_compressT _ _ _ _ _ | exact Quiet.pure _ | refine Quiet.bind ?_ fun _ => ?_

theorem quiet_compress8VectorizedT (E : Env) (w : Vector StateWords 8) (m : Vector Block 8)
    (cl ch a b : Vector U32 8) : Quiet (Portable.compress8VectorizedT E w m cl ch a b) := by
  unfold Portable.compress8VectorizedT Portable.joinCountT
  with_reducible repeat' first
    | exact quiet_compressT _ _ _ _ _ | exact quiet_addChkT _ _ _ | exact Quiet.pure _
    | refine Quiet.bind ?_ fun _ => ?_

theorem emit_bind_blocks (e : Event) (m : Tr α) (h : Quiet m) :
    blocks (emit e >>= fun _ => m).2 = e.blocks := by
  show blocks ([e] ++ m.2) = _
  rw [blocks_append, show blocks m.2 = 0 from h]
  show (e.blocks + 0) + 0 = _
  rfl

theorem compress_blocks (E : Env) (f : CompressFn) (h : StateWords) (m : Block) (c : U64) (a b : U32) :
    blocks (f.callT E h m c a b).2 = 1 := by
  unfold CompressFn.callT
  rw [emit_bind_blocks]
  · rfl
  · cases f
    · exact quiet_compressT _ _ _ _ _
    · exact Quiet.lift _

theorem compress8_blocks (E : Env) (f : Compress8Fn) (h : Vector StateWords 8) (m : Vector Block 8)
    (c : Vector U64 8) (a b : Vector U32 8) : blocks (f.callT E h m c a b).2 = 8 := by
  unfold Compress8Fn.callT
  rw [emit_bind_blocks]
  · rfl
  · cases f
    · exact quiet_compress8T _ _ _ _ _
    · exact Quiet.lift _

theorem compress8Vectorized_blocks (E : Env) (f : Compress8VectorizedFn) (w : Vector StateWords 8)
    (m : Vector Block 8) (cl ch a b : Vector U32 8) :
    blocks (f.callT E w m cl ch a b).2 = 8 := by
  unfold Compress8VectorizedFn.callT
  rw [emit_bind_blocks]
  · rfl
  · cases f
    · exact quiet_compress8VectorizedT _ _ _ _ _ _ _
    · exact Quiet.lift _

theorem quiet_vectorize8 (E : Env) (f : Vectorize8Fn) (w : Vector StateWords 8) :
    Quiet (f.callT E w) := rfl

/-- After a computation that compresses `n` blocks. -/
theorem Post.count {m : Tr α} {f : α → Tr β} {Q : β → Nat → Prop} (n : Nat)
    (h : blocks m.2 = n) (k : ∀ a, m.1 = .ok a → Post (f a) fun b n' => Q b (n + n')) :
    Post (m >>= f) Q := by
  refine Post.bind (P := fun a n' => m.1 = .ok a ∧ n' = n) (fun a e => ⟨e, h⟩) ?_
  rintro a n ⟨e, rfl⟩
  exact k a e

/-! ## What the primitives return -/

theorem addChkT_val {w : Nat} {E : Env} {a b c : BitVec w} (h : (addChkT E a b).1 = .ok c) : c = a + b := by
  rw [addChkT_fst] at h
  unfold addChk at h
  split at h
  · cases h
  · cases h; rfl

theorem subChkT_val {w : Nat} {E : Env} {a b c : BitVec w} (h : (subChkT E a b).1 = .ok c) : c = a - b := by
  rw [subChkT_fst] at h
  unfold subChk at h
  split at h
  · cases h
  · cases h; rfl

theorem usizeSubT_val {a b c : Nat} (h : (usizeSubT a b).1 = .ok c) : c = a - b ∧ b ≤ a := by
  rw [usizeSubT_fst] at h
  unfold usizeSub at h
  split at h
  · cases h; exact ⟨rfl, by assumption⟩
  · cases h

theorem usizeAddT_val {a b c : Nat} (h : (usizeAddT a b).1 = .ok c) : c = a + b := by
  cases h; rfl

theorem minT_val {a b c : Nat} (h : (minT a b).1 = .ok c) : c = min a b := by
  cases h; rfl

theorem sliceToT_val {s : List U8} {n : Nat} {r : List U8} (h : (sliceToT s n).1 = .ok r) :
    r = s.take n ∧ n ≤ s.length := by
  rw [sliceToT_fst] at h
  unfold sliceTo at h
  split at h
  · cases h; exact ⟨rfl, by assumption⟩
  · cases h

theorem sliceFromT_val {s : List U8} {n : Nat} {r : List U8} (h : (sliceFromT s n).1 = .ok r) :
    r = s.drop n ∧ n ≤ s.length := by
  rw [sliceFromT_fst] at h
  unfold sliceFrom at h
  split at h
  · cases h; exact ⟨rfl, by assumption⟩
  · cases h

theorem test_val {c b : Bool} (h : (test c).1 = .ok b) : b = c := by
  cases h; rfl

theorem testAll_val {cs : List Bool} {b : Bool} (h : (testAll cs).1 = .ok b) : b = cs.all id := by
  rw [testAll_fst] at h
  cases h; rfl

/-! ## `State` -/

namespace State

/-- The buffer holds what it holds after `n` bytes: the last block, possibly complete. -/
def Level (s : State) (n : Nat) : Prop := s.buflen.toNat = n - 64 * ((n - 1) / 64)

theorem quiet_fillBufT (E : Env) (s : State) (i : List U8) : Quiet (s.fillBufT E i) := by
  unfold fillBufT; quiet

theorem fillBufT_val {E : Env} {s : State} {i : List U8} {r : State × List U8}
    (h : (s.fillBufT E i).1 = .ok r) : s.buflen.toNat ≤ 64 ∧
      r.1.buflen.toNat = s.buflen.toNat + min (64 - s.buflen.toNat) i.length ∧
      r.2.length = i.length - (64 - s.buflen.toNat) := by
  have : Post (s.fillBufT E i) fun r _ => s.buflen.toNat ≤ 64 ∧
      r.1.buflen.toNat = s.buflen.toNat + min (64 - s.buflen.toNat) i.length ∧
      r.2.length = i.length - (64 - s.buflen.toNat) := by
    unfold fillBufT
    refine Post.quiet (quiet_usizeSubT _ _) fun d hd => ?_
    obtain ⟨rfl, hle⟩ := usizeSubT_val hd
    refine Post.quiet (quiet_minT _ _) fun t ht => ?_
    obtain rfl := minT_val ht
    refine Post.quiet (quiet_usizeAddT _ _) fun _ _ => ?_
    refine Post.quiet (quiet_sliceToT _ _) fun p hp => ?_
    refine Post.quiet (quiet_copyFromSliceT _ _ _ _) fun b hb => ?_
    refine Post.quiet (quiet_addChkT _ _ _) fun l hl => ?_
    obtain rfl := addChkT_val hl
    refine Post.quiet (quiet_addChkT _ _ _) fun c hc => ?_
    refine Post.quiet (quiet_sliceFromT _ _) fun q hq => ?_
    obtain ⟨rfl, -⟩ := sliceFromT_val hq
    refine Post.pure ⟨hle, ?_, ?_⟩
    · show (s.buflen + BitVec.ofNat 8 _).toNat = _
      simp only [BLOCKBYTES] at hle ⊢
      rw [BitVec.toNat_add, BitVec.toNat_ofNat]
      omega
    · show (i.drop _).length = _
      rw [List.length_drop]
      simp only [BLOCKBYTES]
      omega
  exact this r h

/-- The buffer part of `update`: how the buffer and the rest of the input come out, and how much is
compressed. -/
theorem compressBufferT_post (E : Env) (s : State) (i : List U8) (hb : s.buflen.toNat ≤ 64) :
    Post (s.compressBufferIfPossibleT E i) fun r k =>
      (s.buflen.toNat = 0 ∧ r.1.buflen.toNat = 0 ∧ r.2.length = i.length ∧ k = 0) ∨
      (0 < s.buflen.toNat ∧ i.length ≤ 64 - s.buflen.toNat ∧
        r.1.buflen.toNat = s.buflen.toNat + i.length ∧ r.2.length = 0 ∧ k = 0) ∨
      (0 < s.buflen.toNat ∧ 64 - s.buflen.toNat < i.length ∧ r.1.buflen.toNat = 0 ∧
        r.2.length = i.length - (64 - s.buflen.toNat) ∧ k = 1) := by
  unfold compressBufferIfPossibleT
  refine Post.quiet (quiet_test _) fun b hb => ?_
  obtain rfl := test_val hb
  split
  · rename_i h0
    have h0 : 0 < s.buflen.toNat := by simpa using h0
    refine Post.quiet (quiet_fillBufT _ _ _) fun r hr => ?_
    obtain ⟨h1, h2, h3⟩ := fillBufT_val hr
    obtain ⟨s', i'⟩ := r
    refine Post.quiet (quiet_test _) fun b hb => ?_
    obtain rfl := test_val hb
    have he : (i'.isEmpty = true) ↔ i'.length = 0 := by rw [List.isEmpty_iff, List.length_eq_zero_iff]
    simp only at h2 h3 ⊢
    split
    · rename_i hn
      have hn : ¬ i'.length = 0 := by rw [← he]; simpa using hn
      refine Post.count 1 (compress_blocks _ _ _ _ _ _ _) fun h _ => ?_
      refine Post.pure (Or.inr (Or.inr ⟨h0, by omega, rfl, h3, rfl⟩))
    · rename_i hn
      have hn : i'.length = 0 := by rw [← he]; simpa using hn
      refine Post.pure (Or.inr (Or.inl ⟨h0, by omega, ?_, hn, rfl⟩))
      show s'.buflen.toNat = _
      omega
  · rename_i h0
    have h0 : s.buflen.toNat = 0 := by simpa using h0
    exact Post.pure (Or.inl ⟨h0, h0, rfl, rfl⟩)

/-- The loop of `update` compresses all blocks but the last. -/
theorem updateLoopT_post (E : Env) (fuel : Nat) (s : State) (i : List U8) :
    Post (updateLoopT E fuel s i) fun r k =>
      r.1.buflen = s.buflen ∧ k = (i.length - 1) / 64 ∧ r.2.length = i.length - 64 * k := by
  induction fuel generalizing s i with
  | zero => intro a h; cases h
  | succ n ih =>
    unfold updateLoopT
    refine Post.quiet (quiet_test _) fun b hb => ?_
    obtain rfl := test_val hb
    split
    · rename_i h0
      have h0 : 64 < i.length := by simpa [BLOCKBYTES] using h0
      refine Post.quiet (quiet_addChkT _ _ _) fun c _ => ?_
      refine Post.quiet (quiet_arrayRefT _ _ _) fun bl _ => ?_
      refine Post.count 1 (compress_blocks _ _ _ _ _ _ _) fun h _ => ?_
      refine Post.quiet (quiet_sliceFromT _ _) fun q hq => ?_
      obtain ⟨rfl, -⟩ := sliceFromT_val hq
      refine (ih _ _).mono ?_
      rintro r k ⟨h1, h2, h3⟩
      rw [List.length_drop] at h2 h3
      simp only [BLOCKBYTES] at h2 h3
      exact ⟨h1, by omega, by omega⟩
    · rename_i h0
      have h0 : i.length ≤ 64 := by simpa [BLOCKBYTES] using h0
      exact Post.pure ⟨rfl, by omega, rfl⟩

/-- `update` compresses what lies between the blocks complete before and after it. -/
theorem updateT_post (E : Env) (s : State) (i : List U8) {n : Nat} (h : s.Level n) :
    Post (s.updateT E i) fun s' k =>
      s'.Level (n + i.length) ∧ (n - 1) / 64 + k = (n + i.length - 1) / 64 := by
  unfold Level at h
  unfold updateT
  refine Post.bind (compressBufferT_post E s i (by omega)) fun r k hk => ?_
  obtain ⟨s1, i1⟩ := r
  simp only at hk ⊢
  refine Post.bind (updateLoopT_post E _ s1 i1) fun r k2 hk2 => ?_
  obtain ⟨s2, i2⟩ := r
  simp only at hk2 ⊢
  obtain ⟨e1, e2, e3⟩ := hk2
  refine Post.quiet (quiet_fillBufT _ _ _) fun r hr => ?_
  obtain ⟨h1, h2, h3⟩ := fillBufT_val hr
  obtain ⟨s3, i3⟩ := r
  simp only at h2 h3 ⊢
  rw [e1] at h1 h2 h3
  unfold Level
  rcases hk with ⟨a, b, c, rfl⟩ | ⟨a, b, c, d, rfl⟩ | ⟨a, b, c, d, rfl⟩
  · exact Post.pure ⟨by omega, by omega⟩
  · exact Post.pure ⟨by omega, by omega⟩
  · exact Post.pure ⟨by omega, by omega⟩

theorem finalizeT_blocks (E : Env) (s : State) (r : State × Hash) (h : (s.finalizeT E).1 = .ok r) :
    blocks (s.finalizeT E).2 = 1 ∧ r.1.buflen = s.buflen := by
  have : Post (s.finalizeT E) fun r k => k = 1 ∧ r.1.buflen = s.buflen := by
    unfold finalizeT
    refine Post.quiet (quiet_zeroTailT _ _) fun b _ => ?_
    refine Post.quiet (quiet_flagWordT _) fun l _ => ?_
    refine Post.count 1 (compress_blocks _ _ _ _ _ _ _) fun h _ => ?_
    exact Post.pure ⟨rfl, rfl⟩
  exact this r h

theorem finalizeT_post (E : Env) (s : State) {n : Nat} (h : s.Level n) :
    Post (s.finalizeT E) fun r k => k = 1 ∧ r.1.Level n := fun r e => by
  obtain ⟨h1, h2⟩ := finalizeT_blocks E s r e
  refine ⟨h1, ?_⟩
  unfold Level
  rw [h2]
  exact h

theorem withParamsT_post (E : Env) (p : Params) :
    Post (withParamsT E p) fun s k => k = 0 ∧ s.Level (if p.keyLength = 0 then 0 else 64) := by
  have z : ∀ s : State, s.buflen = 0 → s.Level 0 := by
    intro s h; unfold Level; rw [h]; rfl
  unfold withParamsT
  refine Post.quiet (quiet_test _) fun b hb => ?_
  obtain rfl := test_val hb
  split
  · rename_i h0
    have h0 : p.keyLength ≠ 0 := by
      intro h; rw [h] at h0; simp at h0
    refine Post.quiet (quiet_copyFromSliceT _ _ _ _) fun kb _ => ?_
    refine (updateT_post E _ kb.toList (z _ rfl)).mono ?_
    rintro s k ⟨h1, h2⟩
    rw [Vector.length_toList] at h1 h2
    rw [if_neg h0]
    exact ⟨by omega, h1⟩
  · rename_i h0
    have h0 : p.keyLength = 0 := by
      apply BitVec.eq_of_toNat_eq
      simpa using h0
    rw [if_pos h0]
    exact Post.pure ⟨rfl, z _ rfl⟩

end State

end Blake2s
