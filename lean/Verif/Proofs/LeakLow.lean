import Verif.Proofs.LeakAgree
/-!
# Two executions on data that differ only in bytes leave the same trace
-/

namespace Blake2s

open Tr (lift emit)

/-- Two computations with one trace that both fault in the same way, or both return, related values. -/
def Low {α : Type} (m m' : Tr α) (Q : α → α → Prop) : Prop :=
  m.2 = m'.2 ∧
    ((∃ a b, m.1 = .ok a ∧ m'.1 = .ok b ∧ Q a b) ∨ ∃ f, m.1 = .error f ∧ m'.1 = .error f)

namespace Low

variable {α β : Type}

theorem pure {Q : α → α → Prop} {a b : α} (h : Q a b) : Low (Pure.pure a) (Pure.pure b) Q :=
  ⟨rfl, .inl ⟨a, b, rfl, rfl, h⟩⟩

theorem refl (m : Tr α) : Low m m Eq := by
  refine ⟨rfl, ?_⟩
  cases h : m.1 with
  | ok a => exact .inl ⟨a, a, rfl, rfl, rfl⟩
  | error f => exact .inr ⟨f, rfl, rfl⟩

theorem mono {m m' : Tr α} {P Q : α → α → Prop} (h : Low m m' P) (i : ∀ a b, P a b → Q a b) :
    Low m m' Q :=
  ⟨h.1, h.2.imp (fun ⟨a, b, x, y, p⟩ => ⟨a, b, x, y, i a b p⟩) id⟩

theorem bind {m m' : Tr α} {Q : α → α → Prop} (h : Low m m' Q) {f f' : α → Tr β}
    {P : β → β → Prop} (k : ∀ a b, Q a b → Low (f a) (f' b) P) : Low (m >>= f) (m' >>= f') P := by
  rcases m with ⟨r, t⟩
  rcases m' with ⟨r', t'⟩
  obtain ⟨ht, hr⟩ := h
  have ht : t = t' := ht
  subst ht
  rcases hr with ⟨a, b, ha, hb, q⟩ | ⟨f, ha, hb⟩
  · have ha : r = .ok a := ha
    have hb : r' = .ok b := hb
    subst ha
    subst hb
    obtain ⟨kt, kr⟩ := k a b q
    refine ⟨?_, kr⟩
    show t ++ _ = t ++ _
    rw [kt]
  · have ha : r = .error f := ha
    have hb : r' = .error f := hb
    subst ha
    subst hb
    exact ⟨rfl, .inr ⟨f, rfl, rfl⟩⟩

/-- The first step is the same on both sides. -/
theorem same (m : Tr α) {f f' : α → Tr β} {P : β → β → Prop} (k : ∀ a, Low (f a) (f' a) P) :
    Low (m >>= f) (m >>= f') P :=
  bind (refl m) (fun a b h => by cases h; exact k a)

theorem lift {r r' : R α} {Q : α → α → Prop}
    (h : (∃ a b, r = .ok a ∧ r' = .ok b ∧ Q a b) ∨ ∃ f, r = .error f ∧ r' = .error f) :
    Low (Tr.lift r) (Tr.lift r') Q := ⟨rfl, h⟩

theorem orPanic {r r' : R α} {s : String} {Q : α → α → Prop}
    (h : (∃ a b, r = .ok a ∧ r' = .ok b ∧ Q a b) ∨ ∃ f, r = .error f ∧ r' = .error f) :
    Low (Tr.orPanic r s) (Tr.orPanic r' s) Q := by
  refine ⟨?_, h⟩
  rcases h with ⟨a, b, rfl, rfl, -⟩ | ⟨f, rfl, rfl⟩ <;> rfl

theorem ite {c : Prop} [Decidable c] {a a' b b' : Tr α} {Q : α → α → Prop}
    (h : c → Low a a' Q) (h' : ¬ c → Low b b' Q) : Low (if c then a else b) (if c then a' else b') Q := by
  split
  · rename_i hc; exact h hc
  · rename_i hc; exact h' hc

end Low

/-! ## Primitives -/

theorem sliceToT_low {a b : List U8} (h : b.length = a.length) (n : Nat) :
    Low (sliceToT a n) (sliceToT b n) (fun x y => y.length = x.length) := by
  unfold sliceToT
  rw [h]
  refine .same _ fun _ => .same _ fun _ => ?_
  refine .orPanic ?_
  show (∃ x y, sliceTo a n = .ok x ∧ sliceTo b n = .ok y ∧ _) ∨
    (∃ f, sliceTo a n = .error f ∧ sliceTo b n = .error f)
  unfold sliceTo
  rw [h]
  split
  · exact .inl ⟨_, _, rfl, rfl, by simp [h]⟩
  · exact .inr ⟨_, rfl, rfl⟩

theorem sliceFromT_low {a b : List U8} (h : b.length = a.length) (n : Nat) :
    Low (sliceFromT a n) (sliceFromT b n) (fun x y => y.length = x.length) := by
  unfold sliceFromT
  rw [h]
  refine .same _ fun _ => .same _ fun _ => ?_
  refine .orPanic ?_
  show (∃ x y, sliceFrom a n = .ok x ∧ sliceFrom b n = .ok y ∧ _) ∨
    (∃ f, sliceFrom a n = .error f ∧ sliceFrom b n = .error f)
  unfold sliceFrom
  rw [h]
  split
  · exact .inl ⟨_, _, rfl, rfl, by simp [h]⟩
  · exact .inr ⟨_, rfl, rfl⟩

theorem copyFromSliceT_low {n : Nat} (d d' : Vector U8 n) (p q : Nat) {a b : List U8}
    (h : b.length = a.length) :
    Low (copyFromSliceT d p q a) (copyFromSliceT d' p q b) (fun _ _ => True) := by
  unfold copyFromSliceT
  rw [h]
  refine .same _ fun _ => .same _ fun _ => .same _ fun _ => .same _ fun _ => .same _ fun _ => ?_
  refine .orPanic ?_
  show (∃ x y, copyFromSlice d p q a = .ok x ∧ copyFromSlice d' p q b = .ok y ∧ _) ∨
    (∃ f, copyFromSlice d p q a = .error f ∧ copyFromSlice d' p q b = .error f)
  unfold copyFromSlice
  by_cases c : p ≤ q ∧ q ≤ n ∧ a.length = q - p
  · rw [dif_pos c, dif_pos (by rw [h]; exact c)]
    exact .inl ⟨_, _, rfl, rfl, trivial⟩
  · rw [dif_neg c, dif_neg (by rw [h]; exact c)]
    exact .inr ⟨_, rfl, rfl⟩

theorem arrayRefT_low {a b : List U8} (h : b.length = a.length) (o n : Nat) :
    Low (arrayRefT a o n) (arrayRefT b o n) (fun _ _ => True) := by
  unfold arrayRefT
  rw [h]
  refine .same _ fun _ => .same _ fun _ => .same _ fun _ => ?_
  refine .orPanic ?_
  show (∃ x y, arrayRef a o n = .ok x ∧ arrayRef b o n = .ok y ∧ _) ∨
    (∃ f, arrayRef a o n = .error f ∧ arrayRef b o n = .error f)
  unfold arrayRef
  by_cases c : o + n ≤ a.length
  · rw [dif_pos c, dif_pos (by rw [h]; exact c)]
    exact .inl ⟨_, _, rfl, rfl, trivial⟩
  · rw [dif_neg c, dif_neg (by rw [h]; exact c)]
    exact .inr ⟨_, rfl, rfl⟩

theorem readBlockPtrT_low {a b : List U8} (h : b.length = a.length) (o : Nat) :
    Low (readBlockPtrT a o) (readBlockPtrT b o) (fun _ _ => True) := by
  unfold readBlockPtrT
  refine .same _ fun _ => ?_
  refine ⟨rfl, ?_⟩
  show (∃ x y, readBlockPtr a o = .ok x ∧ readBlockPtr b o = .ok y ∧ _) ∨
    (∃ f, readBlockPtr a o = .error f ∧ readBlockPtr b o = .error f)
  unfold readBlockPtr
  by_cases c : o + 64 ≤ a.length
  · rw [dif_pos c, dif_pos (by rw [h]; exact c)]
    exact .inl ⟨_, _, rfl, rfl, trivial⟩
  · rw [dif_neg c, dif_neg (by rw [h]; exact c)]
    exact .inr ⟨_, rfl, rfl⟩

/-! ## Compression functions -/

namespace Portable

theorem wordT_low (m m' : Vector U32 16) (r : Fin 12) (i : Fin 16) :
    Low (wordT m r i) (wordT m' r i) (fun _ _ => True) :=
  .same _ fun _ => .pure trivial

seal Portable.g in
theorem roundT_low (r : Fin 12) (m m' v v' : Vector U32 16) :
    Low (roundT r m v) (roundT r m' v') (fun _ _ => True) := by
  unfold roundT
  refine .bind (wordT_low m m' r 0) fun _ _ _ => ?_
  refine .bind (wordT_low m m' r 1) fun _ _ _ => ?_
  refine .bind (wordT_low m m' r 2) fun _ _ _ => ?_
  refine .bind (wordT_low m m' r 3) fun _ _ _ => ?_
  refine .bind (wordT_low m m' r 4) fun _ _ _ => ?_
  refine .bind (wordT_low m m' r 5) fun _ _ _ => ?_
  refine .bind (wordT_low m m' r 6) fun _ _ _ => ?_
  refine .bind (wordT_low m m' r 7) fun _ _ _ => ?_
  refine .bind (wordT_low m m' r 8) fun _ _ _ => ?_
  refine .bind (wordT_low m m' r 9) fun _ _ _ => ?_
  refine .bind (wordT_low m m' r 10) fun _ _ _ => ?_
  refine .bind (wordT_low m m' r 11) fun _ _ _ => ?_
  refine .bind (wordT_low m m' r 12) fun _ _ _ => ?_
  refine .bind (wordT_low m m' r 13) fun _ _ _ => ?_
  refine .bind (wordT_low m m' r 14) fun _ _ _ => ?_
  refine .bind (wordT_low m m' r 15) fun _ _ _ => ?_
  exact .pure trivial

seal Portable.g in
theorem compressT_low (h h' : StateWords) (m m' : Block) (c : U64) (a b : U32) :
    Low (compressT h m c a b) (compressT h' m' c a b) (fun _ _ => True) := by
  unfold compressT
  refine .bind (roundT_low 0 _ _ _ _) fun _ _ _ => ?_
  refine .bind (roundT_low 1 _ _ _ _) fun _ _ _ => ?_
  refine .bind (roundT_low 2 _ _ _ _) fun _ _ _ => ?_
  refine .bind (roundT_low 3 _ _ _ _) fun _ _ _ => ?_
  refine .bind (roundT_low 4 _ _ _ _) fun _ _ _ => ?_
  refine .bind (roundT_low 5 _ _ _ _) fun _ _ _ => ?_
  refine .bind (roundT_low 6 _ _ _ _) fun _ _ _ => ?_
  refine .bind (roundT_low 7 _ _ _ _) fun _ _ _ => ?_
  refine .bind (roundT_low 8 _ _ _ _) fun _ _ _ => ?_
  refine .bind (roundT_low 9 _ _ _ _) fun _ _ _ => ?_
  exact .pure trivial

theorem compress8T_low (h h' : Vector StateWords 8) (m m' : Vector Block 8) (c : Vector U64 8)
    (a b : Vector U32 8) : Low (compress8T h m c a b) (compress8T h' m' c a b) (fun _ _ => True) := by
  unfold compress8T
  refine .bind (compressT_low _ _ _ _ _ _ _) fun _ _ _ => ?_
  refine .bind (compressT_low _ _ _ _ _ _ _) fun _ _ _ => ?_
  refine .bind (compressT_low _ _ _ _ _ _ _) fun _ _ _ => ?_
  refine .bind (compressT_low _ _ _ _ _ _ _) fun _ _ _ => ?_
  refine .bind (compressT_low _ _ _ _ _ _ _) fun _ _ _ => ?_
  refine .bind (compressT_low _ _ _ _ _ _ _) fun _ _ _ => ?_
  refine .bind (compressT_low _ _ _ _ _ _ _) fun _ _ _ => ?_
  refine .bind (compressT_low _ _ _ _ _ _ _) fun _ _ _ => ?_
  exact .pure trivial

theorem compress8VectorizedT_low (E : Env) (w w' : Vector StateWords 8) (m m' : Vector Block 8)
    (cl ch a b : Vector U32 8) :
    Low (compress8VectorizedT E w m cl ch a b) (compress8VectorizedT E w' m' cl ch a b)
      (fun _ _ => True) := by
  unfold compress8VectorizedT
  refine .same _ fun _ => .bind (compressT_low _ _ _ _ _ _ _) fun _ _ _ => ?_
  refine .same _ fun _ => .bind (compressT_low _ _ _ _ _ _ _) fun _ _ _ => ?_
  refine .same _ fun _ => .bind (compressT_low _ _ _ _ _ _ _) fun _ _ _ => ?_
  refine .same _ fun _ => .bind (compressT_low _ _ _ _ _ _ _) fun _ _ _ => ?_
  refine .same _ fun _ => .bind (compressT_low _ _ _ _ _ _ _) fun _ _ _ => ?_
  refine .same _ fun _ => .bind (compressT_low _ _ _ _ _ _ _) fun _ _ _ => ?_
  refine .same _ fun _ => .bind (compressT_low _ _ _ _ _ _ _) fun _ _ _ => ?_
  refine .same _ fun _ => .bind (compressT_low _ _ _ _ _ _ _) fun _ _ _ => ?_
  exact .pure trivial

end Portable

seal Sse41.compress in
theorem compressT_low (E : Env) (f : CompressFn) (h h' : StateWords) (m m' : Block) (c : U64)
    (a b : U32) : Low (f.callT E h m c a b) (f.callT E h' m' c a b) (fun _ _ => True) := by
  unfold CompressFn.callT
  refine .same _ fun _ => ?_
  cases f
  · exact Portable.compressT_low _ _ _ _ _ _ _
  · refine .lift ?_
    unfold CompressFn.call
    dsimp only
    split
    · exact .inl ⟨_, _, rfl, rfl, trivial⟩
    · exact .inr ⟨_, rfl, rfl⟩

seal Avx2.compress8 in
theorem compress8T_low (E : Env) (f : Compress8Fn) (h h' : Vector StateWords 8) (m m' : Vector Block 8)
    (c : Vector U64 8) (a b : Vector U32 8) :
    Low (f.callT E h m c a b) (f.callT E h' m' c a b) (fun _ _ => True) := by
  unfold Compress8Fn.callT
  refine .same _ fun _ => ?_
  cases f
  · exact Portable.compress8T_low _ _ _ _ _ _ _
  · refine .lift ?_
    unfold Compress8Fn.call
    dsimp only
    split
    · exact .inl ⟨_, _, rfl, rfl, trivial⟩
    · exact .inr ⟨_, rfl, rfl⟩

seal Avx2.vectorizeWords8 in
theorem vectorize8T_low (E : Env) (f : Vectorize8Fn) (w w' : Vector StateWords 8) :
    Low (f.callT E w) (f.callT E w') (fun _ _ => True) := by
  unfold Vectorize8Fn.callT
  refine .same _ fun _ => ?_
  refine .lift ?_
  cases f
  · exact .inl ⟨_, _, rfl, rfl, trivial⟩
  · unfold Vectorize8Fn.call
    dsimp only
    split
    · exact .inl ⟨_, _, rfl, rfl, trivial⟩
    · exact .inr ⟨_, rfl, rfl⟩

seal Avx2.compress8Vectorized in
theorem compress8VectorizedT_low (E : Env) (f : Compress8VectorizedFn) (w w' : Vector StateWords 8)
    (m m' : Vector Block 8) (cl ch a b : Vector U32 8) :
    Low (f.callT E w m cl ch a b) (f.callT E w' m' cl ch a b) (fun _ _ => True) := by
  unfold Compress8VectorizedFn.callT
  refine .same _ fun _ => ?_
  cases f
  · exact Portable.compress8VectorizedT_low _ _ _ _ _ _ _ _ _
  · refine .lift ?_
    unfold Compress8VectorizedFn.call
    dsimp only
    split
    · exact .inl ⟨_, _, rfl, rfl, trivial⟩
    · exact .inr ⟨_, rfl, rfl⟩

/-! ## `Params` -/

/-- Two `Params` that agree on the lengths and the last-node flag. -/
structure PLow (p q : Params) : Prop where
  hl : q.hashLength = p.hashLength
  kl : q.keyLength = p.keyLength
  ln : q.lastNode = p.lastNode

theorem PLow.refl (p : Params) : PLow p p := ⟨rfl, rfl, rfl⟩

theorem setHashLengthT_low {p q : Params} (r : PLow p q) (n : Nat) :
    Low (p.setHashLengthT n) (q.setHashLengthT n) PLow :=
  .same _ fun _ => .same _ fun _ => .pure ⟨rfl, r.kl, r.ln⟩

theorem setKeyT_low {p q : Params} (r : PLow p q) {a b : List U8} (h : b.length = a.length) :
    Low (p.setKeyT a) (q.setKeyT b) PLow := by
  unfold Params.setKeyT
  rw [h]
  refine .same _ fun _ => .bind (copyFromSliceT_low _ _ _ _ h) fun _ _ _ => .pure ⟨r.hl, ?_, r.ln⟩
  rfl

theorem setSaltT_low {p q : Params} (r : PLow p q) {a b : List U8} (h : b.length = a.length) :
    Low (p.setSaltT a) (q.setSaltT b) PLow := by
  unfold Params.setSaltT
  rw [h]
  exact .same _ fun _ => .bind (copyFromSliceT_low _ _ _ _ h) fun _ _ _ => .pure ⟨r.hl, r.kl, r.ln⟩

theorem setPersonalT_low {p q : Params} (r : PLow p q) {a b : List U8} (h : b.length = a.length) :
    Low (p.setPersonalT a) (q.setPersonalT b) PLow := by
  unfold Params.setPersonalT
  rw [h]
  exact .same _ fun _ => .bind (copyFromSliceT_low _ _ _ _ h) fun _ _ _ => .pure ⟨r.hl, r.kl, r.ln⟩

theorem setMaxDepthT_low {p q : Params} (r : PLow p q) (n : U8) :
    Low (p.setMaxDepthT n) (q.setMaxDepthT n) PLow :=
  .same _ fun _ => .pure ⟨r.hl, r.kl, r.ln⟩

theorem setNodeOffsetT_low {p q : Params} (r : PLow p q) (n : U64) :
    Low (p.setNodeOffsetT n) (q.setNodeOffsetT n) PLow :=
  .same _ fun _ => .pure ⟨r.hl, r.kl, r.ln⟩

theorem setInnerHashLengthT_low {p q : Params} (r : PLow p q) (n : Nat) :
    Low (p.setInnerHashLengthT n) (q.setInnerHashLengthT n) PLow :=
  .same _ fun _ => .pure ⟨r.hl, r.kl, r.ln⟩

/-- Two setter calls that differ only in the bytes. -/
inductive SetLow : Setter → Setter → Prop
  | same (c : Setter) : SetLow c c
  | key {a b : List U8} (h : b.length = a.length) : SetLow (.key a) (.key b)
  | salt {a b : List U8} (h : b.length = a.length) : SetLow (.salt a) (.salt b)
  | personal {a b : List U8} (h : b.length = a.length) : SetLow (.personal a) (.personal b)

theorem setT_low {p q : Params} (r : PLow p q) {c d : Setter} (h : SetLow c d) :
    Low (p.setT c) (q.setT d) PLow := by
  have r' : PLow p q := r
  obtain ⟨hl, kl, ln⟩ := r'
  cases h with
  | key h => exact setKeyT_low r h
  | salt h => exact setSaltT_low r h
  | personal h => exact setPersonalT_low r h
  | same c =>
    cases c with
    | hashLength n => exact setHashLengthT_low r n
    | key k => exact setKeyT_low r rfl
    | salt k => exact setSaltT_low r rfl
    | personal k => exact setPersonalT_low r rfl
    | fanout n => exact .pure ⟨hl, kl, ln⟩
    | maxDepth n => exact setMaxDepthT_low r n
    | maxLeafLength n => exact .pure ⟨hl, kl, ln⟩
    | nodeOffset n => exact setNodeOffsetT_low r n
    | nodeDepth n => exact .pure ⟨hl, kl, ln⟩
    | innerHashLength n => exact setInnerHashLengthT_low r n
    | lastNode b => exact .pure ⟨hl, kl, rfl⟩

/-! ## `Hash` -/

theorem asBytesT_low {h g : Hash} (r : g.len = h.len) :
    Low h.asBytesT g.asBytesT (fun x y => y.length = x.length) := by
  unfold Hash.asBytesT
  rw [r]
  exact sliceToT_low (by simp) _

theorem constantTimeEqT_low {a b a' b' : List U8} (h : a'.length = a.length)
    (h' : b'.length = b.length) :
    Low (constantTimeEqT a b) (constantTimeEqT a' b') (fun _ _ => True) := by
  unfold constantTimeEqT
  rw [h, h']
  exact .same _ fun _ => .ite (fun _ => .same _ fun _ => .pure trivial) (fun _ => .pure trivial)

theorem eqHashT_low {h g h' g' : Hash} (r : g.len = h.len) (r' : g'.len = h'.len) :
    Low (h.eqHashT h') (g.eqHashT g') (fun _ _ => True) :=
  .bind (asBytesT_low r) fun _ _ d => .bind (asBytesT_low r') fun _ _ d' => constantTimeEqT_low d d'

theorem eqSliceT_low {h g : Hash} (r : g.len = h.len) {a b : List U8} (d' : b.length = a.length) :
    Low (h.eqSliceT a) (g.eqSliceT b) (fun _ _ => True) :=
  .bind (asBytesT_low r) fun _ _ d => constantTimeEqT_low d d'

/-! ## `State` -/

/-- Two states that agree on everything but state words and buffer contents. -/
structure SLow (s t : State) : Prop where
  buflen : t.buflen = s.buflen
  count : t.count = s.count
  fn : t.compressFn = s.compressFn
  ln : t.lastNode = s.lastNode
  hl : t.hashLength = s.hashLength

theorem fillBufT_low (E : Env) {s t : State} (r : SLow s t) {a b : List U8}
    (d : b.length = a.length) :
    Low (s.fillBufT E a) (t.fillBufT E b) (fun x y => SLow x.1 y.1 ∧ y.2.length = x.2.length) := by
  unfold State.fillBufT
  rw [r.buflen, r.count, d]
  refine .same _ fun n => .same _ fun n => .same _ fun m => .bind (sliceToT_low d n) fun x y h => ?_
  refine .bind (copyFromSliceT_low _ _ _ _ h) fun _ _ _ => .same _ fun bl => .same _ fun c => ?_
  refine .bind (sliceFromT_low d n) fun x y h => .pure ⟨⟨rfl, rfl, r.fn, r.ln, r.hl⟩, h⟩

theorem isEmpty_low {a b : List U8} (d : b.length = a.length) : b.isEmpty = a.isEmpty := by
  cases a <;> cases b <;> simp_all

theorem compressBufferT_low (E : Env) {s t : State} (r : SLow s t) {a b : List U8}
    (d : b.length = a.length) :
    Low (s.compressBufferIfPossibleT E a) (t.compressBufferIfPossibleT E b)
      (fun x y => SLow x.1 y.1 ∧ y.2.length = x.2.length) := by
  unfold State.compressBufferIfPossibleT
  rw [r.buflen]
  refine .same _ fun c => .ite (fun _ => ?_) (fun _ => .pure ⟨r, d⟩)
  refine .bind (fillBufT_low E r d) ?_
  rintro ⟨s1, a1⟩ ⟨t1, b1⟩ ⟨r1, d1⟩
  have r1 : SLow s1 t1 := r1
  have d1 : b1.length = a1.length := d1
  simp only [isEmpty_low d1]
  refine .same _ fun c => .ite (fun _ => ?_) (fun _ => .pure ⟨r1, d1⟩)
  rw [r1.fn, r1.count]
  refine .bind (compressT_low E _ _ _ _ _ _ _ _) fun _ _ _ => ?_
  exact .pure ⟨⟨rfl, rfl, rfl, r1.ln, r1.hl⟩, d1⟩

theorem updateLoopT_low (E : Env) (n : Nat) {s t : State} (r : SLow s t) {a b : List U8}
    (d : b.length = a.length) :
    Low (State.updateLoopT E n s a) (State.updateLoopT E n t b)
      (fun x y => SLow x.1 y.1 ∧ y.2.length = x.2.length) := by
  induction n generalizing s t a b with
  | zero => exact ⟨rfl, .inr ⟨_, rfl, rfl⟩⟩
  | succ n ih =>
    unfold State.updateLoopT
    rw [d, r.count, r.fn]
    refine .same _ fun c => .ite (fun _ => ?_) (fun _ => .pure ⟨r, d⟩)
    refine .same _ fun c => .bind (arrayRefT_low d _ _) fun _ _ _ => ?_
    refine .bind (compressT_low E _ _ _ _ _ _ _ _) fun _ _ _ => ?_
    refine .bind (sliceFromT_low d _) fun _ _ d1 => ?_
    refine ih ?_ d1
    exact ⟨r.buflen, rfl, rfl, r.ln, r.hl⟩

theorem updateT_low (E : Env) {s t : State} (r : SLow s t) {a b : List U8} (d : b.length = a.length) :
    Low (s.updateT E a) (t.updateT E b) SLow := by
  unfold State.updateT
  refine .bind (compressBufferT_low E r d) ?_
  rintro ⟨s1, a1⟩ ⟨t1, b1⟩ ⟨r1, d1⟩
  have d1 : b1.length = a1.length := d1
  simp only [d1]
  refine .bind (updateLoopT_low E _ r1 d1) ?_
  rintro ⟨s2, a2⟩ ⟨t2, b2⟩ ⟨r2, d2⟩
  refine .bind (fillBufT_low E r2 d2) ?_
  rintro ⟨s3, a3⟩ ⟨t3, b3⟩ ⟨r3, -⟩
  exact .pure r3

theorem withParamsT_low (E : Env) {p q : Params} (r : PLow p q) :
    Low (State.withParamsT E p) (State.withParamsT E q) SLow := by
  unfold State.withParamsT
  rw [r.kl]
  refine .same _ fun c => .ite (fun _ => ?_) (fun _ => .pure ⟨rfl, rfl, rfl, r.ln, r.hl⟩)
  refine .bind (copyFromSliceT_low _ _ _ _ (by simp)) fun _ _ _ => ?_
  refine updateT_low E ?_ (by simp)
  exact ⟨rfl, rfl, rfl, r.ln, r.hl⟩

theorem finalizeT_low (E : Env) {s t : State} (r : SLow s t) :
    Low (s.finalizeT E) (t.finalizeT E) (fun x y => SLow x.1 y.1 ∧ y.2.len = x.2.len) := by
  unfold State.finalizeT State.zeroTailT
  rw [r.buflen, r.ln, r.count, r.fn, r.hl]
  refine .bind (Q := fun _ _ => True) (.same _ fun _ => .pure trivial) fun _ _ _ => .same _ fun _ => ?_
  refine .bind (compressT_low E _ _ _ _ _ _ _ _) fun _ _ _ => ?_
  exact .pure ⟨⟨rfl, rfl, rfl, rfl, rfl⟩, rfl⟩

theorem writeT_low (E : Env) {s t : State} (r : SLow s t) {a b : List U8} (d : b.length = a.length) :
    Low (s.writeT E a) (t.writeT E b) (fun x y => SLow x.1 y.1 ∧ y.2 = x.2) := by
  unfold State.writeT
  rw [d]
  exact .bind (updateT_low E r d) fun _ _ h => .pure ⟨h, rfl⟩

theorem debugT_low {s t : State} (r : SLow s t) : Low s.debugT t.debugT Eq := by
  unfold State.debugT State.debug
  rw [r.count, r.hl, r.ln]
  exact .refl _

theorem blake2sT_low (E : Env) {a b : List U8} (d : b.length = a.length) :
    Low (blake2sT E a) (blake2sT E b) (fun h g => g.len = h.len) := by
  unfold blake2sT
  refine .bind (withParamsT_low E (.refl _)) fun _ _ r => .bind (updateT_low E r d) fun _ _ r => ?_
  exact .bind (finalizeT_low E r) fun _ _ h => .pure h.2

/-! ## `hash4_exact`, `hash8_exact` -/

theorem hashOneT_low (E : Env) {p q : Params} (r : PLow p q) {a b : List U8} (d : b.length = a.length) :
    Low (hashOneT E p a) (hashOneT E q b) (fun h g => g.len = h.len) := by
  unfold hashOneT
  refine .bind (withParamsT_low E r) fun _ _ r => .bind (updateT_low E r d) fun _ _ r => ?_
  exact .bind (finalizeT_low E r) fun _ _ h => .pure h.2

/-- Pairs of byte strings of the same length. -/
def DLow {n : Nat} (a b : Vector (List U8) n) : Prop := ∀ i : Fin n, b[i].length = a[i].length

/-- Pairs of hashes of the same length. -/
def HLow {n : Nat} (a b : Vector Hash n) : Prop := ∀ i : Fin n, b[i].len = a[i].len

theorem HLow.mk4 {h0 h1 h2 h3 g0 g1 g2 g3 : Hash} (r0 : g0.len = h0.len) (r1 : g1.len = h1.len)
    (r2 : g2.len = h2.len) (r3 : g3.len = h3.len) :
    HLow #v[h0, h1, h2, h3] #v[g0, g1, g2, g3] := by
  intro i
  match i with
  | 0 => exact r0
  | 1 => exact r1
  | 2 => exact r2
  | 3 => exact r3

theorem HLow.mk8 {h0 h1 h2 h3 h4 h5 h6 h7 g0 g1 g2 g3 g4 g5 g6 g7 : Hash} (r0 : g0.len = h0.len)
    (r1 : g1.len = h1.len)
    (r2 : g2.len = h2.len)
    (r3 : g3.len = h3.len)
    (r4 : g4.len = h4.len)
    (r5 : g5.len = h5.len)
    (r6 : g6.len = h6.len)
    (r7 : g7.len = h7.len) :
    HLow #v[h0, h1, h2, h3, h4, h5, h6, h7] #v[g0, g1, g2, g3, g4, g5, g6, g7] := by
  intro i
  match i with
  | 0 => exact r0
  | 1 => exact r1
  | 2 => exact r2
  | 3 => exact r3
  | 4 => exact r4
  | 5 => exact r5
  | 6 => exact r6
  | 7 => exact r7

theorem portable_hash4ExactT_low (E : Env) {p q : Params} (r : PLow p q) {a b : Vector (List U8) 4}
    (d : DLow a b) : Low (Portable.hash4ExactT E p a) (Portable.hash4ExactT E q b) HLow := by
  unfold Portable.hash4ExactT
  refine .bind (hashOneT_low E r (d 0)) fun _ _ h0 => ?_
  refine .bind (hashOneT_low E r (d 1)) fun _ _ h1 => ?_
  refine .bind (hashOneT_low E r (d 2)) fun _ _ h2 => ?_
  refine .bind (hashOneT_low E r (d 3)) fun _ _ h3 => ?_
  exact .pure (.mk4 h0 h1 h2 h3)

theorem portable_hash8ExactT_low (E : Env) {p q : Params} (r : PLow p q) {a b : Vector (List U8) 8}
    (d : DLow a b) : Low (Portable.hash8ExactT E p a) (Portable.hash8ExactT E q b) HLow := by
  unfold Portable.hash8ExactT
  refine .bind (hashOneT_low E r (d 0)) fun _ _ h0 => ?_
  refine .bind (hashOneT_low E r (d 1)) fun _ _ h1 => ?_
  refine .bind (hashOneT_low E r (d 2)) fun _ _ h2 => ?_
  refine .bind (hashOneT_low E r (d 3)) fun _ _ h3 => ?_
  refine .bind (hashOneT_low E r (d 4)) fun _ _ h4 => ?_
  refine .bind (hashOneT_low E r (d 5)) fun _ _ h5 => ?_
  refine .bind (hashOneT_low E r (d 6)) fun _ _ h6 => ?_
  refine .bind (hashOneT_low E r (d 7)) fun _ _ h7 => ?_
  exact .pure (.mk8 h0 h1 h2 h3 h4 h5 h6 h7)

seal Sse41.compress4Transposed Sse41.transposeVecs in
theorem sse41_hash4ExactLoopT_low {p q : Params} (r : PLow p q) {a b : Vector (List U8) 4}
    (d : DLow a b) (len n : Nat) (h h' : Vector X86.M128 8) (c : Nat) :
    Low (Sse41.hash4ExactLoopT p a len n h c) (Sse41.hash4ExactLoopT q b len n h' c) HLow := by
  induction n generalizing h h' c with
  | zero => exact ⟨rfl, .inr ⟨_, rfl, rfl⟩⟩
  | succ n ih =>
    unfold Sse41.hash4ExactLoopT exactLastNodeT
    rw [r.ln, r.hl]
    refine .bind (readBlockPtrT_low (d 0) _) fun _ _ _ => ?_
    refine .bind (readBlockPtrT_low (d 1) _) fun _ _ _ => ?_
    refine .bind (readBlockPtrT_low (d 2) _) fun _ _ _ => ?_
    refine .bind (readBlockPtrT_low (d 3) _) fun _ _ _ => ?_
    refine .same _ fun _ => .same _ fun _ => .same _ fun _ => .same _ fun _ => .same _ fun _ => ?_
    refine .ite (fun _ => ?_) (fun _ => ih _ _ _)
    exact .pure (.mk4 rfl rfl rfl rfl)

seal Avx2.compress8Transposed Avx2.transposeVecs Avx2.loadMsgVecsInterleave in
theorem avx2_hash8ExactLoopT_low {p q : Params} (r : PLow p q) {a b : Vector (List U8) 8}
    (d : DLow a b) (len n : Nat) (h h' : Vector X86.M256 8) (c : Nat) :
    Low (Avx2.hash8ExactLoopT p a len n h c) (Avx2.hash8ExactLoopT q b len n h' c) HLow := by
  induction n generalizing h h' c with
  | zero => exact ⟨rfl, .inr ⟨_, rfl, rfl⟩⟩
  | succ n ih =>
    unfold Avx2.hash8ExactLoopT exactLastNodeT
    rw [r.ln, r.hl]
    refine .bind (readBlockPtrT_low (d 0) _) fun _ _ _ => ?_
    refine .bind (readBlockPtrT_low (d 1) _) fun _ _ _ => ?_
    refine .bind (readBlockPtrT_low (d 2) _) fun _ _ _ => ?_
    refine .bind (readBlockPtrT_low (d 3) _) fun _ _ _ => ?_
    refine .bind (readBlockPtrT_low (d 4) _) fun _ _ _ => ?_
    refine .bind (readBlockPtrT_low (d 5) _) fun _ _ _ => ?_
    refine .bind (readBlockPtrT_low (d 6) _) fun _ _ _ => ?_
    refine .bind (readBlockPtrT_low (d 7) _) fun _ _ _ => ?_
    refine .same _ fun _ => .same _ fun _ => .same _ fun _ => .same _ fun _ => .same _ fun _ => ?_
    refine .ite (fun _ => ?_) (fun _ => ih _ _ _)
    exact .pure (.mk8 rfl rfl rfl rfl rfl rfl rfl rfl)

theorem hash4ExactT_low (E : Env) {p q : Params} (r : PLow p q) {a b : Vector (List U8) 4}
    (d : DLow a b) : Low (hash4ExactT E p a) (hash4ExactT E q b) HLow := by
  unfold hash4ExactT
  have d0 : b[0].length = a[0].length := d 0
  have d1 : b[1].length = a[1].length := d 1
  have d2 : b[2].length = a[2].length := d 2
  have d3 : b[3].length = a[3].length := d 3
  rw [d0, d1, d2, d3]
  refine .same _ fun _ => .same _ fun _ => .same _ fun _ => ?_
  unfold Hash4ExactFn.callT
  refine .same _ fun _ => ?_
  cases (defaultCompressImpl E).hash4Exact
  · exact portable_hash4ExactT_low E r d
  · refine .ite (fun _ => ?_) (fun _ => ⟨rfl, .inr ⟨_, rfl, rfl⟩⟩)
    unfold Sse41.hash4ExactT
    rw [d0]
    exact sse41_hash4ExactLoopT_low r d _ _ _ _ _

theorem hash8ExactT_low (E : Env) {p q : Params} (r : PLow p q) {a b : Vector (List U8) 8}
    (d : DLow a b) : Low (hash8ExactT E p a) (hash8ExactT E q b) HLow := by
  unfold hash8ExactT
  have d0 : b[0].length = a[0].length := d 0
  have d1 : b[1].length = a[1].length := d 1
  have d2 : b[2].length = a[2].length := d 2
  have d3 : b[3].length = a[3].length := d 3
  have d4 : b[4].length = a[4].length := d 4
  have d5 : b[5].length = a[5].length := d 5
  have d6 : b[6].length = a[6].length := d 6
  have d7 : b[7].length = a[7].length := d 7
  rw [d0, d1, d2, d3, d4, d5, d6, d7]
  refine .same _ fun _ => .same _ fun _ => .same _ fun _ => ?_
  unfold Hash8ExactFn.callT
  refine .same _ fun _ => ?_
  cases (defaultCompressImpl E).hash8Exact
  · exact portable_hash8ExactT_low E r d
  · refine .ite (fun _ => ?_) (fun _ => ⟨rfl, .inr ⟨_, rfl, rfl⟩⟩)
    unfold Avx2.hash8ExactT
    rw [d0]
    exact avx2_hash8ExactLoopT_low r d _ _ _ _ _

/-! ## `update8`, `finalize8`, `hash8` -/

/-- Eight pairs of states that agree on everything but state words and buffer contents. -/
def SLow8 (s t : Vector State 8) : Prop := ∀ i : Fin 8, SLow s[i] t[i]

theorem SLow8.mk {s0 s1 s2 s3 s4 s5 s6 s7 t0 t1 t2 t3 t4 t5 t6 t7 : State} (r0 : SLow s0 t0)
    (r1 : SLow s1 t1)
    (r2 : SLow s2 t2)
    (r3 : SLow s3 t3)
    (r4 : SLow s4 t4)
    (r5 : SLow s5 t5)
    (r6 : SLow s6 t6)
    (r7 : SLow s7 t7) :
    SLow8 #v[s0, s1, s2, s3, s4, s5, s6, s7] #v[t0, t1, t2, t3, t4, t5, t6, t7] := by
  intro i
  match i with
  | 0 => exact r0
  | 1 => exact r1
  | 2 => exact r2
  | 3 => exact r3
  | 4 => exact r4
  | 5 => exact r5
  | 6 => exact r6
  | 7 => exact r7

theorem DLow.mk8 {s0 s1 s2 s3 s4 s5 s6 s7 t0 t1 t2 t3 t4 t5 t6 t7 : List U8} (r0 : t0.length = s0.length)
    (r1 : t1.length = s1.length)
    (r2 : t2.length = s2.length)
    (r3 : t3.length = s3.length)
    (r4 : t4.length = s4.length)
    (r5 : t5.length = s5.length)
    (r6 : t6.length = s6.length)
    (r7 : t7.length = s7.length) :
    DLow #v[s0, s1, s2, s3, s4, s5, s6, s7] #v[t0, t1, t2, t3, t4, t5, t6, t7] := by
  intro i
  match i with
  | 0 => exact r0
  | 1 => exact r1
  | 2 => exact r2
  | 3 => exact r3
  | 4 => exact r4
  | 5 => exact r5
  | 6 => exact r6
  | 7 => exact r7

/-- A state after one block has been compressed into it. -/
theorem SLow.next {s t : State} (r : SLow s t) (c : U64) (h h' : StateWords) :
    SLow { s with count := c, h := h } { t with count := c, h := h' } :=
  ⟨r.buflen, rfl, r.fn, r.ln, r.hl⟩

seal Tr.andThen Portable.compress8T Avx2.compress8 in
theorem update8LoopT_low (E : Env) (f : Compress8Fn) (n : Nat) {s t : Vector State 8} (r : SLow8 s t)
    {a b : Vector (List U8) 8} (d : DLow a b) :
    Low (update8LoopT E f n s a) (update8LoopT E f n t b) (fun x y => SLow8 x.1 y.1 ∧ DLow x.2 y.2) := by
  induction n generalizing s t a b with
  | zero => exact ⟨rfl, .inr ⟨_, rfl, rfl⟩⟩
  | succ n ih =>
    have d0 : b[0].length = a[0].length := d 0
    have d1 : b[1].length = a[1].length := d 1
    have d2 : b[2].length = a[2].length := d 2
    have d3 : b[3].length = a[3].length := d 3
    have d4 : b[4].length = a[4].length := d 4
    have d5 : b[5].length = a[5].length := d 5
    have d6 : b[6].length = a[6].length := d 6
    have d7 : b[7].length = a[7].length := d 7
    have r0 : SLow s[0] t[0] := r 0
    have r1 : SLow s[1] t[1] := r 1
    have r2 : SLow s[2] t[2] := r 2
    have r3 : SLow s[3] t[3] := r 3
    have r4 : SLow s[4] t[4] := r 4
    have r5 : SLow s[5] t[5] := r 5
    have r6 : SLow s[6] t[6] := r 6
    have r7 : SLow s[7] t[7] := r 7
    unfold update8LoopT
    rw [d0, d1, d2, d3, d4, d5, d6, d7]
    rw [r0.count, r1.count, r2.count, r3.count, r4.count, r5.count, r6.count, r7.count]
    refine .same _ fun _ => .ite (fun _ => ?_) (fun _ => .pure ⟨r, d⟩)
    refine .same _ fun c0 => ?_
    refine .same _ fun c1 => ?_
    refine .same _ fun c2 => ?_
    refine .same _ fun c3 => ?_
    refine .same _ fun c4 => ?_
    refine .same _ fun c5 => ?_
    refine .same _ fun c6 => ?_
    refine .same _ fun c7 => ?_
    refine .bind (arrayRefT_low d0 _ _) fun _ _ _ => ?_
    refine .bind (arrayRefT_low d1 _ _) fun _ _ _ => ?_
    refine .bind (arrayRefT_low d2 _ _) fun _ _ _ => ?_
    refine .bind (arrayRefT_low d3 _ _) fun _ _ _ => ?_
    refine .bind (arrayRefT_low d4 _ _) fun _ _ _ => ?_
    refine .bind (arrayRefT_low d5 _ _) fun _ _ _ => ?_
    refine .bind (arrayRefT_low d6 _ _) fun _ _ _ => ?_
    refine .bind (arrayRefT_low d7 _ _) fun _ _ _ => ?_
    refine .bind (compress8T_low E _ _ _ _ _ _ _ _) fun h h' _ => ?_
    refine .bind (sliceFromT_low d0 _) fun _ _ e0 => ?_
    refine .bind (sliceFromT_low d1 _) fun _ _ e1 => ?_
    refine .bind (sliceFromT_low d2 _) fun _ _ e2 => ?_
    refine .bind (sliceFromT_low d3 _) fun _ _ e3 => ?_
    refine .bind (sliceFromT_low d4 _) fun _ _ e4 => ?_
    refine .bind (sliceFromT_low d5 _) fun _ _ e5 => ?_
    refine .bind (sliceFromT_low d6 _) fun _ _ e6 => ?_
    refine .bind (sliceFromT_low d7 _) fun _ _ e7 => ?_
    exact ih (.mk (r0.next _ _ _) (r1.next _ _ _) (r2.next _ _ _) (r3.next _ _ _) (r4.next _ _ _)
      (r5.next _ _ _) (r6.next _ _ _) (r7.next _ _ _)) (.mk8 e0 e1 e2 e3 e4 e5 e6 e7)

theorem update8T_low (E : Env) {s t : Vector State 8} (r : SLow8 s t) {a b : Vector (List U8) 8}
    (d : DLow a b) : Low (update8T E s a) (update8T E t b) SLow8 := by
  unfold update8T
  refine .bind (compressBufferT_low E (r 0) (d 0)) ?_; rintro ⟨s0, a0⟩ ⟨t0, b0⟩ ⟨r0, d0⟩
  refine .bind (compressBufferT_low E (r 1) (d 1)) ?_; rintro ⟨s1, a1⟩ ⟨t1, b1⟩ ⟨r1, d1⟩
  refine .bind (compressBufferT_low E (r 2) (d 2)) ?_; rintro ⟨s2, a2⟩ ⟨t2, b2⟩ ⟨r2, d2⟩
  refine .bind (compressBufferT_low E (r 3) (d 3)) ?_; rintro ⟨s3, a3⟩ ⟨t3, b3⟩ ⟨r3, d3⟩
  refine .bind (compressBufferT_low E (r 4) (d 4)) ?_; rintro ⟨s4, a4⟩ ⟨t4, b4⟩ ⟨r4, d4⟩
  refine .bind (compressBufferT_low E (r 5) (d 5)) ?_; rintro ⟨s5, a5⟩ ⟨t5, b5⟩ ⟨r5, d5⟩
  refine .bind (compressBufferT_low E (r 6) (d 6)) ?_; rintro ⟨s6, a6⟩ ⟨t6, b6⟩ ⟨r6, d6⟩
  refine .bind (compressBufferT_low E (r 7) (d 7)) ?_; rintro ⟨s7, a7⟩ ⟨t7, b7⟩ ⟨r7, d7⟩
  have d0 : b0.length = a0.length := d0
  simp only [d0]
  refine .bind (update8LoopT_low E _ _ (.mk r0 r1 r2 r3 r4 r5 r6 r7)
    (.mk8 d0 d1 d2 d3 d4 d5 d6 d7)) ?_
  rintro ⟨s', a'⟩ ⟨t', b'⟩ ⟨r', d'⟩
  refine .bind (updateT_low E (r' 0) (d' 0)) fun _ _ r0 => ?_
  refine .bind (updateT_low E (r' 1) (d' 1)) fun _ _ r1 => ?_
  refine .bind (updateT_low E (r' 2) (d' 2)) fun _ _ r2 => ?_
  refine .bind (updateT_low E (r' 3) (d' 3)) fun _ _ r3 => ?_
  refine .bind (updateT_low E (r' 4) (d' 4)) fun _ _ r4 => ?_
  refine .bind (updateT_low E (r' 5) (d' 5)) fun _ _ r5 => ?_
  refine .bind (updateT_low E (r' 6) (d' 6)) fun _ _ r6 => ?_
  refine .bind (updateT_low E (r' 7) (d' 7)) fun _ _ r7 => ?_
  exact .pure (.mk r0 r1 r2 r3 r4 r5 r6 r7)

theorem zeroTailT_low (b b' : Block) (n : U8) :
    Low (State.zeroTailT b n) (State.zeroTailT b' n) (fun _ _ => True) :=
  .same _ fun _ => .pure trivial

seal Portable.compress8T Avx2.compress8 in
theorem finalize8T_low (E : Env) {s t : Vector State 8} (r : SLow8 s t) :
    Low (finalize8T E s) (finalize8T E t) (fun x y => SLow8 x.1 y.1 ∧ HLow x.2 y.2) := by
  have r0 : SLow s[0] t[0] := r 0
  have r1 : SLow s[1] t[1] := r 1
  have r2 : SLow s[2] t[2] := r 2
  have r3 : SLow s[3] t[3] := r 3
  have r4 : SLow s[4] t[4] := r 4
  have r5 : SLow s[5] t[5] := r 5
  have r6 : SLow s[6] t[6] := r 6
  have r7 : SLow s[7] t[7] := r 7
  unfold finalize8T
  rw [r0.buflen, r1.buflen, r2.buflen, r3.buflen, r4.buflen, r5.buflen, r6.buflen, r7.buflen]
  rw [r0.ln, r1.ln, r2.ln, r3.ln, r4.ln, r5.ln, r6.ln, r7.ln]
  refine .bind (zeroTailT_low _ _ _) fun _ _ _ => ?_
  refine .bind (zeroTailT_low _ _ _) fun _ _ _ => ?_
  refine .bind (zeroTailT_low _ _ _) fun _ _ _ => ?_
  refine .bind (zeroTailT_low _ _ _) fun _ _ _ => ?_
  refine .bind (zeroTailT_low _ _ _) fun _ _ _ => ?_
  refine .bind (zeroTailT_low _ _ _) fun _ _ _ => ?_
  refine .bind (zeroTailT_low _ _ _) fun _ _ _ => ?_
  refine .bind (zeroTailT_low _ _ _) fun _ _ _ => ?_
  refine .same _ fun _ => ?_
  refine .same _ fun _ => ?_
  refine .same _ fun _ => ?_
  refine .same _ fun _ => ?_
  refine .same _ fun _ => ?_
  refine .same _ fun _ => ?_
  refine .same _ fun _ => ?_
  refine .same _ fun _ => ?_
  simp only [r0.count, r1.count, r2.count, r3.count, r4.count, r5.count, r6.count, r7.count]
  refine .bind (compress8T_low E _ _ _ _ _ _ _ _) fun h h' _ => .pure ⟨.mk ?_ ?_ ?_ ?_ ?_ ?_ ?_ ?_,
    .mk8 r0.hl r1.hl r2.hl r3.hl r4.hl r5.hl r6.hl r7.hl⟩
  · exact ⟨r0.buflen, rfl, r0.fn, r0.ln, r0.hl⟩
  · exact ⟨r1.buflen, rfl, r1.fn, r1.ln, r1.hl⟩
  · exact ⟨r2.buflen, rfl, r2.fn, r2.ln, r2.hl⟩
  · exact ⟨r3.buflen, rfl, r3.fn, r3.ln, r3.hl⟩
  · exact ⟨r4.buflen, rfl, r4.fn, r4.ln, r4.hl⟩
  · exact ⟨r5.buflen, rfl, r5.fn, r5.ln, r5.hl⟩
  · exact ⟨r6.buflen, rfl, r6.fn, r6.ln, r6.hl⟩
  · exact ⟨r7.buflen, rfl, r7.fn, r7.ln, r7.hl⟩

/-- Lists of byte strings of the same lengths. -/
inductive LLow : List (List U8) → List (List U8) → Prop
  | nil : LLow [] []
  | cons {a b : List U8} {as bs : List (List U8)} (h : b.length = a.length) (t : LLow as bs) :
    LLow (a :: as) (b :: bs)

theorem allRemainingT_low (p : Nat → Bool) (c : Nat) {a b : List (List U8)} (h : LLow a b) :
    allRemainingT p c b = allRemainingT p c a := by
  induction h with
  | nil => rfl
  | cons h _ ih =>
    unfold allRemainingT
    rw [h, ih]

/-- Eight pairs of `Params` that agree on the lengths and the last-node flag. -/
def PLow8 (p q : Vector Params 8) : Prop := ∀ i : Fin 8, PLow p[i] q[i]

/-- Two ways to leave the loop of `hash8` that agree on everything but words. -/
def ExitLow : Hash8Exit → Hash8Exit → Prop
  | .ret h, .ret g => HLow h g
  | .brk _ c, .brk _ d => d = c
  | _, _ => False

seal Tr.andThen Portable.compress8VectorizedT Avx2.compress8Vectorized Avx2.vectorizeWords8 in
theorem hash8LoopT_low (E : Env) (im : Impl) {p q : Vector Params 8} (r : PLow8 p q)
    {a b : Vector (List U8) 8} (d : DLow a b) (n : Nat) (w w' : Vector StateWords 8) (c : Nat) :
    Low (hash8LoopT E im p a n w c) (hash8LoopT E im q b n w' c) ExitLow := by
  induction n generalizing w w' c with
  | zero => exact ⟨rfl, .inr ⟨_, rfl, rfl⟩⟩
  | succ n ih =>
    have d0 : b[0].length = a[0].length := d 0
    have d1 : b[1].length = a[1].length := d 1
    have d2 : b[2].length = a[2].length := d 2
    have d3 : b[3].length = a[3].length := d 3
    have d4 : b[4].length = a[4].length := d 4
    have d5 : b[5].length = a[5].length := d 5
    have d6 : b[6].length = a[6].length := d 6
    have d7 : b[7].length = a[7].length := d 7
    have r0 : PLow p[0] q[0] := r 0
    have r1 : PLow p[1] q[1] := r 1
    have r2 : PLow p[2] q[2] := r 2
    have r3 : PLow p[3] q[3] := r 3
    have r4 : PLow p[4] q[4] := r 4
    have r5 : PLow p[5] q[5] := r 5
    have r6 : PLow p[6] q[6] := r 6
    have r7 : PLow p[7] q[7] := r 7
    have l : LLow [a[0], a[1], a[2], a[3], a[4], a[5], a[6], a[7]]
        [b[0], b[1], b[2], b[3], b[4], b[5], b[6], b[7]] :=
      .cons d0 (.cons d1 (.cons d2 (.cons d3 (.cons d4 (.cons d5 (.cons d6 (.cons d7 .nil)))))))
    unfold hash8LoopT hash8FlagsT
    rw [allRemainingT_low _ _ l, allRemainingT_low _ _ l]
    rw [r0.ln, r1.ln, r2.ln, r3.ln, r4.ln, r5.ln, r6.ln, r7.ln]
    rw [r0.hl, r1.hl, r2.hl, r3.hl, r4.hl, r5.hl, r6.hl, r7.hl]
    refine .same _ fun _ => .same _ fun _ => .same _ fun _ => .ite (fun _ => .pure rfl) (fun _ => ?_)
    refine .bind (arrayRefT_low d0 _ _) fun _ _ _ => ?_
    refine .bind (arrayRefT_low d1 _ _) fun _ _ _ => ?_
    refine .bind (arrayRefT_low d2 _ _) fun _ _ _ => ?_
    refine .bind (arrayRefT_low d3 _ _) fun _ _ _ => ?_
    refine .bind (arrayRefT_low d4 _ _) fun _ _ _ => ?_
    refine .bind (arrayRefT_low d5 _ _) fun _ _ _ => ?_
    refine .bind (arrayRefT_low d6 _ _) fun _ _ _ => ?_
    refine .bind (arrayRefT_low d7 _ _) fun _ _ _ => ?_
    refine .same _ fun _ => .same _ fun _ => ?_
    refine .bind (compress8VectorizedT_low E _ _ _ _ _ _ _ _ _) fun w w' _ => ?_
    refine .same _ fun _ => .ite (fun _ => ?_) (fun _ => ih _ _ _)
    refine .bind (vectorize8T_low E _ _ _) fun w w' _ => .pure ?_
    exact HLow.mk8 rfl rfl rfl rfl rfl rfl rfl rfl

theorem hash8FinishT_low (E : Env) (im : Impl) (c : Nat) {p q : Params} (r : PLow p q)
    (w w' : StateWords) {a b : List U8} (d : b.length = a.length) :
    Low (hash8FinishT E im c p w a) (hash8FinishT E im c q w' b) (fun h g => g.len = h.len) := by
  unfold hash8FinishT
  refine .bind (sliceFromT_low d _) fun _ _ d => ?_
  refine .bind (updateT_low E ?_ d) fun _ _ r => ?_
  · exact ⟨rfl, rfl, rfl, r.ln, r.hl⟩
  exact .bind (finalizeT_low E r) fun _ _ h => .pure h.2

theorem hash8T_low (E : Env) {p q : Vector Params 8} (r : PLow8 p q)
    {a b : Vector (List U8) 8} (d : DLow a b) : Low (hash8T E p a) (hash8T E q b) HLow := by
  have r0 : PLow p[0] q[0] := r 0
  have r1 : PLow p[1] q[1] := r 1
  have r2 : PLow p[2] q[2] := r 2
  have r3 : PLow p[3] q[3] := r 3
  have r4 : PLow p[4] q[4] := r 4
  have r5 : PLow p[5] q[5] := r 5
  have r6 : PLow p[6] q[6] := r 6
  have r7 : PLow p[7] q[7] := r 7
  have d0 : b[0].length = a[0].length := d 0
  unfold hash8T
  rw [r0.kl, r1.kl, r2.kl, r3.kl, r4.kl, r5.kl, r6.kl, r7.kl, d0]
  refine .same _ fun _ => ?_
  refine .same _ fun _ => ?_
  refine .same _ fun _ => ?_
  refine .same _ fun _ => ?_
  refine .same _ fun _ => ?_
  refine .same _ fun _ => ?_
  refine .same _ fun _ => ?_
  refine .same _ fun _ => ?_
  refine .bind (vectorize8T_low E _ _ _) fun w w' _ => ?_
  refine .bind (hash8LoopT_low E _ r d _ _ _ _) fun x y h => ?_
  match x, y, h with
  | .ret h, .ret g, h' => exact .pure h'
  | .brk w c, .brk w' _, rfl =>
    refine .bind (vectorize8T_low E _ _ _) fun w w' _ => ?_
    refine .bind (hash8FinishT_low E _ _ r0 _ _ (d 0)) fun _ _ h0 => ?_
    refine .bind (hash8FinishT_low E _ _ r1 _ _ (d 1)) fun _ _ h1 => ?_
    refine .bind (hash8FinishT_low E _ _ r2 _ _ (d 2)) fun _ _ h2 => ?_
    refine .bind (hash8FinishT_low E _ _ r3 _ _ (d 3)) fun _ _ h3 => ?_
    refine .bind (hash8FinishT_low E _ _ r4 _ _ (d 4)) fun _ _ h4 => ?_
    refine .bind (hash8FinishT_low E _ _ r5 _ _ (d 5)) fun _ _ h5 => ?_
    refine .bind (hash8FinishT_low E _ _ r6 _ _ (d 6)) fun _ _ h6 => ?_
    refine .bind (hash8FinishT_low E _ _ r7 _ _ (d 7)) fun _ _ h7 => ?_
    exact .pure (.mk8 h0 h1 h2 h3 h4 h5 h6 h7)

/-! ## BLAKE2sp -/

namespace Sp

/-- Two `blake2sp::Params` that agree on the lengths. -/
structure PLow (p q : Params) : Prop where
  hl : q.hashLength = p.hashLength
  kl : q.keyLength = p.keyLength

/-- Two `blake2sp::State`s that agree on everything but state words and buffer contents. -/
structure SpLow (s t : State) : Prop where
  leaves : SLow8 s.leaves t.leaves
  root : SLow s.root t.root
  buflen : t.buflen = s.buflen
  fn : t.compress8Fn = s.compress8Fn

/-- Two setter calls that differ only in the bytes. -/
inductive SetLow : Setter → Setter → Prop
  | same (c : Setter) : SetLow c c
  | key {a b : List U8} (h : b.length = a.length) : SetLow (.key a) (.key b)

theorem setKeyT_low {p q : Params} (r : PLow p q) {a b : List U8} (h : b.length = a.length) :
    Low (p.setKeyT a) (q.setKeyT b) PLow := by
  unfold Params.setKeyT
  rw [h]
  exact .same _ fun _ => .bind (copyFromSliceT_low _ _ _ _ h) fun _ _ _ => .pure ⟨r.hl, rfl⟩

theorem setT_low {p q : Params} (r : PLow p q) {c d : Setter} (h : SetLow c d) :
    Low (p.setT c) (q.setT d) PLow := by
  cases h with
  | key h => exact setKeyT_low r h
  | same c =>
    cases c with
    | hashLength n =>
      unfold Params.setT Params.setHashLengthT
      exact .same _ fun _ => .same _ fun _ => .pure ⟨rfl, r.kl⟩
    | key k => exact setKeyT_low r rfl

theorem debugParamsT_low {p q : Params} (r : PLow p q) : Low p.debugT q.debugT Eq := by
  unfold Params.debugT Params.debug
  rw [r.hl, r.kl]
  exact .refl _

theorem baseParamsT_low {p q : Params} (r : PLow p q) :
    Low (State.baseParamsT p) (State.baseParamsT q) Blake2s.PLow := by
  unfold State.baseParamsT
  rw [r.hl, r.kl]
  refine .bind (setHashLengthT_low (.refl _) _) fun _ _ h => ?_
  refine .bind (sliceToT_low (by simp) _) fun _ _ d => .bind (Blake2s.setKeyT_low h d) fun x y h => ?_
  have h1 : Blake2s.PLow (x.setFanout 8) (y.setFanout 8) := ⟨h.hl, h.kl, h.ln⟩
  refine .bind (setMaxDepthT_low h1 _) fun x y h => ?_
  have h1 : Blake2s.PLow (x.setMaxLeafLength 0) (y.setMaxLeafLength 0) := ⟨h.hl, h.kl, h.ln⟩
  exact setInnerHashLengthT_low h1 _

theorem leafStateT_low (E : Env) {p q : Blake2s.Params} (r : Blake2s.PLow p q) (i : U64) :
    Low (State.leafStateT E p i) (State.leafStateT E q i) SLow := by
  unfold State.leafStateT
  refine .bind (setNodeOffsetT_low r i) fun x y h => ?_
  have h1 : Blake2s.PLow ((x.setNodeDepth 0).setLastNode (decide (i = 7)))
    ((y.setNodeDepth 0).setLastNode (decide (i = 7))) := ⟨h.hl, h.kl, rfl⟩
  exact .bind (withParamsT_low E h1) fun _ _ h => .pure ⟨h.buflen, h.count, h.fn, h.ln, rfl⟩

theorem withParamsT_low (E : Env) {p q : Params} (r : PLow p q) :
    Low (State.withParamsT E p) (State.withParamsT E q) SpLow := by
  unfold State.withParamsT
  refine .bind (baseParamsT_low r) fun _ _ h => .bind (setNodeOffsetT_low h 0) fun x y g => ?_
  have h1 : Blake2s.PLow ((x.setNodeDepth 1).setLastNode true) ((y.setNodeDepth 1).setLastNode true) :=
    ⟨g.hl, g.kl, rfl⟩
  refine .bind (Blake2s.withParamsT_low E h1) fun s t rr => ?_
  refine .bind (leafStateT_low E h 0) fun _ _ r0 => ?_
  refine .bind (leafStateT_low E h 1) fun _ _ r1 => ?_
  refine .bind (leafStateT_low E h 2) fun _ _ r2 => ?_
  refine .bind (leafStateT_low E h 3) fun _ _ r3 => ?_
  refine .bind (leafStateT_low E h 4) fun _ _ r4 => ?_
  refine .bind (leafStateT_low E h 5) fun _ _ r5 => ?_
  refine .bind (leafStateT_low E h 6) fun _ _ r6 => ?_
  refine .bind (leafStateT_low E h 7) fun _ _ r7 => ?_
  have h2 : SLow { s with buflen := 0, count := 0 } { t with buflen := 0, count := 0 } :=
    ⟨rfl, rfl, rr.fn, rr.ln, rr.hl⟩
  exact .pure ⟨.mk r0 r1 r2 r3 r4 r5 r6 r7, h2, rfl, rfl⟩

theorem fillBufT_low (E : Env) {s t : State} (r : SpLow s t) {a b : List U8}
    (d : b.length = a.length) :
    Low (s.fillBufT E a) (t.fillBufT E b) (fun x y => SpLow x.1 y.1 ∧ y.2.length = x.2.length) := by
  unfold State.fillBufT
  rw [r.buflen, d]
  refine .same _ fun n => .same _ fun n => .same _ fun m => .bind (sliceToT_low d n) fun x y h => ?_
  refine .bind (copyFromSliceT_low _ _ _ _ h) fun _ _ _ => .same _ fun bl => ?_
  refine .bind (sliceFromT_low d n) fun x y h => .pure ⟨⟨r.leaves, r.root, rfl, r.fn⟩, h⟩

seal Portable.compress8T Avx2.compress8 in
theorem compress8T_low (E : Env) (a b : Vector U8 512) {s t : Vector Blake2s.State 8} (r : SLow8 s t)
    (f : Compress8Fn) : Low (State.compress8T E a s f) (State.compress8T E b t f) SLow8 := by
  have r0 : SLow s[0] t[0] := r 0
  have r1 : SLow s[1] t[1] := r 1
  have r2 : SLow s[2] t[2] := r 2
  have r3 : SLow s[3] t[3] := r 3
  have r4 : SLow s[4] t[4] := r 4
  have r5 : SLow s[5] t[5] := r 5
  have r6 : SLow s[6] t[6] := r 6
  have r7 : SLow s[7] t[7] := r 7
  unfold State.compress8T
  rw [r0.buflen, r1.buflen, r2.buflen, r3.buflen, r4.buflen, r5.buflen, r6.buflen, r7.buflen]
  rw [r0.count, r1.count, r2.count, r3.count, r4.count, r5.count, r6.count, r7.count]
  refine .same _ fun _ => ?_
  refine .same _ fun _ => ?_
  refine .same _ fun _ => ?_
  refine .same _ fun _ => ?_
  refine .same _ fun _ => ?_
  refine .same _ fun _ => ?_
  refine .same _ fun _ => ?_
  refine .same _ fun _ => ?_
  refine .same _ fun _ => ?_
  refine .same _ fun _ => ?_
  refine .same _ fun _ => ?_
  refine .same _ fun _ => ?_
  refine .same _ fun _ => ?_
  refine .same _ fun _ => ?_
  refine .same _ fun _ => ?_
  refine .same _ fun _ => ?_
  refine .same _ fun _ => ?_
  refine .same _ fun _ => ?_
  refine .same _ fun _ => ?_
  refine .same _ fun _ => ?_
  refine .same _ fun _ => ?_
  refine .same _ fun _ => ?_
  refine .same _ fun _ => ?_
  refine .bind (Blake2s.compress8T_low E _ _ _ _ _ _ _ _) fun h h' _ => ?_
  exact .pure (.mk (r0.next _ _ _) (r1.next _ _ _) (r2.next _ _ _) (r3.next _ _ _) (r4.next _ _ _)
      (r5.next _ _ _) (r6.next _ _ _) (r7.next _ _ _))

theorem updateBufferedT_low (E : Env) {s t : State} (r : SpLow s t) {a b : List U8}
    (d : b.length = a.length) :
    Low (s.updateBufferedT E a) (t.updateBufferedT E b)
      (fun x y => SpLow x.1 y.1 ∧ y.2.length = x.2.length) := by
  unfold State.updateBufferedT
  rw [r.buflen]
  refine .same _ fun c => .ite (fun _ => ?_) (fun _ => .pure ⟨r, d⟩)
  refine .bind (fillBufT_low E r d) ?_
  rintro ⟨s1, a1⟩ ⟨t1, b1⟩ ⟨r1, d1⟩
  have r1 : SpLow s1 t1 := r1
  have d1 : b1.length = a1.length := d1
  simp only [isEmpty_low d1]
  refine .same _ fun c => .ite (fun _ => ?_) (fun _ => .pure ⟨r1, d1⟩)
  rw [r1.fn, r1.buflen, d1]
  refine .bind (compress8T_low E _ _ r1.leaves _) fun _ _ r2 => .same _ fun bl => .same _ fun c =>
    .ite (fun _ => ?_) (fun _ => ?_)
  · refine .bind (compress8T_low E _ _ r2 _) fun _ _ r3 => ?_
    exact .pure ⟨⟨r3, r1.root, rfl, rfl⟩, d1⟩
  · refine .bind (sliceToT_low (by simp) _) fun _ _ d2 => .bind (copyFromSliceT_low _ _ _ _ d2) fun _ _ _ => ?_
    exact .pure ⟨⟨r2, r1.root, rfl, rfl⟩, d1⟩

theorem updateLoopT_low (E : Env) (f : Compress8Fn) (n : Nat) {s t : Vector Blake2s.State 8}
    (r : SLow8 s t) {a b : List U8} (d : b.length = a.length) :
    Low (State.updateLoopT E f n s a) (State.updateLoopT E f n t b)
      (fun x y => SLow8 x.1 y.1 ∧ y.2.length = x.2.length) := by
  induction n generalizing s t a b with
  | zero => exact ⟨rfl, .inr ⟨_, rfl, rfl⟩⟩
  | succ n ih =>
    unfold State.updateLoopT
    rw [d]
    refine .same _ fun c => .ite (fun _ => ?_) (fun _ => .pure ⟨r, d⟩)
    refine .bind (arrayRefT_low d _ _) fun _ _ _ => .bind (compress8T_low E _ _ r _) fun _ _ r1 => ?_
    exact .bind (sliceFromT_low d _) fun _ _ d1 => ih r1 d1

theorem updateT_low (E : Env) {s t : State} (r : SpLow s t) {a b : List U8} (d : b.length = a.length) :
    Low (s.updateT E a) (t.updateT E b) SpLow := by
  unfold State.updateT
  refine .bind (updateBufferedT_low E r d) ?_
  rintro ⟨s1, a1⟩ ⟨t1, b1⟩ ⟨r1, d1⟩
  have r1 : SpLow s1 t1 := r1
  have d1 : b1.length = a1.length := d1
  simp only [d1, r1.fn]
  refine .bind (updateLoopT_low E _ _ r1.leaves d1) ?_
  rintro ⟨s2, a2⟩ ⟨t2, b2⟩ ⟨r2, d2⟩
  have r3 : SpLow { s1 with leaves := s2 }
      { t1 with leaves := t2, compress8Fn := s1.compress8Fn } := ⟨r2, r1.root, r1.buflen, rfl⟩
  refine .bind (fillBufT_low E r3 d2) ?_
  rintro ⟨s4, a4⟩ ⟨t4, b4⟩ ⟨r4, d4⟩
  have d4 : b4.length = a4.length := d4
  simp only [d4]
  exact .same _ fun _ => .pure r4

theorem updateChunkT_low (E : Env) {s t : Blake2s.State} (r : SLow s t) (a b : Vector U8 1024)
    (k : Fin 16) (n : Nat) : Low (State.updateChunkT E s a k n) (State.updateChunkT E t b k n) SLow := by
  unfold State.updateChunkT
  exact .same _ fun _ => .bind (sliceToT_low (by simp) _) fun _ _ d => Blake2s.updateT_low E r d

theorem finalizeT_low (E : Env) {s t : State} (r : SpLow s t) :
    Low (s.finalizeT E) (t.finalizeT E) (fun x y => SpLow x.1 y.1 ∧ y.2.len = x.2.len) := by
  unfold State.finalizeT
  rw [r.buflen]
  refine .bind (updateChunkT_low E (r.leaves 0) _ _ _ _) fun _ _ r0 => ?_
  refine .same _ fun _ => ?_
  refine .bind (updateChunkT_low E (r.leaves 1) _ _ _ _) fun _ _ r1 => ?_
  refine .same _ fun _ => ?_
  refine .bind (updateChunkT_low E (r.leaves 2) _ _ _ _) fun _ _ r2 => ?_
  refine .same _ fun _ => ?_
  refine .bind (updateChunkT_low E (r.leaves 3) _ _ _ _) fun _ _ r3 => ?_
  refine .same _ fun _ => ?_
  refine .bind (updateChunkT_low E (r.leaves 4) _ _ _ _) fun _ _ r4 => ?_
  refine .same _ fun _ => ?_
  refine .bind (updateChunkT_low E (r.leaves 5) _ _ _ _) fun _ _ r5 => ?_
  refine .same _ fun _ => ?_
  refine .bind (updateChunkT_low E (r.leaves 6) _ _ _ _) fun _ _ r6 => ?_
  refine .same _ fun _ => ?_
  refine .bind (updateChunkT_low E (r.leaves 7) _ _ _ _) fun _ _ r7 => ?_
  refine .same _ fun _ => ?_
  refine .bind (updateChunkT_low E (r0) _ _ _ _) fun _ _ r0 => ?_
  refine .same _ fun _ => ?_
  refine .bind (updateChunkT_low E (r1) _ _ _ _) fun _ _ r1 => ?_
  refine .same _ fun _ => ?_
  refine .bind (updateChunkT_low E (r2) _ _ _ _) fun _ _ r2 => ?_
  refine .same _ fun _ => ?_
  refine .bind (updateChunkT_low E (r3) _ _ _ _) fun _ _ r3 => ?_
  refine .same _ fun _ => ?_
  refine .bind (updateChunkT_low E (r4) _ _ _ _) fun _ _ r4 => ?_
  refine .same _ fun _ => ?_
  refine .bind (updateChunkT_low E (r5) _ _ _ _) fun _ _ r5 => ?_
  refine .same _ fun _ => ?_
  refine .bind (updateChunkT_low E (r6) _ _ _ _) fun _ _ r6 => ?_
  refine .same _ fun _ => ?_
  refine .bind (updateChunkT_low E (r7) _ _ _ _) fun _ _ r7 => ?_
  refine .bind (Blake2s.finalizeT_low E r0) ?_; rintro ⟨_, h0⟩ ⟨_, g0⟩ ⟨-, e0⟩
  refine .bind (asBytesT_low e0) fun _ _ d0 => .bind (Blake2s.updateT_low E r.root d0) fun _ _ q0 => ?_
  refine .bind (Blake2s.finalizeT_low E r1) ?_; rintro ⟨_, h1⟩ ⟨_, g1⟩ ⟨-, e1⟩
  refine .bind (asBytesT_low e1) fun _ _ d1 => .bind (Blake2s.updateT_low E q0 d1) fun _ _ q1 => ?_
  refine .bind (Blake2s.finalizeT_low E r2) ?_; rintro ⟨_, h2⟩ ⟨_, g2⟩ ⟨-, e2⟩
  refine .bind (asBytesT_low e2) fun _ _ d2 => .bind (Blake2s.updateT_low E q1 d2) fun _ _ q2 => ?_
  refine .bind (Blake2s.finalizeT_low E r3) ?_; rintro ⟨_, h3⟩ ⟨_, g3⟩ ⟨-, e3⟩
  refine .bind (asBytesT_low e3) fun _ _ d3 => .bind (Blake2s.updateT_low E q2 d3) fun _ _ q3 => ?_
  refine .bind (Blake2s.finalizeT_low E r4) ?_; rintro ⟨_, h4⟩ ⟨_, g4⟩ ⟨-, e4⟩
  refine .bind (asBytesT_low e4) fun _ _ d4 => .bind (Blake2s.updateT_low E q3 d4) fun _ _ q4 => ?_
  refine .bind (Blake2s.finalizeT_low E r5) ?_; rintro ⟨_, h5⟩ ⟨_, g5⟩ ⟨-, e5⟩
  refine .bind (asBytesT_low e5) fun _ _ d5 => .bind (Blake2s.updateT_low E q4 d5) fun _ _ q5 => ?_
  refine .bind (Blake2s.finalizeT_low E r6) ?_; rintro ⟨_, h6⟩ ⟨_, g6⟩ ⟨-, e6⟩
  refine .bind (asBytesT_low e6) fun _ _ d6 => .bind (Blake2s.updateT_low E q5 d6) fun _ _ q6 => ?_
  refine .bind (Blake2s.finalizeT_low E r7) ?_; rintro ⟨_, h7⟩ ⟨_, g7⟩ ⟨-, e7⟩
  refine .bind (asBytesT_low e7) fun _ _ d7 => .bind (Blake2s.updateT_low E q6 d7) fun _ _ q7 => ?_
  refine .bind (Blake2s.finalizeT_low E q7) ?_; rintro ⟨_, h⟩ ⟨_, g⟩ ⟨-, e⟩
  exact .pure ⟨r, e⟩

theorem getCountT_low (E : Env) {s t : State} (r : SpLow s t) : t.getCountT E = s.getCountT E := by
  have r0 : t.leaves[0].getCount = s.leaves[0].getCount := (r.leaves 0).count
  have r1 : t.leaves[1].getCount = s.leaves[1].getCount := (r.leaves 1).count
  have r2 : t.leaves[2].getCount = s.leaves[2].getCount := (r.leaves 2).count
  have r3 : t.leaves[3].getCount = s.leaves[3].getCount := (r.leaves 3).count
  have r4 : t.leaves[4].getCount = s.leaves[4].getCount := (r.leaves 4).count
  have r5 : t.leaves[5].getCount = s.leaves[5].getCount := (r.leaves 5).count
  have r6 : t.leaves[6].getCount = s.leaves[6].getCount := (r.leaves 6).count
  have r7 : t.leaves[7].getCount = s.leaves[7].getCount := (r.leaves 7).count
  unfold State.getCountT
  rw [r.buflen, r0, r1, r2, r3, r4, r5, r6, r7]

theorem writeT_low (E : Env) {s t : State} (r : SpLow s t) {a b : List U8} (d : b.length = a.length) :
    Low (s.writeT E a) (t.writeT E b) (fun x y => SpLow x.1 y.1 ∧ y.2 = x.2) := by
  unfold State.writeT
  rw [d]
  exact .bind (updateT_low E r d) fun _ _ h => .pure ⟨h, rfl⟩

theorem debugT_low (E : Env) {s t : State} (r : SpLow s t) : Low (s.debugT E) (t.debugT E) Eq := by
  unfold State.debugT
  rw [getCountT_low E r]
  refine .same _ fun _ => .same _ fun _ => ?_
  refine .bind (Blake2s.debugT_low r.root) ?_; rintro _ _ rfl
  refine .bind (Blake2s.debugT_low (r.leaves 0)) ?_; rintro _ _ rfl
  refine .bind (Blake2s.debugT_low (r.leaves 1)) ?_; rintro _ _ rfl
  refine .bind (Blake2s.debugT_low (r.leaves 2)) ?_; rintro _ _ rfl
  refine .bind (Blake2s.debugT_low (r.leaves 3)) ?_; rintro _ _ rfl
  exact .pure rfl

end Sp

theorem blake2spT_low (E : Env) {a b : List U8} (d : b.length = a.length) :
    Low (blake2spT E a) (blake2spT E b) (fun h g => g.len = h.len) := by
  unfold blake2spT
  refine .bind (Sp.withParamsT_low E ⟨rfl, rfl⟩) fun _ _ r => .bind (Sp.updateT_low E r d) fun _ _ r => ?_
  exact .bind (Sp.finalizeT_low E r) fun _ _ h => .pure h.2

end Blake2s
