import Verif.Proofs.Eight
/-!
# Two runs side by side

Two executions of the same function, possibly on two platforms, on two states that agree on everything
but (unless `x` holds) the data: they panic alike, and otherwise end in states that agree again. With
`x` the data are the same, too. Taking both executions equal gives safety: no fault except panics.
-/

namespace Blake2s

/-- The panics that can occur. -/
def Panic (E : Env) (f : Fault) : Prop :=
  (f = .overflow ∧ E.overflowChecks = true) ∨ (f = .debugAssertFailed ∧ E.debugAssertions = true) ∨
    f = .assertFailed

/-- Both executions end normally with related values, or both end with the same panic. -/
def Both {α β : Type} (E : Env) (r : R α) (r' : R β) (Q : α → β → Prop) : Prop :=
  (∃ a b, r = .ok a ∧ r' = .ok b ∧ Q a b) ∨ ∃ f, Panic E f ∧ r = .error f ∧ r' = .error f

theorem Both.pure {α β : Type} {E : Env} {a : α} {b : β} {Q : α → β → Prop} (h : Q a b) :
    Both E (pure a) (pure b) Q := .inl ⟨a, b, rfl, rfl, h⟩

theorem Both.bind {α β γ δ : Type} {E : Env} {r : R α} {r' : R β} {f : α → R γ} {g : β → R δ}
    {Q : α → β → Prop} {P : γ → δ → Prop} (h : Both E r r' Q)
    (hf : ∀ a b, Q a b → Both E (f a) (g b) P) : Both E (r >>= f) (r' >>= g) P := by
  rcases h with ⟨a, b, e, e', h⟩ | ⟨p, hp, e, e'⟩
  · rw [e, e']; exact hf a b h
  · rw [e, e']; exact .inr ⟨p, hp, rfl, rfl⟩

theorem Both.mono {α β : Type} {E : Env} {r : R α} {r' : R β} {Q P : α → β → Prop}
    (h : Both E r r' Q) (hp : ∀ a b, Q a b → P a b) : Both E r r' P := by
  rcases h with ⟨a, b, e, e', h⟩ | h
  · exact .inl ⟨a, b, e, e', hp a b h⟩
  · exact .inr h

/-- The two builds have the same checks; both platforms are real. -/
structure ERel (E E' : Env) : Prop where
  oc : E'.overflowChecks = E.overflowChecks
  da : E'.debugAssertions = E.debugAssertions
  wf : E.WF
  wf' : E'.WF

theorem addChk_both {w : Nat} {E E' : Env} (e : ERel E E') (a b : BitVec w) :
    Both E (addChk E a b) (addChk E' a b) (fun r r' => r = r') := by
  unfold addChk
  rw [e.oc]
  split
  · rename_i h
    simp only [Bool.and_eq_true] at h
    exact .inr ⟨_, .inl ⟨rfl, h.1⟩, rfl, rfl⟩
  · exact Both.pure rfl

theorem debugAssert_both {E E' : Env} (e : ERel E E') (c : Bool) :
    Both E (debugAssert E c) (debugAssert E' c) (fun _ _ => True) := by
  unfold debugAssert
  rw [e.da]
  split
  · rename_i h
    simp only [Bool.and_eq_true] at h
    exact .inr ⟨_, .inr (.inl ⟨rfl, h.1⟩), rfl, rfl⟩
  · exact Both.pure trivial

theorem assert_both {E : Env} (c : Bool) :
    Both E (assert c) (assert c) (fun _ _ => c = true) := by
  unfold assert
  split
  · rename_i h; exact Both.pure h
  · exact .inr ⟨_, .inr (.inr rfl), rfl, rfl⟩

/-- Byte strings of one length; the same bytes if `x`. -/
structure DRel (x : Prop) (a b : List U8) : Prop where
  len : a.length = b.length
  eq : x → a = b

theorem DRel.take {x : Prop} {a b : List U8} (h : DRel x a b) (n : Nat) :
    DRel x (a.take n) (b.take n) :=
  ⟨by rw [List.length_take, List.length_take, h.len], fun hx => by rw [h.eq hx]⟩

theorem DRel.drop {x : Prop} {a b : List U8} (h : DRel x a b) (n : Nat) :
    DRel x (a.drop n) (b.drop n) :=
  ⟨by rw [List.length_drop, List.length_drop, h.len], fun hx => by rw [h.eq hx]⟩

theorem sliceTo_both {E : Env} {x : Prop} {a b : List U8} (h : DRel x a b) (n : Nat)
    (hn : n ≤ a.length) :
    Both E (sliceTo a n) (sliceTo b n) (fun r r' => DRel x r r' ∧ r.length = n) := by
  rw [sliceTo_ok _ _ hn, sliceTo_ok _ _ (by rw [← h.len]; exact hn)]
  exact .inl ⟨_, _, rfl, rfl, h.take n, by simp; omega⟩

theorem sliceFrom_both {E : Env} {x : Prop} {a b : List U8} (h : DRel x a b) (n : Nat)
    (hn : n ≤ a.length) :
    Both E (sliceFrom a n) (sliceFrom b n) (fun r r' => DRel x r r' ∧ r.length = a.length - n) := by
  rw [sliceFrom_ok _ _ hn, sliceFrom_ok _ _ (by rw [← h.len]; exact hn)]
  exact .inl ⟨_, _, rfl, rfl, h.drop n, by simp⟩

theorem copyFromSlice_both {E : Env} {x : Prop} {n : Nat} {u v : Vector U8 n} (hv : x → u = v)
    (lo hi : Nat) {a b : List U8} (h : DRel x a b) (h1 : lo ≤ hi) (h2 : hi ≤ n)
    (h3 : a.length = hi - lo) :
    Both E (copyFromSlice u lo hi a) (copyFromSlice v lo hi b) (fun r r' => x → r = r') := by
  obtain ⟨r, e, _⟩ := copyFromSlice_ok u lo hi a h1 h2 h3
  obtain ⟨r', e', _⟩ := copyFromSlice_ok v lo hi b h1 h2 (by rw [← h.len]; exact h3)
  refine .inl ⟨r, r', e, e', ?_⟩
  intro hx
  rw [hv hx, h.eq hx, e'] at e
  exact (Except.ok.inj e).symm

theorem arrayRef_both {E : Env} {x : Prop} {a b : List U8} (h : DRel x a b) (off n : Nat)
    (hn : off + n ≤ a.length) :
    Both E (arrayRef a off n) (arrayRef b off n) (fun r r' => x → r = r') := by
  obtain ⟨r, e, _⟩ := arrayRef_ok a off n hn
  obtain ⟨r', e', _⟩ := arrayRef_ok b off n (by rw [← h.len]; exact hn)
  refine .inl ⟨r, r', e, e', ?_⟩
  intro hx
  rw [h.eq hx, e'] at e
  exact (Except.ok.inj e).symm

/-- Two `State`s that agree on everything but the data (and on the data if `x`), both in order. -/
structure SRel (x : Prop) (E E' : Env) (s t : State) : Prop where
  buflen : t.buflen = s.buflen
  le : s.buflen.toNat ≤ 64
  count : t.count = s.count
  ln : t.lastNode = s.lastNode
  hl : t.hashLength = s.hashLength
  hl1 : 1 ≤ s.hashLength.toNat
  hl2 : s.hashLength.toNat ≤ 32
  sup : s.compressFn.Supported E
  sup' : t.compressFn.Supported E'
  h : x → s.h = t.h
  buf : x → s.buf = t.buf

theorem compress_both {E E' : Env} {x : Prop} {f g : CompressFn} (hf : f.Supported E)
    (hg : g.Supported E') {h h' : StateWords} (hh : x → h = h') {m m' : Block} (hm : x → m = m')
    (c : U64) (lb ln : U32) :
    Both E (f.call E h m c lb ln) (g.call E' h' m' c lb ln) (fun r r' => x → r = r') := by
  rw [CompressFn.call_ok hf, CompressFn.call_ok hg]
  exact .inl ⟨_, _, rfl, rfl, fun hx => by rw [hh hx, hm hx]⟩

theorem add_lt {E E' : Env} (e : ERel E E') {w : Nat} (a : BitVec w) (n : Nat)
    (h : a.toNat + n < 2 ^ w) :
    Both E (addChk E a (BitVec.ofNat w n)) (addChk E' a (BitVec.ofNat w n))
      (fun r r' => r = r' ∧ r.toNat = a.toNat + n) := by
  have hn : (BitVec.ofNat w n).toNat = n := by
    rw [BitVec.toNat_ofNat, Nat.mod_eq_of_lt (by omega)]
  rcases addChk_both e a (BitVec.ofNat w n) with ⟨r, r', h1, h2, h3⟩ | ⟨f, _, h1, _⟩
  · refine .inl ⟨r, r', h1, h2, h3, ?_⟩
    unfold addChk at h1
    split at h1
    · cases h1
    · cases h1
      rw [BitVec.toNat_add, hn, Nat.mod_eq_of_lt h]
  · unfold addChk at h1
    rw [hn] at h1
    rw [if_neg (by simp; omega)] at h1
    cases h1

theorem fillBuf_both {E E' : Env} (e : ERel E E') {x : Prop} {s t : State} (r : SRel x E E' s t)
    {a b : List U8} (d : DRel x a b) :
    Both E (s.fillBuf E a) (t.fillBuf E' b) (fun y z =>
      SRel x E E' y.1 z.1 ∧ DRel x y.2 z.2 ∧ y.2.length ≤ a.length) := by
  have hle := r.le
  unfold State.fillBuf
  rw [r.buflen, r.count, usizeSub_ok _ _ hle, ← d.len]
  simp only [bind, Except.bind]
  generalize ht : min (64 - s.buflen.toNat) a.length = n
  refine Both.bind (sliceTo_both d n (by omega)) ?_
  rintro a1 b1 ⟨d1, hl1⟩
  refine Both.bind (copyFromSlice_both r.buf _ _ d1 (by omega) (by omega) (by omega)) ?_
  intro u v huv
  refine Both.bind (add_lt e s.buflen n (by omega)) ?_
  rintro bl _ ⟨rfl, hbl⟩
  refine Both.bind (addChk_both e s.count (BitVec.ofNat 64 n)) ?_
  rintro c _ rfl
  refine Both.bind (sliceFrom_both d n (by omega)) ?_
  rintro a2 b2 ⟨d2, hl2⟩
  refine Both.pure ⟨⟨rfl, ?_, rfl, r.ln, r.hl, r.hl1, r.hl2, r.sup, r.sup', r.h, huv⟩, d2, by
    show a2.length ≤ a.length; omega⟩
  simp only [hbl]
  omega

theorem compressBuffer_both {E E' : Env} (e : ERel E E') {x : Prop} {s t : State}
    (r : SRel x E E' s t) {a b : List U8} (d : DRel x a b) :
    Both E (s.compressBufferIfPossible E a) (t.compressBufferIfPossible E' b) (fun y z =>
      SRel x E E' y.1 z.1 ∧ DRel x y.2 z.2 ∧ y.2.length ≤ a.length) := by
  unfold State.compressBufferIfPossible
  rw [r.buflen]
  split
  · refine Both.bind (fillBuf_both e r d) ?_
    rintro ⟨s1, a1⟩ ⟨t1, b1⟩ ⟨r1, d1, hl⟩
    have r1 : SRel x E E' s1 t1 := r1
    have d1 : DRel x a1 b1 := d1
    have hemp : b1.isEmpty = a1.isEmpty := by
      have := d1.len
      cases a1 <;> cases b1 <;> simp_all
    simp only [hemp]
    split
    · simp only [r1.count]
      refine Both.bind (compress_both r1.sup r1.sup' r1.h r1.buf _ _ _) ?_
      intro h h' hh
      refine Both.pure ⟨⟨rfl, Nat.zero_le _, rfl, r1.ln, r1.hl, r1.hl1, r1.hl2, r1.sup, r1.sup', hh,
        r1.buf⟩, d1, hl⟩
    · exact Both.pure ⟨r1, d1, hl⟩
  · exact Both.pure ⟨r, d, Nat.le_refl _⟩

theorem updateLoop_both {E E' : Env} (e : ERel E E') {x : Prop} (fuel : Nat) {s t : State}
    (r : SRel x E E' s t) {a b : List U8} (d : DRel x a b) (hf : a.length < fuel) :
    Both E (State.updateLoop E fuel s a) (State.updateLoop E' fuel t b) (fun y z =>
      SRel x E E' y.1 z.1 ∧ DRel x y.2 z.2) := by
  induction fuel generalizing s t a b with
  | zero => omega
  | succ fuel ih =>
    unfold State.updateLoop
    rw [← d.len]
    split
    · rename_i hl
      simp only [BLOCKBYTES] at hl ⊢
      rw [r.count]
      refine Both.bind (addChk_both e s.count _) ?_
      rintro c _ rfl
      refine Both.bind (arrayRef_both d 0 64 (by omega)) ?_
      intro m m' hm
      refine Both.bind (compress_both r.sup r.sup' r.h hm _ _ _) ?_
      intro h h' hh
      refine Both.bind (sliceFrom_both d 64 (by omega)) ?_
      rintro a1 b1 ⟨d1, hl1⟩
      exact ih (s := { s with h := h, count := c }) (t := { t with h := h', count := c })
        ⟨r.buflen, r.le, rfl, r.ln, r.hl, r.hl1, r.hl2, r.sup, r.sup', hh, r.buf⟩ d1 (by omega)
    · exact Both.pure ⟨r, d⟩

theorem update_both {E E' : Env} (e : ERel E E') {x : Prop} {s t : State} (r : SRel x E E' s t)
    {a b : List U8} (d : DRel x a b) :
    Both E (s.update E a) (t.update E' b) (fun y z => SRel x E E' y z) := by
  unfold State.update
  refine Both.bind (compressBuffer_both e r d) ?_
  rintro ⟨s1, a1⟩ ⟨t1, b1⟩ ⟨r1, d1, _⟩
  simp only [← d1.len]
  refine Both.bind (updateLoop_both e (a1.length + 1) r1 d1 (by omega)) ?_
  rintro ⟨s2, a2⟩ ⟨t2, b2⟩ ⟨r2, d2⟩
  refine Both.bind (fillBuf_both e r2 d2) ?_
  rintro ⟨s3, a3⟩ ⟨t3, b3⟩ ⟨r3, _⟩
  exact Both.pure r3

theorem fillBuf_hashLength {E : Env} {s y : State} {a b : List U8} (h : s.fillBuf E a = .ok (y, b)) :
    y.hashLength = s.hashLength := by
  unfold State.fillBuf at h
  simp only [bind, Except.bind] at h
  repeat' split at h
  all_goals first | cases h; rfl | cases h

theorem compressBuffer_hashLength {E : Env} {s y : State} {a b : List U8}
    (h : s.compressBufferIfPossible E a = .ok (y, b)) : y.hashLength = s.hashLength := by
  unfold State.compressBufferIfPossible at h
  split at h
  · cases h1 : s.fillBuf E a with
    | error f => rw [h1] at h; cases h
    | ok q =>
      obtain ⟨s1, a1⟩ := q
      rw [h1] at h
      simp only [bind, Except.bind] at h
      rw [← fillBuf_hashLength h1]
      repeat' split at h
      all_goals first | cases h; rfl | cases h
  · cases h; rfl

theorem updateLoop_hashLength {E : Env} (fuel : Nat) {s y : State} {a b : List U8}
    (h : State.updateLoop E fuel s a = .ok (y, b)) : y.hashLength = s.hashLength := by
  induction fuel generalizing s a with
  | zero => cases h
  | succ fuel ih =>
    unfold State.updateLoop at h
    split at h
    · simp only [bind, Except.bind] at h
      repeat' split at h
      all_goals first | cases h; done | (have := ih h; exact this)
    · cases h; rfl

theorem update_hashLength {E : Env} {s y : State} {a : List U8} (h : s.update E a = .ok y) :
    y.hashLength = s.hashLength := by
  unfold State.update at h
  cases h1 : s.compressBufferIfPossible E a with
  | error f => rw [h1] at h; cases h
  | ok q =>
    obtain ⟨s1, a1⟩ := q
    rw [h1] at h
    simp only [bind, Except.bind] at h
    cases h2 : State.updateLoop E (a1.length + 1) s1 a1 with
    | error f => rw [h2] at h; cases h
    | ok q =>
      obtain ⟨s2, a2⟩ := q
      rw [h2] at h
      simp only [] at h
      cases h3 : s2.fillBuf E a2 with
      | error f => rw [h3] at h; cases h
      | ok q =>
        obtain ⟨s3, a3⟩ := q
        rw [h3] at h
        cases h
        rw [fillBuf_hashLength h3, updateLoop_hashLength _ h2, compressBuffer_hashLength h1]

/-- Two hashes of one (legal) length; the same hash if `x`. -/
structure HRel (x : Prop) (h g : Hash) : Prop where
  len : g.len = h.len
  l1 : 1 ≤ h.len.toNat
  l2 : h.len.toNat ≤ 32
  eq : x → h = g

theorem asBytes_both {E : Env} {x : Prop} {h g : Hash} (r : HRel x h g) :
    Both E h.asBytes g.asBytes (fun a b => DRel x a b ∧ a.length = h.len.toNat) := by
  unfold Hash.asBytes
  rw [r.len]
  exact sliceTo_both ⟨by simp, fun hx => by rw [r.eq hx]⟩ _ (by simpa using r.l2)

seal stateWordsToBytes State.zeroTail Portable.compress in
theorem finalize_both {E E' : Env} {x : Prop} {s t : State} (r : SRel x E E' s t) :
    Both E (s.finalize E) (t.finalize E') (fun y z =>
      SRel x E E' y.1 z.1 ∧ HRel x y.2 z.2 ∧ y.2.len = s.hashLength) := by
  unfold State.finalize
  have hz : x → State.zeroTail s.buf s.buflen = State.zeroTail t.buf t.buflen := by
    intro hx
    rw [r.buf hx, r.buflen]
  simp only []
  rw [r.count, r.ln]
  refine Both.bind (compress_both r.sup r.sup' r.h hz _ _ _) ?_
  intro h h' hh
  have r1 : SRel x E E' { s with buf := State.zeroTail s.buf s.buflen }
      { t with buf := State.zeroTail t.buf t.buflen, count := s.count, lastNode := s.lastNode } :=
    ⟨r.buflen, r.le, rfl, rfl, r.hl, r.hl1, r.hl2, r.sup, r.sup', r.h, hz⟩
  have h1 : HRel x { bytes := stateWordsToBytes h, len := s.hashLength }
      { bytes := stateWordsToBytes h', len := t.hashLength } :=
    ⟨r.hl, r.hl1, r.hl2, fun hx => by rw [hh hx, r.hl]⟩
  exact Both.pure ⟨r1, h1, rfl⟩

theorem setLastNode_rel {E E' : Env} {x : Prop} {s t : State} (r : SRel x E E' s t) (b : Bool) :
    SRel x E E' (s.setLastNode b) (t.setLastNode b) :=
  ⟨r.buflen, r.le, r.count, rfl, r.hl, r.hl1, r.hl2, r.sup, r.sup', r.h, r.buf⟩

theorem forcePortable_rel {E E' : Env} {x : Prop} {s t : State} (r : SRel x E E' s t) :
    SRel x E E' s.forcePortable t.forcePortable :=
  ⟨r.buflen, r.le, r.count, r.ln, r.hl, r.hl1, r.hl2, nofun, nofun, r.h, r.buf⟩

theorem debug_rel {E E' : Env} {x : Prop} {s t : State} (r : SRel x E E' s t) :
    t.debug = s.debug := by
  unfold State.debug
  rw [r.count, r.hl, r.ln]

/-- Two `Params` that agree on everything but the contents of key, salt and personalisation (and on
these, too, if `x`). -/
structure PRel (x : Prop) (p q : Params) : Prop where
  hl : q.hashLength = p.hashLength
  hl1 : 1 ≤ p.hashLength.toNat
  hl2 : p.hashLength.toNat ≤ 32
  kl : q.keyLength = p.keyLength
  ln : q.lastNode = p.lastNode
  eq : x → p = q

theorem toState_both {E E' : Env} (e : ERel E E') {x : Prop} {p q : Params} (r : PRel x p q) :
    Both E (p.toState E) (q.toState E') (fun s t => SRel x E E' s t) := by
  unfold Params.toState State.withParams
  have r0 : SRel x E E'
      { h := p.makeWords
        compressFn := (defaultCompressImpl E).compress
        buf := Vector.replicate 64 0
        buflen := 0
        count := 0
        lastNode := p.lastNode
        hashLength := p.hashLength }
      { h := q.makeWords
        compressFn := (defaultCompressImpl E').compress
        buf := Vector.replicate 64 0
        buflen := 0
        count := 0
        lastNode := q.lastNode
        hashLength := q.hashLength } :=
    ⟨rfl, Nat.zero_le _, rfl, r.ln, r.hl, r.hl1, r.hl2, default_supported E e.wf,
      default_supported E' e.wf',
      fun hx => by rw [r.eq hx], fun _ => rfl⟩
  simp only [r.kl]
  split
  · refine Both.bind (copyFromSlice_both (x := x) (fun _ => rfl) 0 32 (a := p.key.toList)
      (b := q.key.toList) ⟨by simp, fun hx => by rw [r.eq hx]⟩ (by decide) (by decide) (by simp)) ?_
    intro u v huv
    exact update_both e r0 ⟨by simp, fun hx => by rw [huv hx]⟩
  · exact Both.pure r0

end Blake2s
