import Verif.Proofs.Unwind
import Verif.Proofs.RelWorld
/-!
# Two runs side by side, with what panics leave behind

As in `Verif/Proofs/Rel.lean`, for the statement-by-statement model: if the two executions panic, they
also leave related objects.
-/

namespace Blake2s

open M (lift get modify lane)

/-- Both executions end normally with `Q`, or both with the same panic and objects related by `S`. -/
def BothU {σ τ α β : Type} (E : Env) (S : σ → τ → Prop) (x : R α × σ) (y : R β × τ)
    (Q : σ → τ → α → β → Prop) : Prop :=
  (∃ a b, x.1 = .ok a ∧ y.1 = .ok b ∧ Q x.2 y.2 a b) ∨
    ∃ f, Panic E f ∧ x.1 = .error f ∧ y.1 = .error f ∧ S x.2 y.2

section

variable {σ τ α β γ δ : Type} {E : Env} {S : σ → τ → Prop}

theorem BothU.pure {s : σ} {t : τ} {a : α} {b : β} {Q : σ → τ → α → β → Prop} (h : Q s t a b) :
    BothU E S ((Pure.pure a : M σ α) s) ((Pure.pure b : M τ β) t) Q := .inl ⟨a, b, rfl, rfl, h⟩

theorem BothU.bind {m : M σ α} {m' : M τ β} {k : α → M σ γ} {k' : β → M τ δ} {s : σ} {t : τ}
    {Q : σ → τ → α → β → Prop} {P : σ → τ → γ → δ → Prop} (h : BothU E S (m s) (m' t) Q)
    (hk : ∀ s' t' a b, Q s' t' a b → BothU E S (k a s') (k' b t') P) :
    BothU E S ((m >>= k) s) ((m' >>= k') t) P := by
  rcases h with ⟨a, b, e, e', h⟩ | ⟨f, hf, e, e', h⟩
  · rw [M.bind_ok (s' := (m s).2) (by rw [← e]), M.bind_ok (s' := (m' t).2) (by rw [← e'])]
    exact hk _ _ _ _ h
  · rw [M.bind_error e, M.bind_error e']
    exact .inr ⟨f, hf, rfl, rfl, h⟩

theorem BothU.lift {r : R α} {r' : R β} {k : α → M σ γ} {k' : β → M τ δ} {s : σ} {t : τ}
    {Q : α → β → Prop} {P : σ → τ → γ → δ → Prop} (h : Both E r r' Q) (hs : S s t)
    (hk : ∀ a b, Q a b → BothU E S (k a s) (k' b t) P) :
    BothU E S ((M.lift r >>= k) s) ((M.lift r' >>= k') t) P := by
  rcases h with ⟨a, b, e, e', h⟩ | ⟨f, hf, e, e'⟩
  · rw [e, e']; exact hk a b h
  · rw [e, e']; exact .inr ⟨f, hf, rfl, rfl, hs⟩

theorem BothU.last {r : R α} {r' : R β} {s : σ} {t : τ} {Q : α → β → Prop}
    {P : σ → τ → α → β → Prop} (h : Both E r r' Q) (hs : S s t) (hk : ∀ a b, Q a b → P s t a b) :
    BothU E S (M.lift r s) (M.lift r' t) P := by
  rcases h with ⟨a, b, e, e', h⟩ | ⟨f, hf, e, e'⟩
  · rw [e, e']; exact .inl ⟨a, b, rfl, rfl, hk a b h⟩
  · rw [e, e']; exact .inr ⟨f, hf, rfl, rfl, hs⟩

theorem BothU.mono {x : R α × σ} {y : R β × τ} {Q P : σ → τ → α → β → Prop}
    (h : BothU E S x y Q) (hp : ∀ s t a b, Q s t a b → P s t a b) : BothU E S x y P := by
  rcases h with ⟨a, b, e, e', h⟩ | h
  · exact .inl ⟨a, b, e, e', hp _ _ _ _ h⟩
  · exact .inr h

end

/-- Working on one of eight. -/
theorem BothU.lane {α β : Type} {E E' : Env} {x : Prop} (i : Fin 8) {m : M State α} {m' : M State β}
    {s t : Vector State 8} {Q : α → β → Prop} (r : SRel8 x E E' s t)
    (h : BothU E (SRel x E E') (m s[i]) (m' t[i]) (fun s t a b => SRel x E E' s t ∧ Q a b)) :
    BothU E (SRel8 x E E') (M.lane i m s) (M.lane i m' t) (fun s t a b => SRel8 x E E' s t ∧ Q a b) := by
  have key : SRel x E E' (m s[i]).2 (m' t[i]).2 →
      SRel8 x E E' (M.lane i m s).2 (M.lane i m' t).2 := by
    intro q j
    show SRel x E E' (s.set i (m s[i]).2)[j] (t.set i (m' t[i]).2)[j]
    simp only [Fin.getElem_fin, Vector.getElem_set]
    split
    · exact q
    · exact r j
  rcases h with ⟨a, b, e, e', h1, h2⟩ | ⟨f, hf, e, e', h⟩
  · exact .inl ⟨a, b, e, e', key h1, h2⟩
  · exact .inr ⟨f, hf, e, e', key h⟩

/-! ## `State` -/

theorem addCountU_both {E E' : Env} (e : ERel E E') {x : Prop} {s t : State} (r : SRel x E E' s t)
    (n : Nat) :
    BothU E (SRel x E E') (State.addCountU E n s) (State.addCountU E' n t)
      (fun s t _ _ => SRel x E E' s t ∧ True) := by
  unfold State.addCountU
  rw [M.get_bind, M.get_bind, r.count]
  refine BothU.lift (addChk_both e s.count _) r ?_
  rintro c _ rfl
  exact .inl ⟨(), (), rfl, rfl, ⟨r.buflen, r.le, rfl, r.ln, r.hl, r.hl1, r.hl2, r.sup, r.sup', r.h,
    r.buf⟩, trivial⟩

theorem fillBufU_both {E E' : Env} (e : ERel E E') {x : Prop} {s t : State} (r : SRel x E E' s t)
    {a b : List U8} (d : DRel x a b) :
    BothU E (SRel x E E') (State.fillBufU E a s) (State.fillBufU E' b t) (fun s t a b =>
      SRel x E E' s t ∧ DRel x a b) := by
  have hle := r.le
  unfold State.fillBufU
  simp only [M.get_bind]
  rw [r.buflen, usizeSub_ok _ _ hle, M.lift_bind_ok, M.lift_bind_ok, ← d.len]
  have hn : min (BLOCKBYTES - s.buflen.toNat) a.length ≤ 64 - s.buflen.toNat := Nat.min_le_left _ _
  have hn' : min (BLOCKBYTES - s.buflen.toNat) a.length ≤ a.length := Nat.min_le_right _ _
  generalize min (BLOCKBYTES - s.buflen.toNat) a.length = n at hn hn'
  refine BothU.lift (sliceTo_both d n hn') r ?_
  rintro a1 b1 ⟨d1, hl1⟩
  rw [M.get_bind, M.get_bind, r.buflen]
  refine BothU.lift (copyFromSlice_both r.buf _ _ d1 (by omega) (by omega) (by omega)) r ?_
  intro u v huv
  rw [M.modify_bind, M.modify_bind, M.get_bind, M.get_bind]
  have r1 : SRel x E E' { s with buf := u } { t with buf := v, buflen := s.buflen } :=
    ⟨rfl, r.le, r.count, r.ln, r.hl, r.hl1, r.hl2, r.sup, r.sup', r.h, huv⟩
  show BothU E _ ((M.lift (addChk E s.buflen _) >>= _) _) ((M.lift (addChk E' t.buflen _) >>= _) _) _
  rw [r.buflen]
  refine BothU.lift (add_lt e s.buflen n (by omega)) r1 ?_
  rintro bl _ ⟨rfl, hbl⟩
  rw [M.modify_bind, M.modify_bind]
  have r2 : SRel x E E' { s with buf := u, buflen := bl } { t with buf := v, buflen := bl } :=
    ⟨rfl, (by show bl.toNat ≤ 64; omega), r.count, r.ln, r.hl, r.hl1, r.hl2, r.sup, r.sup', r.h, huv⟩
  refine BothU.bind (addCountU_both e r2 n) ?_
  rintro s' t' _ _ ⟨r3, -⟩
  exact BothU.last (sliceFrom_both d n hn') r3 fun _ _ h => ⟨r3, h.1⟩

theorem compressBufferU_both {E E' : Env} (e : ERel E E') {x : Prop} {s t : State}
    (r : SRel x E E' s t) {a b : List U8} (d : DRel x a b) :
    BothU E (SRel x E E') (State.compressBufferIfPossibleU E a s)
      (State.compressBufferIfPossibleU E' b t) (fun s t a b => SRel x E E' s t ∧ DRel x a b) := by
  unfold State.compressBufferIfPossibleU
  rw [M.get_bind, M.get_bind, r.buflen]
  split
  · refine BothU.bind (fillBufU_both e r d) ?_
    rintro s1 t1 a1 b1 ⟨r1, d1⟩
    rw [Sp.isEmpty_rel d1]
    split
    · rw [M.get_bind, M.get_bind, r1.count]
      refine BothU.lift (compress_both r1.sup r1.sup' r1.h r1.buf _ _ _) r1 ?_
      intro h h' hh
      exact .inl ⟨a1, b1, rfl, rfl, ⟨rfl, Nat.zero_le _, r1.count, r1.ln, r1.hl, r1.hl1, r1.hl2, r1.sup,
        r1.sup', hh, r1.buf⟩, d1⟩
    · exact BothU.pure ⟨r1, d1⟩
  · exact BothU.pure ⟨r, d⟩

theorem updateLoopU_both {E E' : Env} (e : ERel E E') {x : Prop} (fuel : Nat) {s t : State}
    (r : SRel x E E' s t) {a b : List U8} (d : DRel x a b) (hf : a.length < fuel) :
    BothU E (SRel x E E') (State.updateLoopU E fuel a s) (State.updateLoopU E' fuel b t)
      (fun s t a b => SRel x E E' s t ∧ DRel x a b) := by
  induction fuel generalizing s t a b with
  | zero => omega
  | succ fuel ih =>
    unfold State.updateLoopU
    rw [← d.len]
    split
    · rename_i hl
      have hl : 64 < a.length := hl
      refine BothU.bind (addCountU_both e r BLOCKBYTES) ?_
      rintro s1 t1 _ _ ⟨r1, -⟩
      refine BothU.lift (arrayRef_both d 0 BLOCKBYTES (by simp only [BLOCKBYTES]; omega)) r1 ?_
      intro m m' hm
      rw [M.get_bind, M.get_bind, r1.count]
      refine BothU.lift (compress_both r1.sup r1.sup' r1.h hm _ _ _) r1 ?_
      intro h h' hh
      rw [M.modify_bind, M.modify_bind]
      have r2 : SRel x E E' { s1 with h := h } { t1 with h := h' } :=
        ⟨r1.buflen, r1.le, r1.count, r1.ln, r1.hl, r1.hl1, r1.hl2, r1.sup, r1.sup', hh, r1.buf⟩
      refine BothU.lift (sliceFrom_both d BLOCKBYTES (by simp only [BLOCKBYTES]; omega)) r2 ?_
      rintro a1 b1 ⟨d1, hl1⟩
      exact ih r2 d1 (by simp only [BLOCKBYTES] at hl1; omega)
    · exact BothU.pure ⟨r, d⟩

theorem updateU_both {E E' : Env} (e : ERel E E') {x : Prop} {s t : State} (r : SRel x E E' s t)
    {a b : List U8} (d : DRel x a b) :
    BothU E (SRel x E E') (State.updateU E a s) (State.updateU E' b t)
      (fun s t _ _ => SRel x E E' s t ∧ True) := by
  unfold State.updateU
  refine BothU.bind (compressBufferU_both e r d) ?_
  rintro s1 t1 a1 b1 ⟨r1, d1⟩
  rw [← d1.len]
  refine BothU.bind (updateLoopU_both e (a1.length + 1) r1 d1 (by omega)) ?_
  rintro s2 t2 a2 b2 ⟨r2, d2⟩
  refine BothU.bind (fillBufU_both e r2 d2) ?_
  rintro s3 t3 a3 b3 ⟨r3, -⟩
  exact BothU.pure ⟨r3, trivial⟩

seal stateWordsToBytes State.zeroTail Portable.compress in
theorem finalizeU_both {E E' : Env} {x : Prop} {s t : State} (r : SRel x E E' s t) :
    BothU E (SRel x E E') (State.finalizeU E s) (State.finalizeU E' t) (fun s t a b =>
      SRel x E E' s t ∧ HRel x a b) := by
  unfold State.finalizeU
  rw [M.modify_bind, M.modify_bind, M.get_bind, M.get_bind]
  have hz : x → State.zeroTail s.buf s.buflen = State.zeroTail t.buf t.buflen := by
    intro hx
    rw [r.buf hx, r.buflen]
  have r1 : SRel x E E' { s with buf := State.zeroTail s.buf s.buflen }
      { t with buf := State.zeroTail t.buf t.buflen } :=
    ⟨r.buflen, r.le, r.count, r.ln, r.hl, r.hl1, r.hl2, r.sup, r.sup', r.h, hz⟩
  revert r1
  generalize ({ s with buf := State.zeroTail s.buf s.buflen } : State) = s1
  generalize ({ t with buf := State.zeroTail t.buf t.buflen } : State) = t1
  intro r1
  rw [r1.count, r1.ln]
  refine BothU.lift (compress_both r1.sup r1.sup' r1.h r1.buf _ _ _) r1 ?_
  intro h h' hh
  exact BothU.pure ⟨r1, r1.hl, r1.hl1, r1.hl2, fun hx => by rw [hh hx, r1.hl]⟩

/-! ## Eight at a time -/

theorem SRel.withH {x : Prop} {E E' : Env} {s t : State} (r : SRel x E E' s t)
    {h h' : StateWords} (hh : x → h = h') : SRel x E E' { s with h := h } { t with h := h' } :=
  ⟨r.buflen, r.le, r.count, r.ln, r.hl, r.hl1, r.hl2, r.sup, r.sup', hh, r.buf⟩

seal Portable.compress Portable.compress8 Avx2.compress8 in
theorem update8LoopU_both {E E' : Env} (e : ERel E E') {x : Prop} {f g : Compress8Fn}
    (hf : f.Supported E) (hg : g.Supported E') (fuel : Nat) {s t : Vector State 8}
    (r : SRel8 x E E' s t) {a b : Vector (List U8) 8} (d : DRel8 x a b)
    (hfuel : a[0].length < fuel) :
    BothU E (SRel8 x E E') (update8LoopU E f fuel a s) (update8LoopU E' g fuel b t) (fun s t a b =>
      SRel8 x E E' s t ∧ DRel8 x a b) := by
  induction fuel generalizing s t a b with
  | zero => omega
  | succ fuel ih =>
    have d0 : DRel x a[0] b[0] := d 0
    have d1 : DRel x a[1] b[1] := d 1
    have d2 : DRel x a[2] b[2] := d 2
    have d3 : DRel x a[3] b[3] := d 3
    have d4 : DRel x a[4] b[4] := d 4
    have d5 : DRel x a[5] b[5] := d 5
    have d6 : DRel x a[6] b[6] := d 6
    have d7 : DRel x a[7] b[7] := d 7
    unfold update8LoopU
    rw [← d0.len, ← d1.len, ← d2.len, ← d3.len, ← d4.len, ← d5.len, ← d6.len, ← d7.len]
    split
    · rename_i hl
      simp only [BLOCKBYTES, Bool.and_eq_true, decide_eq_true_eq] at hl
      obtain ⟨⟨⟨⟨⟨⟨⟨l0, l1⟩, l2⟩, l3⟩, l4⟩, l5⟩, l6⟩, l7⟩ := hl
      simp only [BLOCKBYTES]
      refine BothU.bind (BothU.lane 0 r (addCountU_both e (r 0) 64)) ?_
      clear r; rintro s t _ _ ⟨r, -⟩
      refine BothU.bind (BothU.lane 1 r (addCountU_both e (r 1) 64)) ?_
      clear r; rintro s t _ _ ⟨r, -⟩
      refine BothU.bind (BothU.lane 2 r (addCountU_both e (r 2) 64)) ?_
      clear r; rintro s t _ _ ⟨r, -⟩
      refine BothU.bind (BothU.lane 3 r (addCountU_both e (r 3) 64)) ?_
      clear r; rintro s t _ _ ⟨r, -⟩
      refine BothU.bind (BothU.lane 4 r (addCountU_both e (r 4) 64)) ?_
      clear r; rintro s t _ _ ⟨r, -⟩
      refine BothU.bind (BothU.lane 5 r (addCountU_both e (r 5) 64)) ?_
      clear r; rintro s t _ _ ⟨r, -⟩
      refine BothU.bind (BothU.lane 6 r (addCountU_both e (r 6) 64)) ?_
      clear r; rintro s t _ _ ⟨r, -⟩
      refine BothU.bind (BothU.lane 7 r (addCountU_both e (r 7) 64)) ?_
      clear r; rintro s t _ _ ⟨r, -⟩
      refine BothU.lift (arrayRef_both d0 0 64 (by omega)) r ?_; intro m0 n0 hm0
      refine BothU.lift (arrayRef_both d1 0 64 (by omega)) r ?_; intro m1 n1 hm1
      refine BothU.lift (arrayRef_both d2 0 64 (by omega)) r ?_; intro m2 n2 hm2
      refine BothU.lift (arrayRef_both d3 0 64 (by omega)) r ?_; intro m3 n3 hm3
      refine BothU.lift (arrayRef_both d4 0 64 (by omega)) r ?_; intro m4 n4 hm4
      refine BothU.lift (arrayRef_both d5 0 64 (by omega)) r ?_; intro m5 n5 hm5
      refine BothU.lift (arrayRef_both d6 0 64 (by omega)) r ?_; intro m6 n6 hm6
      refine BothU.lift (arrayRef_both d7 0 64 (by omega)) r ?_; intro m7 n7 hm7
      rw [M.get_bind, M.get_bind]
      have r0 : SRel x E E' s[0] t[0] := r 0
      have r1 : SRel x E E' s[1] t[1] := r 1
      have r2 : SRel x E E' s[2] t[2] := r 2
      have r3 : SRel x E E' s[3] t[3] := r 3
      have r4 : SRel x E E' s[4] t[4] := r 4
      have r5 : SRel x E E' s[5] t[5] := r 5
      have r6 : SRel x E E' s[6] t[6] := r 6
      have r7 : SRel x E E' s[7] t[7] := r 7
      rw [r0.count, r1.count, r2.count, r3.count, r4.count, r5.count, r6.count, r7.count]
      refine BothU.lift (compress8_both (x := x) hf hg (fun hx => by
        rw [r0.h hx, r1.h hx, r2.h hx, r3.h hx, r4.h hx, r5.h hx, r6.h hx, r7.h hx]) (fun hx => by
        rw [hm0 hx, hm1 hx, hm2 hx, hm3 hx, hm4 hx, hm5 hx, hm6 hx, hm7 hx]) _ _ _) r ?_
      intro h h' hh
      rw [M.modify_bind, M.modify_bind]
      have q : SRel8 x E E' _ _ := SRel8.mk (r0.withH (h := h[0]) (h' := h'[0]) ?_)
        (r1.withH (h := h[1]) (h' := h'[1]) ?_) (r2.withH (h := h[2]) (h' := h'[2]) ?_) (r3.withH (h := h[3]) (h' := h'[3]) ?_)
        (r4.withH (h := h[4]) (h' := h'[4]) ?_) (r5.withH (h := h[5]) (h' := h'[5]) ?_) (r6.withH (h := h[6]) (h' := h'[6]) ?_) (r7.withH (h := h[7]) (h' := h'[7]) ?_)
      any_goals exact fun hx => by rw [hh hx]
      refine BothU.lift (sliceFrom_both d0 64 (by omega)) q ?_; rintro a0 b0 ⟨e0, k0⟩
      refine BothU.lift (sliceFrom_both d1 64 (by omega)) q ?_; rintro a1 b1 ⟨e1, k1⟩
      refine BothU.lift (sliceFrom_both d2 64 (by omega)) q ?_; rintro a2 b2 ⟨e2, k2⟩
      refine BothU.lift (sliceFrom_both d3 64 (by omega)) q ?_; rintro a3 b3 ⟨e3, k3⟩
      refine BothU.lift (sliceFrom_both d4 64 (by omega)) q ?_; rintro a4 b4 ⟨e4, k4⟩
      refine BothU.lift (sliceFrom_both d5 64 (by omega)) q ?_; rintro a5 b5 ⟨e5, k5⟩
      refine BothU.lift (sliceFrom_both d6 64 (by omega)) q ?_; rintro a6 b6 ⟨e6, k6⟩
      refine BothU.lift (sliceFrom_both d7 64 (by omega)) q ?_; rintro a7 b7 ⟨e7, k7⟩
      refine ih q (DRel8.mk e0 e1 e2 e3 e4 e5 e6 e7) ?_
      show a0.length < fuel
      omega
    · exact BothU.pure ⟨r, d⟩

theorem update8U_both {E E' : Env} (e : ERel E E') {x : Prop} {s t : Vector State 8}
    (r : SRel8 x E E' s t) {a b : Vector (List U8) 8} (d : DRel8 x a b) :
    BothU E (SRel8 x E E') (update8U E a s) (update8U E' b t)
      (fun s t _ _ => SRel8 x E E' s t ∧ True) := by
  unfold update8U
  refine BothU.bind (BothU.lane 0 r (compressBufferU_both e (r 0) (d 0))) ?_
  clear r; rintro s t a0 b0 ⟨r, d0⟩
  refine BothU.bind (BothU.lane 1 r (compressBufferU_both e (r 1) (d 1))) ?_
  clear r; rintro s t a1 b1 ⟨r, d1⟩
  refine BothU.bind (BothU.lane 2 r (compressBufferU_both e (r 2) (d 2))) ?_
  clear r; rintro s t a2 b2 ⟨r, d2⟩
  refine BothU.bind (BothU.lane 3 r (compressBufferU_both e (r 3) (d 3))) ?_
  clear r; rintro s t a3 b3 ⟨r, d3⟩
  refine BothU.bind (BothU.lane 4 r (compressBufferU_both e (r 4) (d 4))) ?_
  clear r; rintro s t a4 b4 ⟨r, d4⟩
  refine BothU.bind (BothU.lane 5 r (compressBufferU_both e (r 5) (d 5))) ?_
  clear r; rintro s t a5 b5 ⟨r, d5⟩
  refine BothU.bind (BothU.lane 6 r (compressBufferU_both e (r 6) (d 6))) ?_
  clear r; rintro s t a6 b6 ⟨r, d6⟩
  refine BothU.bind (BothU.lane 7 r (compressBufferU_both e (r 7) (d 7))) ?_
  clear r; rintro s t a7 b7 ⟨r, d7⟩
  rw [← d0.len]
  refine BothU.bind (update8LoopU_both e (default_supported8 E) (default_supported8 E') (a0.length + 1)
    r (DRel8.mk d0 d1 d2 d3 d4 d5 d6 d7) (by show a0.length < a0.length + 1; omega)) ?_
  clear r; rintro s t a' b' ⟨r, d'⟩
  refine BothU.bind (BothU.lane 0 r (updateU_both e (r 0) (d' 0))) ?_
  clear r; rintro s t _ _ ⟨r, -⟩
  refine BothU.bind (BothU.lane 1 r (updateU_both e (r 1) (d' 1))) ?_
  clear r; rintro s t _ _ ⟨r, -⟩
  refine BothU.bind (BothU.lane 2 r (updateU_both e (r 2) (d' 2))) ?_
  clear r; rintro s t _ _ ⟨r, -⟩
  refine BothU.bind (BothU.lane 3 r (updateU_both e (r 3) (d' 3))) ?_
  clear r; rintro s t _ _ ⟨r, -⟩
  refine BothU.bind (BothU.lane 4 r (updateU_both e (r 4) (d' 4))) ?_
  clear r; rintro s t _ _ ⟨r, -⟩
  refine BothU.bind (BothU.lane 5 r (updateU_both e (r 5) (d' 5))) ?_
  clear r; rintro s t _ _ ⟨r, -⟩
  refine BothU.bind (BothU.lane 6 r (updateU_both e (r 6) (d' 6))) ?_
  clear r; rintro s t _ _ ⟨r, -⟩
  exact BothU.lane 7 r (updateU_both e (r 7) (d' 7))

theorem finalize8U_both {E E' : Env} {x : Prop} {s t : Vector State 8} (r : SRel8 x E E' s t) :
    BothU E (SRel8 x E E') (finalize8U E s) (finalize8U E' t) (fun s t a b =>
      SRel8 x E E' s t ∧ ∀ i : Fin 8, HRel x a[i] b[i]) := by
  have h1 := finalize8_agree E s
  have h2 := finalize8_agree E' t
  obtain ⟨s', h, es, hs⟩ := finalize8_ok (E := E) s (fun i => (r i).sup)
  obtain ⟨t', g, et, ht⟩ := finalize8_ok (E := E') t (fun i => (r i).sup')
  rcases finalize8_both r with ⟨y, z, ey, ez, q, q2⟩ | ⟨f, _, ey, _⟩
  · rw [ey] at h1
    rw [ez] at h2
    have h1 : finalize8U E s = (.ok y.2, y.1) := h1
    have h2 : finalize8U E' t = (.ok z.2, z.1) := h2
    rw [h1, h2]
    exact .inl ⟨_, _, rfl, rfl, q, fun i => (q2 i).1⟩
  · rw [es] at ey; cases ey

/-! ## BLAKE2sp -/

namespace Sp

theorem fillBufU_both {E E' : Env} (e : ERel E E') {x : Prop} {s t : State} (r : SpRel x E E' s t)
    {a b : List U8} (d : DRel x a b) :
    BothU E (SpRel x E E') (State.fillBufU E a s) (State.fillBufU E' b t) (fun s' t' a' b' =>
      SpRel x E E' s' t' ∧ DRel x a' b' ∧ (a' ≠ [] → s'.buflen.toNat = 1024)) := by
  have hle := r.le
  unfold State.fillBufU
  simp only [M.get_bind]
  rw [r.buflen, usizeSub_ok _ _ hle, M.lift_bind_ok, M.lift_bind_ok, ← d.len]
  have hmin : min (1024 - s.buflen.toNat) a.length = 1024 - s.buflen.toNat ∨
    min (1024 - s.buflen.toNat) a.length = a.length := by omega
  have hn : min (1024 - s.buflen.toNat) a.length ≤ 1024 - s.buflen.toNat := Nat.min_le_left _ _
  have hn' : min (1024 - s.buflen.toNat) a.length ≤ a.length := Nat.min_le_right _ _
  generalize min (1024 - s.buflen.toNat) a.length = n at hn hn' hmin
  refine BothU.lift (sliceTo_both d n hn') r ?_
  rintro a1 b1 ⟨d1, hl1⟩
  rw [M.get_bind, M.get_bind, r.buflen]
  refine BothU.lift (copyFromSlice_both r.buf _ _ d1 (by omega) (by omega) (by omega)) r ?_
  intro u v huv
  rw [M.modify_bind, M.modify_bind, M.get_bind, M.get_bind]
  have r1 : SpRel x E E' { s with buf := u } { t with buf := v, buflen := s.buflen } :=
    ⟨r.leaves, r.root, rfl, r.le, r.sup, r.sup', huv⟩
  show BothU E _ ((M.lift (addChk E s.buflen _) >>= _) _) ((M.lift (addChk E' t.buflen _) >>= _) _) _
  rw [r.buflen]
  refine BothU.lift (add_lt e s.buflen n (by omega)) r1 ?_
  rintro bl _ ⟨rfl, hbl⟩
  rw [M.modify_bind, M.modify_bind]
  have r2 : SpRel x E E' { s with buf := u, buflen := bl } { t with buf := v, buflen := bl } :=
    ⟨r.leaves, r.root, rfl, (by show bl.toNat ≤ 1024; omega), r.sup, r.sup', huv⟩
  refine BothU.last (sliceFrom_both d n hn') r2 ?_
  rintro a2 b2 ⟨d2, hl2⟩
  refine ⟨r2, d2, fun hne => ?_⟩
  have := List.length_pos_iff.mpr hne
  show bl.toNat = 1024
  omega

seal Portable.compress Portable.compress8 Avx2.compress8 in
theorem compress8U_both {E E' : Env} (e : ERel E E') {x : Prop} {f g : Compress8Fn}
    (hf : f.Supported E) (hg : g.Supported E') {a b : Vector U8 512} (hab : x → a = b)
    {s t : Vector Blake2s.State 8} (r : SRel8 x E E' s t) :
    BothU E (SRel8 x E E') (State.compress8U E a f s) (State.compress8U E' b g t)
      (fun s t _ _ => SRel8 x E E' s t) := by
  unfold State.compress8U
  rw [M.get_bind, M.get_bind]
  have r0 : SRel x E E' s[0] t[0] := r 0
  have r1 : SRel x E E' s[1] t[1] := r 1
  have r2 : SRel x E E' s[2] t[2] := r 2
  have r3 : SRel x E E' s[3] t[3] := r 3
  have r4 : SRel x E E' s[4] t[4] := r 4
  have r5 : SRel x E E' s[5] t[5] := r 5
  have r6 : SRel x E E' s[6] t[6] := r 6
  have r7 : SRel x E E' s[7] t[7] := r 7
  rw [r0.buflen, r1.buflen, r2.buflen, r3.buflen, r4.buflen, r5.buflen, r6.buflen, r7.buflen]
  rw [r0.count, r1.count, r2.count, r3.count, r4.count, r5.count, r6.count, r7.count]
  refine BothU.lift (debugAssert_both e _) r ?_; rintro _ _ -
  refine BothU.lift (debugAssert_both e _) r ?_; rintro _ _ -
  refine BothU.lift (debugAssert_both e _) r ?_; rintro _ _ -
  refine BothU.lift (debugAssert_both e _) r ?_; rintro _ _ -
  refine BothU.lift (debugAssert_both e _) r ?_; rintro _ _ -
  refine BothU.lift (debugAssert_both e _) r ?_; rintro _ _ -
  refine BothU.lift (debugAssert_both e _) r ?_; rintro _ _ -
  refine BothU.lift (debugAssert_both e _) r ?_; rintro _ _ -
  refine BothU.lift (debugAssert_both e _) r ?_; rintro _ _ -
  refine BothU.lift (debugAssert_both e _) r ?_; rintro _ _ -
  refine BothU.lift (debugAssert_both e _) r ?_; rintro _ _ -
  refine BothU.lift (debugAssert_both e _) r ?_; rintro _ _ -
  refine BothU.lift (debugAssert_both e _) r ?_; rintro _ _ -
  refine BothU.lift (debugAssert_both e _) r ?_; rintro _ _ -
  refine BothU.lift (debugAssert_both e _) r ?_; rintro _ _ -
  clear r0 r1 r2 r3 r4 r5 r6 r7
  refine BothU.bind (BothU.lane 0 r (addCountU_both e (r 0) BLOCKBYTES)) ?_
  clear r; rintro s t _ _ ⟨r, -⟩
  refine BothU.bind (BothU.lane 1 r (addCountU_both e (r 1) BLOCKBYTES)) ?_
  clear r; rintro s t _ _ ⟨r, -⟩
  refine BothU.bind (BothU.lane 2 r (addCountU_both e (r 2) BLOCKBYTES)) ?_
  clear r; rintro s t _ _ ⟨r, -⟩
  refine BothU.bind (BothU.lane 3 r (addCountU_both e (r 3) BLOCKBYTES)) ?_
  clear r; rintro s t _ _ ⟨r, -⟩
  refine BothU.bind (BothU.lane 4 r (addCountU_both e (r 4) BLOCKBYTES)) ?_
  clear r; rintro s t _ _ ⟨r, -⟩
  refine BothU.bind (BothU.lane 5 r (addCountU_both e (r 5) BLOCKBYTES)) ?_
  clear r; rintro s t _ _ ⟨r, -⟩
  refine BothU.bind (BothU.lane 6 r (addCountU_both e (r 6) BLOCKBYTES)) ?_
  clear r; rintro s t _ _ ⟨r, -⟩
  refine BothU.bind (BothU.lane 7 r (addCountU_both e (r 7) BLOCKBYTES)) ?_
  clear r; rintro s t _ _ ⟨r, -⟩
  rw [M.get_bind, M.get_bind]
  have r0 : SRel x E E' s[0] t[0] := r 0
  have r1 : SRel x E E' s[1] t[1] := r 1
  have r2 : SRel x E E' s[2] t[2] := r 2
  have r3 : SRel x E E' s[3] t[3] := r 3
  have r4 : SRel x E E' s[4] t[4] := r 4
  have r5 : SRel x E E' s[5] t[5] := r 5
  have r6 : SRel x E E' s[6] t[6] := r 6
  have r7 : SRel x E E' s[7] t[7] := r 7
  rw [r0.count, r1.count, r2.count, r3.count, r4.count, r5.count, r6.count, r7.count]
  refine BothU.lift (compress8_both (x := x) hf hg (fun hx => by
    rw [r0.h hx, r1.h hx, r2.h hx, r3.h hx, r4.h hx, r5.h hx, r6.h hx, r7.h hx]) (fun hx => by
    rw [hab hx]) _ _ _) r ?_
  intro h h' hh
  have q : SRel8 x E E' _ _ := SRel8.mk (r0.withH (h := h[0]) (h' := h'[0]) ?_)
    (r1.withH (h := h[1]) (h' := h'[1]) ?_) (r2.withH (h := h[2]) (h' := h'[2]) ?_) (r3.withH (h := h[3]) (h' := h'[3]) ?_)
    (r4.withH (h := h[4]) (h' := h'[4]) ?_) (r5.withH (h := h[5]) (h' := h'[5]) ?_) (r6.withH (h := h[6]) (h' := h'[6]) ?_) (r7.withH (h := h[7]) (h' := h'[7]) ?_)
  any_goals exact fun hx => by rw [hh hx]
  exact .inl ⟨(), (), rfl, rfl, q⟩

theorem leavesU_both {E E' : Env} {x : Prop} {m m' : M (Vector Blake2s.State 8) Unit} {s t : State}
    (r : SpRel x E E' s t)
    (h : BothU E (SRel8 x E E') (m s.leaves) (m' t.leaves) (fun s t _ _ => SRel8 x E E' s t)) :
    BothU E (SpRel x E E') (State.leavesU m s) (State.leavesU m' t) (fun s' t' _ _ =>
      SpRel x E E' s' t' ∧ s'.buflen = s.buflen) := by
  rcases h with ⟨a, b, e, e', h⟩ | ⟨f, hf, e, e', h⟩
  · exact .inl ⟨a, b, e, e', ⟨h, r.root, r.buflen, r.le, r.sup, r.sup', r.buf⟩, rfl⟩
  · exact .inr ⟨f, hf, e, e', h, r.root, r.buflen, r.le, r.sup, r.sup', r.buf⟩

theorem updateLoopU_both {E E' : Env} (e : ERel E E') {x : Prop} (fuel : Nat) {s t : State}
    (r : SpRel x E E' s t) {a b : List U8} (d : DRel x a b) (hfuel : a.length < fuel) :
    BothU E (SpRel x E E') (State.updateLoopU E fuel a s) (State.updateLoopU E' fuel b t)
      (fun s t a b => SpRel x E E' s t ∧ DRel x a b) := by
  induction fuel generalizing s t a b with
  | zero => omega
  | succ fuel ih =>
    unfold State.updateLoopU
    rw [← d.len]
    split
    · rename_i hl
      simp only [BLOCKBYTES] at hl ⊢
      refine BothU.lift (arrayRef_both d 0 512 (by omega)) r ?_
      intro m m' hm
      rw [M.get_bind, M.get_bind]
      refine BothU.bind (leavesU_both r (compress8U_both e r.sup r.sup' hm r.leaves)) ?_
      rintro s1 t1 _ _ ⟨r1, -⟩
      refine BothU.lift (sliceFrom_both d (8 * 64) (by omega)) r1 ?_
      rintro a1 b1 ⟨d1, hl1⟩
      exact ih r1 d1 (by omega)
    · exact BothU.pure ⟨r, d⟩

theorem updateBufferedU_both {E E' : Env} (e : ERel E E') {x : Prop} {s t : State}
    (r : SpRel x E E' s t) {a b : List U8} (d : DRel x a b) :
    BothU E (SpRel x E E') (State.updateBufferedU E a s) (State.updateBufferedU E' b t)
      (fun s t a b => SpRel x E E' s t ∧ DRel x a b) := by
  unfold State.updateBufferedU
  rw [M.get_bind, M.get_bind, r.buflen]
  split
  · refine BothU.bind (fillBufU_both e r d) ?_
    rintro s1 t1 a1 b1 ⟨r1, d1, hfull⟩
    rw [isEmpty_rel d1]
    split
    · rename_i hne
      have hb := hfull (by
        intro h
        rw [h] at hne
        simp at hne)
      rw [M.get_bind, M.get_bind]
      refine BothU.bind (leavesU_both r1 (compress8U_both e r1.sup r1.sup'
        (fun hx => by rw [r1.buf hx]) r1.leaves)) ?_
      rintro s2 t2 _ _ ⟨r2, hb2⟩
      rw [← hb2] at hb
      rw [M.get_bind, M.get_bind, r2.buflen]
      refine BothU.lift (Q := fun y z => y = z ∧ y.toNat = 512) ?_ r2 ?_
      · unfold subChk
        have h8 : (8 * BitVec.ofNat 16 BLOCKBYTES : U16).toNat = 512 := by decide
        rw [h8, hb]
        simp only [show (decide (1024 < 512)) = false from rfl, Bool.and_false, Bool.false_eq_true,
          if_false]
        refine Both.pure ⟨rfl, ?_⟩
        rw [BitVec.toNat_sub, h8, hb]
      · rintro bl _ ⟨rfl, hbl⟩
        rw [M.modify_bind, M.modify_bind, ← d1.len]
        have r3 : SpRel x E E' { s2 with buflen := bl } { t2 with buflen := bl } :=
          ⟨r2.leaves, r2.root, rfl, (by show bl.toNat ≤ 1024; omega), r2.sup, r2.sup', r2.buf⟩
        split
        · rw [M.get_bind, M.get_bind]
          refine BothU.bind (leavesU_both r3 (compress8U_both e r3.sup r3.sup'
            (fun hx => by rw [r3.buf hx]) r3.leaves)) ?_
          rintro s4 t4 _ _ ⟨r4, -⟩
          exact .inl ⟨a1, b1, rfl, rfl, ⟨r4.leaves, r4.root, rfl, Nat.zero_le _, r4.sup, r4.sup',
            r4.buf⟩, d1⟩
        · rw [M.get_bind, M.get_bind]
          refine BothU.lift (sliceTo_both (x := x) (a := (subArray s2.buf 512 512).toList)
            (b := (subArray t2.buf 512 512).toList)
            ⟨by rw [Vector.length_toList, Vector.length_toList], fun hx => by rw [r2.buf hx]⟩ bl.toNat
            (by rw [Vector.length_toList]; omega)) r3 ?_
          rintro a2 b2 ⟨d2, hl2⟩
          refine BothU.lift (copyFromSlice_both (x := x) (fun hx => by rw [r2.buf hx]) 0 bl.toNat d2
            (by omega) (by omega) (by omega)) r3 ?_
          intro u v huv
          rw [M.modify_bind, M.modify_bind]
          refine BothU.pure ⟨⟨r2.leaves, r2.root, rfl, r3.le, r2.sup, r2.sup', ?_⟩, d1⟩
          intro hx
          show u ++ subArray s2.buf 512 512 = v ++ subArray t2.buf 512 512
          rw [huv hx, r2.buf hx]
    · exact BothU.pure ⟨r1, d1⟩
  · exact BothU.pure ⟨r, d⟩

theorem updateU_both {E E' : Env} (e : ERel E E') {x : Prop} {s t : State} (r : SpRel x E E' s t)
    {a b : List U8} (d : DRel x a b) :
    BothU E (SpRel x E E') (State.updateU E a s) (State.updateU E' b t)
      (fun s t _ _ => SpRel x E E' s t) := by
  unfold State.updateU
  refine BothU.bind (updateBufferedU_both e r d) ?_
  rintro s1 t1 a1 b1 ⟨r1, d1⟩
  rw [← d1.len]
  refine BothU.bind (updateLoopU_both e (a1.length + 1) r1 d1 (by omega)) ?_
  rintro s2 t2 a2 b2 ⟨r2, d2⟩
  refine BothU.bind (fillBufU_both e r2 d2) ?_
  rintro s3 t3 a3 b3 ⟨r3, d3, -⟩
  rw [← d3.len]
  exact BothU.last (debugAssert_both e _) r3 fun _ _ _ => r3

end Sp

end Blake2s
