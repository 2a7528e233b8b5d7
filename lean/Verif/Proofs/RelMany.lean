import Verif.Proofs.Rel
import Verif.Proofs.SpParams
import Verif.Proofs.ManyLemmas
/-!
# Two runs side by side: eight-way functions and BLAKE2sp
-/

namespace Blake2s

theorem compress8_both {E E' : Env} {x : Prop} {f g : Compress8Fn} (hf : f.Supported E)
    (hg : g.Supported E') {h h' : Vector StateWords 8} (hh : x → h = h') {m m' : Vector Block 8}
    (hm : x → m = m') (c : Vector U64 8) (lb ln : Vector U32 8) :
    Both E (f.call E h m c lb ln) (g.call E' h' m' c lb ln) (fun r r' => x → r = r') := by
  obtain ⟨r, e, hr⟩ := Compress8Fn.call_ok hf h m c lb ln
  obtain ⟨r', e', hr'⟩ := Compress8Fn.call_ok hg h' m' c lb ln
  refine .inl ⟨r, r', e, e', ?_⟩
  intro hx
  apply Vector.ext
  intro i hi
  rw [hr i hi, hr' i hi, hh hx, hm hx]

/-- Eight pairs of related states. -/
def SRel8 (x : Prop) (E E' : Env) (s t : Vector State 8) : Prop := ∀ i : Fin 8, SRel x E E' s[i] t[i]

theorem SRel8.mk {x : Prop} {E E' : Env} {s0 s1 s2 s3 s4 s5 s6 s7 t0 t1 t2 t3 t4 t5 t6 t7 : State}
    (r0 : SRel x E E' s0 t0) (r1 : SRel x E E' s1 t1) (r2 : SRel x E E' s2 t2)
    (r3 : SRel x E E' s3 t3) (r4 : SRel x E E' s4 t4) (r5 : SRel x E E' s5 t5)
    (r6 : SRel x E E' s6 t6) (r7 : SRel x E E' s7 t7) :
    SRel8 x E E' #v[s0, s1, s2, s3, s4, s5, s6, s7] #v[t0, t1, t2, t3, t4, t5, t6, t7] := by
  apply fin8_cases
  intro i hi
  match i, hi with
  | 0, _ => exact r0
  | 1, _ => exact r1
  | 2, _ => exact r2
  | 3, _ => exact r3
  | 4, _ => exact r4
  | 5, _ => exact r5
  | 6, _ => exact r6
  | 7, _ => exact r7

/-- Eight pairs of related inputs. -/
def DRel8 (x : Prop) (a b : Vector (List U8) 8) : Prop := ∀ i : Fin 8, DRel x a[i] b[i]

theorem DRel8.mk {x : Prop} {s0 s1 s2 s3 s4 s5 s6 s7 t0 t1 t2 t3 t4 t5 t6 t7 : List U8}
    (r0 : DRel x s0 t0) (r1 : DRel x s1 t1) (r2 : DRel x s2 t2)
    (r3 : DRel x s3 t3) (r4 : DRel x s4 t4) (r5 : DRel x s5 t5)
    (r6 : DRel x s6 t6) (r7 : DRel x s7 t7) :
    DRel8 x #v[s0, s1, s2, s3, s4, s5, s6, s7] #v[t0, t1, t2, t3, t4, t5, t6, t7] := by
  apply fin8_cases
  intro i hi
  match i, hi with
  | 0, _ => exact r0
  | 1, _ => exact r1
  | 2, _ => exact r2
  | 3, _ => exact r3
  | 4, _ => exact r4
  | 5, _ => exact r5
  | 6, _ => exact r6
  | 7, _ => exact r7

/-- A state after one block has been compressed into it. -/
theorem SRel.next {x : Prop} {E E' : Env} {s t : State} (r : SRel x E E' s t) (c : U64)
    {h h' : StateWords} (hh : x → h = h') :
    SRel x E E' { s with count := c, h := h } { t with count := c, h := h' } :=
  ⟨r.buflen, r.le, rfl, r.ln, r.hl, r.hl1, r.hl2, r.sup, r.sup', hh, r.buf⟩

seal Portable.compress Portable.compress8 Avx2.compress8 in
theorem update8Loop_both {E E' : Env} (e : ERel E E') {x : Prop} {f g : Compress8Fn}
    (hf : f.Supported E) (hg : g.Supported E') (fuel : Nat) {s t : Vector State 8}
    (r : SRel8 x E E' s t) {a b : Vector (List U8) 8} (d : DRel8 x a b)
    (hfuel : a[0].length < fuel) :
    Both E (update8Loop E f fuel s a) (update8Loop E' g fuel t b) (fun y z =>
      SRel8 x E E' y.1 z.1 ∧ DRel8 x y.2 z.2) := by
  induction fuel generalizing s t a b with
  | zero => omega
  | succ fuel ih =>
    have r0 : SRel x E E' s[0] t[0] := r 0
    have r1 : SRel x E E' s[1] t[1] := r 1
    have r2 : SRel x E E' s[2] t[2] := r 2
    have r3 : SRel x E E' s[3] t[3] := r 3
    have r4 : SRel x E E' s[4] t[4] := r 4
    have r5 : SRel x E E' s[5] t[5] := r 5
    have r6 : SRel x E E' s[6] t[6] := r 6
    have r7 : SRel x E E' s[7] t[7] := r 7
    have d0 : DRel x a[0] b[0] := d 0
    have d1 : DRel x a[1] b[1] := d 1
    have d2 : DRel x a[2] b[2] := d 2
    have d3 : DRel x a[3] b[3] := d 3
    have d4 : DRel x a[4] b[4] := d 4
    have d5 : DRel x a[5] b[5] := d 5
    have d6 : DRel x a[6] b[6] := d 6
    have d7 : DRel x a[7] b[7] := d 7
    unfold update8Loop
    rw [← d0.len, ← d1.len, ← d2.len, ← d3.len, ← d4.len, ← d5.len, ← d6.len, ← d7.len]
    split
    · rename_i hl
      simp only [BLOCKBYTES, Bool.and_eq_true, decide_eq_true_eq] at hl
      obtain ⟨⟨⟨⟨⟨⟨⟨l0, l1⟩, l2⟩, l3⟩, l4⟩, l5⟩, l6⟩, l7⟩ := hl
      simp only [BLOCKBYTES]
      rw [r0.count, r1.count, r2.count, r3.count, r4.count, r5.count, r6.count, r7.count]
      refine Both.bind (addChk_both e s[0].count _) ?_; rintro c0 _ rfl
      refine Both.bind (addChk_both e s[1].count _) ?_; rintro c1 _ rfl
      refine Both.bind (addChk_both e s[2].count _) ?_; rintro c2 _ rfl
      refine Both.bind (addChk_both e s[3].count _) ?_; rintro c3 _ rfl
      refine Both.bind (addChk_both e s[4].count _) ?_; rintro c4 _ rfl
      refine Both.bind (addChk_both e s[5].count _) ?_; rintro c5 _ rfl
      refine Both.bind (addChk_both e s[6].count _) ?_; rintro c6 _ rfl
      refine Both.bind (addChk_both e s[7].count _) ?_; rintro c7 _ rfl
      refine Both.bind (arrayRef_both d0 0 64 (by omega)) ?_; intro m0 n0 hm0
      refine Both.bind (arrayRef_both d1 0 64 (by omega)) ?_; intro m1 n1 hm1
      refine Both.bind (arrayRef_both d2 0 64 (by omega)) ?_; intro m2 n2 hm2
      refine Both.bind (arrayRef_both d3 0 64 (by omega)) ?_; intro m3 n3 hm3
      refine Both.bind (arrayRef_both d4 0 64 (by omega)) ?_; intro m4 n4 hm4
      refine Both.bind (arrayRef_both d5 0 64 (by omega)) ?_; intro m5 n5 hm5
      refine Both.bind (arrayRef_both d6 0 64 (by omega)) ?_; intro m6 n6 hm6
      refine Both.bind (arrayRef_both d7 0 64 (by omega)) ?_; intro m7 n7 hm7
      refine Both.bind (compress8_both (x := x) hf hg (fun hx => by
        rw [r0.h hx, r1.h hx, r2.h hx, r3.h hx, r4.h hx, r5.h hx, r6.h hx, r7.h hx]) (fun hx => by
        rw [hm0 hx, hm1 hx, hm2 hx, hm3 hx, hm4 hx, hm5 hx, hm6 hx, hm7 hx]) _ _ _) ?_
      intro h h' hh
      refine Both.bind (sliceFrom_both d0 64 (by omega)) ?_; rintro a0 b0 ⟨e0, k0⟩
      refine Both.bind (sliceFrom_both d1 64 (by omega)) ?_; rintro a1 b1 ⟨e1, k1⟩
      refine Both.bind (sliceFrom_both d2 64 (by omega)) ?_; rintro a2 b2 ⟨e2, k2⟩
      refine Both.bind (sliceFrom_both d3 64 (by omega)) ?_; rintro a3 b3 ⟨e3, k3⟩
      refine Both.bind (sliceFrom_both d4 64 (by omega)) ?_; rintro a4 b4 ⟨e4, k4⟩
      refine Both.bind (sliceFrom_both d5 64 (by omega)) ?_; rintro a5 b5 ⟨e5, k5⟩
      refine Both.bind (sliceFrom_both d6 64 (by omega)) ?_; rintro a6 b6 ⟨e6, k6⟩
      refine Both.bind (sliceFrom_both d7 64 (by omega)) ?_; rintro a7 b7 ⟨e7, k7⟩
      refine ih (SRel8.mk (r0.next c0 ?_) (r1.next c1 ?_) (r2.next c2 ?_) (r3.next c3 ?_)
        (r4.next c4 ?_) (r5.next c5 ?_) (r6.next c6 ?_) (r7.next c7 ?_))
        (DRel8.mk e0 e1 e2 e3 e4 e5 e6 e7) ?_
      any_goals exact fun hx => by rw [hh hx]
      show a0.length < fuel
      omega
    · exact Both.pure ⟨r, d⟩

seal Portable.compress Portable.compress8 Avx2.compress8 in
theorem update8_both {E E' : Env} (e : ERel E E') {x : Prop} {s t : Vector State 8}
    (r : SRel8 x E E' s t) {a b : Vector (List U8) 8} (d : DRel8 x a b) :
    Both E (update8 E s a) (update8 E' t b) (fun y z => SRel8 x E E' y z) := by
  unfold update8
  refine Both.bind (compressBuffer_both e (show SRel x E E' s[0] t[0] from r 0) (show DRel x a[0] b[0] from d 0)) ?_
  rintro ⟨s0, a0⟩ ⟨t0, b0⟩ ⟨r0, d0, -⟩
  refine Both.bind (compressBuffer_both e (show SRel x E E' s[1] t[1] from r 1) (show DRel x a[1] b[1] from d 1)) ?_
  rintro ⟨s1, a1⟩ ⟨t1, b1⟩ ⟨r1, d1, -⟩
  refine Both.bind (compressBuffer_both e (show SRel x E E' s[2] t[2] from r 2) (show DRel x a[2] b[2] from d 2)) ?_
  rintro ⟨s2, a2⟩ ⟨t2, b2⟩ ⟨r2, d2, -⟩
  refine Both.bind (compressBuffer_both e (show SRel x E E' s[3] t[3] from r 3) (show DRel x a[3] b[3] from d 3)) ?_
  rintro ⟨s3, a3⟩ ⟨t3, b3⟩ ⟨r3, d3, -⟩
  refine Both.bind (compressBuffer_both e (show SRel x E E' s[4] t[4] from r 4) (show DRel x a[4] b[4] from d 4)) ?_
  rintro ⟨s4, a4⟩ ⟨t4, b4⟩ ⟨r4, d4, -⟩
  refine Both.bind (compressBuffer_both e (show SRel x E E' s[5] t[5] from r 5) (show DRel x a[5] b[5] from d 5)) ?_
  rintro ⟨s5, a5⟩ ⟨t5, b5⟩ ⟨r5, d5, -⟩
  refine Both.bind (compressBuffer_both e (show SRel x E E' s[6] t[6] from r 6) (show DRel x a[6] b[6] from d 6)) ?_
  rintro ⟨s6, a6⟩ ⟨t6, b6⟩ ⟨r6, d6, -⟩
  refine Both.bind (compressBuffer_both e (show SRel x E E' s[7] t[7] from r 7) (show DRel x a[7] b[7] from d 7)) ?_
  rintro ⟨s7, a7⟩ ⟨t7, b7⟩ ⟨r7, d7, -⟩
  have d0 : DRel x a0 b0 := d0
  simp only [← d0.len]
  refine Both.bind (update8Loop_both e (default_supported8 E) (default_supported8 E') (a0.length + 1)
    (SRel8.mk r0 r1 r2 r3 r4 r5 r6 r7) (DRel8.mk d0 d1 d2 d3 d4 d5 d6 d7) (by
      show a0.length < a0.length + 1; omega)) ?_
  rintro ⟨s', a'⟩ ⟨t', b'⟩ ⟨r', d'⟩
  refine Both.bind (update_both e (show SRel x E E' s'[0] t'[0] from r' 0) (show DRel x a'[0] b'[0] from d' 0)) ?_
  intro u0 v0 q0
  refine Both.bind (update_both e (show SRel x E E' s'[1] t'[1] from r' 1) (show DRel x a'[1] b'[1] from d' 1)) ?_
  intro u1 v1 q1
  refine Both.bind (update_both e (show SRel x E E' s'[2] t'[2] from r' 2) (show DRel x a'[2] b'[2] from d' 2)) ?_
  intro u2 v2 q2
  refine Both.bind (update_both e (show SRel x E E' s'[3] t'[3] from r' 3) (show DRel x a'[3] b'[3] from d' 3)) ?_
  intro u3 v3 q3
  refine Both.bind (update_both e (show SRel x E E' s'[4] t'[4] from r' 4) (show DRel x a'[4] b'[4] from d' 4)) ?_
  intro u4 v4 q4
  refine Both.bind (update_both e (show SRel x E E' s'[5] t'[5] from r' 5) (show DRel x a'[5] b'[5] from d' 5)) ?_
  intro u5 v5 q5
  refine Both.bind (update_both e (show SRel x E E' s'[6] t'[6] from r' 6) (show DRel x a'[6] b'[6] from d' 6)) ?_
  intro u6 v6 q6
  refine Both.bind (update_both e (show SRel x E E' s'[7] t'[7] from r' 7) (show DRel x a'[7] b'[7] from d' 7)) ?_
  intro u7 v7 q7
  exact Both.pure (SRel8.mk q0 q1 q2 q3 q4 q5 q6 q7)

theorem finalize8_both {E E' : Env} {x : Prop} {s t : Vector State 8} (r : SRel8 x E E' s t) :
    Both E (finalize8 E s) (finalize8 E' t) (fun y z =>
      SRel8 x E E' y.1 z.1 ∧ ∀ i : Fin 8, HRel x y.2[i] z.2[i] ∧ y.2[i].len = s[i].hashLength) := by
  obtain ⟨s', h, es, hs⟩ := finalize8_ok (E := E) s (fun i => (r i).sup)
  obtain ⟨t', g, et, ht⟩ := finalize8_ok (E := E') t (fun i => (r i).sup')
  refine .inl ⟨_, _, es, et, ?_⟩
  have key : ∀ i : Fin 8, SRel x E E' s'[i] t'[i] ∧ HRel x h[i] g[i] ∧ h[i].len = s[i].hashLength := by
    intro i
    rcases finalize_both (r i) with ⟨y, z, ey, ez, q⟩ | ⟨f, _, ey, _⟩
    · rw [hs i] at ey
      rw [ht i] at ez
      cases ey
      cases ez
      exact q
    · rw [hs i] at ey; cases ey
  exact ⟨fun i => (key i).1, fun i => (key i).2⟩

namespace Sp

theorem isEmpty_rel {x : Prop} {a b : List U8} (d : DRel x a b) : b.isEmpty = a.isEmpty := by
  have := d.len
  cases a <;> cases b <;> simp_all

/-- Two `blake2sp::Params` that agree on everything but the contents of the key. -/
structure PRel (x : Prop) (p q : Params) : Prop where
  valid : p.Valid
  hl : q.hashLength = p.hashLength
  kl : q.keyLength = p.keyLength
  eq : x → p = q

/-- Two `blake2sp::State`s that agree on everything but the data. -/
structure SpRel (x : Prop) (E E' : Env) (s t : State) : Prop where
  leaves : SRel8 x E E' s.leaves t.leaves
  root : SRel x E E' s.root t.root
  buflen : t.buflen = s.buflen
  le : s.buflen.toNat ≤ 1024
  sup : s.compress8Fn.Supported E
  sup' : t.compress8Fn.Supported E'
  buf : x → s.buf = t.buf

theorem nodeP_rel {x : Prop} {p q : Params} (r : PRel x p q) (off : U64) (depth : U8) (last : Bool) :
    Blake2s.PRel x (nodeP p off depth last) (nodeP q off depth last) :=
  ⟨r.hl, r.valid.hl.1, r.valid.hl.2, r.kl, rfl, fun hx => by rw [r.eq hx]⟩

theorem leafState_both {E E' : Env} (e : ERel E E') {x : Prop} {p q : Params} (r : PRel x p q)
    (i : U64) (hi : i.toNat < 2 ^ 48) :
    Both E (State.leafState E (nodeP p 0 0 false) i) (State.leafState E' (nodeP q 0 0 false) i)
      (fun s t => SRel x E E' s t) := by
  unfold State.leafState
  rw [setNodeOffset_eq, if_pos hi, setNodeOffset_eq, if_pos hi]
  simp only [bind, Except.bind]
  refine Both.bind (r := Blake2s.Params.toState E (nodeP p i 0 (decide (i = 7))))
    (r' := Blake2s.Params.toState E' (nodeP q i 0 (decide (i = 7))))
    (toState_both e (nodeP_rel r i 0 (decide (i = 7)))) ?_
  intro s t q
  exact Both.pure ⟨q.buflen, q.le, q.count, q.ln, rfl, (by decide : 1 ≤ (BitVec.ofNat 8 OUTBYTES : U8).toNat), (by decide : (BitVec.ofNat 8 OUTBYTES : U8).toNat ≤ 32), q.sup, q.sup', q.h, q.buf⟩

theorem PRel.valid' {x : Prop} {p q : Params} (r : PRel x p q) : q.Valid :=
  ⟨by rw [r.hl]; exact r.valid.hl, by rw [r.kl]; exact r.valid.kl⟩

theorem toState_both {E E' : Env} (e : ERel E E') {x : Prop} {p q : Params} (r : PRel x p q) :
    Both E (p.toState E) (q.toState E') (fun s t => SpRel x E E' s t) := by
  unfold Params.toState State.withParams
  rw [baseParams_ok p r.valid, baseParams_ok q r.valid']
  simp only [bind, Except.bind]
  rw [setNodeOffset_eq, if_pos (by decide), setNodeOffset_eq, if_pos (by decide)]
  simp only []
  refine Both.bind (r := Blake2s.Params.toState E (nodeP p 0 1 true))
    (r' := Blake2s.Params.toState E' (nodeP q 0 1 true))
    (Blake2s.toState_both e (nodeP_rel r 0 1 true)) ?_
  intro s t qr
  refine Both.bind (leafState_both e r 0 (by decide)) ?_; intro s0 t0 q0
  refine Both.bind (leafState_both e r 1 (by decide)) ?_; intro s1 t1 q1
  refine Both.bind (leafState_both e r 2 (by decide)) ?_; intro s2 t2 q2
  refine Both.bind (leafState_both e r 3 (by decide)) ?_; intro s3 t3 q3
  refine Both.bind (leafState_both e r 4 (by decide)) ?_; intro s4 t4 q4
  refine Both.bind (leafState_both e r 5 (by decide)) ?_; intro s5 t5 q5
  refine Both.bind (leafState_both e r 6 (by decide)) ?_; intro s6 t6 q6
  refine Both.bind (leafState_both e r 7 (by decide)) ?_; intro s7 t7 q7
  have root : SRel x E E' { s with buflen := 0, count := 0 } { t with buflen := 0, count := 0 } :=
    ⟨rfl, Nat.zero_le _, rfl, qr.ln, qr.hl, qr.hl1, qr.hl2, qr.sup, qr.sup', qr.h, qr.buf⟩
  exact Both.pure ⟨SRel8.mk q0 q1 q2 q3 q4 q5 q6 q7, root, rfl, Nat.zero_le _, default_supported8 E,
    default_supported8 E', fun _ => rfl⟩

theorem fillBuf_both {E E' : Env} (e : ERel E E') {x : Prop} {s t : State} (r : SpRel x E E' s t)
    {a b : List U8} (d : DRel x a b) :
    Both E (s.fillBuf E a) (t.fillBuf E' b) (fun y z =>
      SpRel x E E' y.1 z.1 ∧ DRel x y.2 z.2 ∧
        (y.2 ≠ [] → y.1.buflen.toNat = 1024) ∧ y.2.length = a.length - (1024 - s.buflen.toNat)) := by
  have hle := r.le
  unfold State.fillBuf
  rw [r.buflen, usizeSub_ok _ _ hle, ← d.len]
  simp only [bind, Except.bind]
  generalize ht : min (1024 - s.buflen.toNat) a.length = n
  refine Both.bind (sliceTo_both d n (by omega)) ?_
  rintro a1 b1 ⟨d1, hl1⟩
  refine Both.bind (copyFromSlice_both r.buf _ _ d1 (by omega) (by omega) (by omega)) ?_
  intro u v huv
  refine Both.bind (add_lt e s.buflen n (by omega)) ?_
  rintro bl _ ⟨rfl, hbl⟩
  refine Both.bind (sliceFrom_both d n (by omega)) ?_
  rintro a2 b2 ⟨d2, hl2⟩
  refine Both.pure ⟨⟨r.leaves, r.root, rfl, ?_, r.sup, r.sup', huv⟩, d2, ?_, ?_⟩
  · show bl.toNat ≤ 1024
    omega
  · intro hne
    have : 0 < a2.length := List.length_pos_iff.mpr hne
    show bl.toNat = 1024
    omega
  · show a2.length = _
    omega

seal Portable.compress Portable.compress8 Avx2.compress8 in
theorem spCompress8_both {E E' : Env} (e : ERel E E') {x : Prop} {f g : Compress8Fn}
    (hf : f.Supported E) (hg : g.Supported E') {a b : Vector U8 512} (hab : x → a = b)
    {s t : Vector Blake2s.State 8} (r : SRel8 x E E' s t) :
    Both E (State.compress8 E a s f) (State.compress8 E' b t g)
      (fun y z => SRel8 x E E' y z) := by
  have r0 : SRel x E E' s[0] t[0] := r 0
  have r1 : SRel x E E' s[1] t[1] := r 1
  have r2 : SRel x E E' s[2] t[2] := r 2
  have r3 : SRel x E E' s[3] t[3] := r 3
  have r4 : SRel x E E' s[4] t[4] := r 4
  have r5 : SRel x E E' s[5] t[5] := r 5
  have r6 : SRel x E E' s[6] t[6] := r 6
  have r7 : SRel x E E' s[7] t[7] := r 7
  unfold State.compress8
  rw [r0.buflen, r1.buflen, r2.buflen, r3.buflen, r4.buflen, r5.buflen, r6.buflen, r7.buflen]
  rw [r0.count, r1.count, r2.count, r3.count, r4.count, r5.count, r6.count, r7.count]
  refine Both.bind (debugAssert_both e _) ?_; rintro _ _ -
  refine Both.bind (debugAssert_both e _) ?_; rintro _ _ -
  refine Both.bind (debugAssert_both e _) ?_; rintro _ _ -
  refine Both.bind (debugAssert_both e _) ?_; rintro _ _ -
  refine Both.bind (debugAssert_both e _) ?_; rintro _ _ -
  refine Both.bind (debugAssert_both e _) ?_; rintro _ _ -
  refine Both.bind (debugAssert_both e _) ?_; rintro _ _ -
  refine Both.bind (debugAssert_both e _) ?_; rintro _ _ -
  refine Both.bind (debugAssert_both e _) ?_; rintro _ _ -
  refine Both.bind (debugAssert_both e _) ?_; rintro _ _ -
  refine Both.bind (debugAssert_both e _) ?_; rintro _ _ -
  refine Both.bind (debugAssert_both e _) ?_; rintro _ _ -
  refine Both.bind (debugAssert_both e _) ?_; rintro _ _ -
  refine Both.bind (debugAssert_both e _) ?_; rintro _ _ -
  refine Both.bind (debugAssert_both e _) ?_; rintro _ _ -
  refine Both.bind (addChk_both e s[0].count _) ?_; rintro c0 _ rfl
  refine Both.bind (addChk_both e s[1].count _) ?_; rintro c1 _ rfl
  refine Both.bind (addChk_both e s[2].count _) ?_; rintro c2 _ rfl
  refine Both.bind (addChk_both e s[3].count _) ?_; rintro c3 _ rfl
  refine Both.bind (addChk_both e s[4].count _) ?_; rintro c4 _ rfl
  refine Both.bind (addChk_both e s[5].count _) ?_; rintro c5 _ rfl
  refine Both.bind (addChk_both e s[6].count _) ?_; rintro c6 _ rfl
  refine Both.bind (addChk_both e s[7].count _) ?_; rintro c7 _ rfl
  refine Both.bind (compress8_both (x := x) hf hg (fun hx => by
    rw [r0.h hx, r1.h hx, r2.h hx, r3.h hx, r4.h hx, r5.h hx, r6.h hx, r7.h hx]) (fun hx => by
    rw [hab hx]) _ _ _) ?_
  intro h h' hh
  refine Both.pure (SRel8.mk (r0.next c0 ?_) (r1.next c1 ?_) (r2.next c2 ?_) (r3.next c3 ?_)
    (r4.next c4 ?_) (r5.next c5 ?_) (r6.next c6 ?_) (r7.next c7 ?_))
  all_goals exact fun hx => by rw [hh hx]

theorem spUpdateLoop_both {E E' : Env} (e : ERel E E') {x : Prop} {f g : Compress8Fn}
    (hf : f.Supported E) (hg : g.Supported E') (fuel : Nat) {s t : Vector Blake2s.State 8}
    (r : SRel8 x E E' s t) {a b : List U8} (d : DRel x a b) (hfuel : a.length < fuel) :
    Both E (State.updateLoop E f fuel s a) (State.updateLoop E' g fuel t b) (fun y z =>
      SRel8 x E E' y.1 z.1 ∧ DRel x y.2 z.2 ∧ y.2.length ≤ 960 ∧ (a.length ≤ 960 → y.2 = a)) := by
  induction fuel generalizing s t a b with
  | zero => omega
  | succ fuel ih =>
    unfold State.updateLoop
    rw [← d.len]
    split
    · rename_i hl
      simp only [BLOCKBYTES] at hl ⊢
      refine Both.bind (arrayRef_both d 0 512 (by omega)) ?_
      intro m m' hm
      refine Both.bind (spCompress8_both e hf hg hm r) ?_
      intro s1 t1 r1
      refine Both.bind (sliceFrom_both d (8 * 64) (by omega)) ?_
      rintro a1 b1 ⟨d1, hl1⟩
      refine (ih r1 d1 (by omega)).mono ?_
      rintro y z ⟨h1, h2, h3, -⟩
      exact ⟨h1, h2, h3, by omega⟩
    · rename_i hl
      simp only [BLOCKBYTES] at hl
      exact Both.pure ⟨r, d, (by omega : a.length ≤ 960), fun _ => rfl⟩

theorem updateBuffered_both {E E' : Env} (e : ERel E E') {x : Prop} {s t : State}
    (r : SpRel x E E' s t) {a b : List U8} (d : DRel x a b) :
    Both E (s.updateBuffered E a) (t.updateBuffered E' b) (fun y z =>
      SpRel x E E' y.1 z.1 ∧ DRel x y.2 z.2 ∧
        (y.1.buflen.toNat = 0 ∨ y.1.buflen.toNat + y.2.length ≤ 1024)) := by
  unfold State.updateBuffered
  rw [r.buflen]
  split
  · refine Both.bind (fillBuf_both e r d) ?_
    rintro ⟨s1, a1⟩ ⟨t1, b1⟩ ⟨r1, d1, hfull, hlen⟩
    have r1 : SpRel x E E' s1 t1 := r1
    have d1 : DRel x a1 b1 := d1
    have hfull : a1 ≠ [] → s1.buflen.toNat = 1024 := hfull
    have hlen : a1.length = a.length - (1024 - s.buflen.toNat) := hlen
    have hemp : b1.isEmpty = a1.isEmpty := isEmpty_rel d1
    simp only [hemp]
    split
    · rename_i hne
      have hne' : a1 ≠ [] := by
        intro h
        rw [h] at hne
        simp at hne
      have hb := hfull hne'
      refine Both.bind (spCompress8_both e r1.sup r1.sup' (fun hx => by rw [r1.buf hx]) r1.leaves) ?_
      intro s2 t2 r2
      rw [r1.buflen]
      refine Both.bind (Q := fun y z => y = z ∧ y.toNat = 512) ?_ ?_
      · unfold subChk
        have h8 : (8 * BitVec.ofNat 16 BLOCKBYTES : U16).toNat = 512 := by decide
        rw [h8, hb]
        simp only [show (decide (1024 < 512)) = false from rfl, Bool.and_false, Bool.false_eq_true,
          if_false]
        refine Both.pure ⟨rfl, ?_⟩
        rw [BitVec.toNat_sub, h8, hb]
      · rintro bl _ ⟨rfl, hbl⟩
        simp only [← d1.len]
        split
        · refine Both.bind (spCompress8_both e r1.sup r1.sup' (fun hx => by rw [r1.buf hx]) r2) ?_
          intro s3 t3 r3
          exact Both.pure ⟨⟨r3, r1.root, rfl, Nat.zero_le _, r1.sup, r1.sup', r1.buf⟩, d1, .inl rfl⟩
        · rename_i hle
          simp only [BLOCKBYTES] at hle
          refine Both.bind (sliceTo_both (x := x) (a := (subArray s1.buf 512 512).toList)
            (b := (subArray t1.buf 512 512).toList) ⟨by simp, fun hx => by rw [r1.buf hx]⟩ bl.toNat
            (by simp; omega)) ?_
          rintro a2 b2 ⟨d2, hl2⟩
          refine Both.bind (copyFromSlice_both (x := x) (fun hx => by rw [r1.buf hx]) 0 bl.toNat d2
            (by omega) (by omega) (by omega)) ?_
          intro u v huv
          refine Both.pure ⟨⟨r2, r1.root, rfl, ?_, r1.sup, r1.sup', ?_⟩, d1, .inr ?_⟩
          · show bl.toNat ≤ 1024
            omega
          · intro hx
            show u ++ _ = v ++ _
            rw [huv hx, r1.buf hx]
          · show bl.toNat + a1.length ≤ 1024
            omega
    · rename_i hne
      have he : a1 = [] := by
        cases a1 with
        | nil => rfl
        | cons _ _ => simp at hne
      refine Both.pure ⟨r1, d1, .inr ?_⟩
      have := r1.le
      rw [he]
      simpa using this
  · exact Both.pure ⟨r, d, .inl (show s.buflen.toNat = 0 by omega)⟩

theorem update_both {E E' : Env} (e : ERel E E') {x : Prop} {s t : State} (r : SpRel x E E' s t)
    {a b : List U8} (d : DRel x a b) :
    Both E (s.update E a) (t.update E' b) (fun y z => SpRel x E E' y z) := by
  unfold State.update
  refine Both.bind (updateBuffered_both e r d) ?_
  rintro ⟨s1, a1⟩ ⟨t1, b1⟩ ⟨r1, d1, hb⟩
  have r1 : SpRel x E E' s1 t1 := r1
  have d1 : DRel x a1 b1 := d1
  simp only [← d1.len]
  refine Both.bind (spUpdateLoop_both e r1.sup r1.sup' (a1.length + 1) r1.leaves d1 (by omega)) ?_
  rintro ⟨s2, a2⟩ ⟨t2, b2⟩ ⟨r2, d2, hl2, hsame⟩
  have r3 : SpRel x E E' { s1 with leaves := s2 } { t1 with leaves := t2 } :=
    ⟨r2, r1.root, r1.buflen, r1.le, r1.sup, r1.sup', r1.buf⟩
  refine Both.bind (fillBuf_both e r3 d2) ?_
  rintro ⟨s4, a4⟩ ⟨t4, b4⟩ ⟨r4, d4, -, hl4⟩
  have d4 : DRel x a4 b4 := d4
  simp only [← d4.len]
  refine Both.bind (debugAssert_both e _) ?_
  rintro _ _ -
  exact Both.pure r4

theorem updateChunk_both {E E' : Env} (e : ERel E E') {x : Prop} {s t : Blake2s.State}
    (r : SRel x E E' s t) {a b : Vector U8 1024} (hab : x → a = b) (k : Fin 16) (n : Nat) :
    Both E (State.updateChunk E s a k n) (State.updateChunk E' t b k n)
      (fun y z => SRel x E E' y z) := by
  unfold State.updateChunk
  simp only []
  refine Both.bind (sliceTo_both (x := x) ⟨by simp, fun hx => by rw [hab hx]⟩ _ (by
    simp only [BLOCKBYTES, Vector.length_toList]; omega)) ?_
  rintro a1 b1 ⟨d1, -⟩
  exact Blake2s.update_both e r d1

/-- `update` keeps the hash length. -/
theorem update_root {E E' : Env} (e : ERel E E') {x : Prop} {s t : Blake2s.State}
    (r : SRel x E E' s t) {a b : List U8} (d : DRel x a b) :
    Both E (s.update E a) (t.update E' b) (fun y z =>
      SRel x E E' y z ∧ y.hashLength = s.hashLength) := by
  rcases Blake2s.update_both e r d with ⟨y, z, h1, h2, q⟩ | h
  · exact .inl ⟨y, z, h1, h2, q, update_hashLength h1⟩
  · exact .inr h

theorem finalize_both {E E' : Env} (e : ERel E E') {x : Prop} {s t : State} (r : SpRel x E E' s t) :
    Both E (s.finalize E) (t.finalize E') (fun y z =>
      y.1 = s ∧ z.1 = t ∧ HRel x y.2 z.2 ∧ y.2.len = s.root.hashLength) := by
  unfold State.finalize
  rw [r.buflen]
  simp only []
  refine Both.bind (updateChunk_both e (show SRel x E E' s.leaves[0] t.leaves[0] from r.leaves 0) r.buf _ _) ?_
  intro u0 v0 q0
  refine Both.bind (updateChunk_both e (show SRel x E E' s.leaves[1] t.leaves[1] from r.leaves 1) r.buf _ _) ?_
  intro u1 v1 q1
  refine Both.bind (updateChunk_both e (show SRel x E E' s.leaves[2] t.leaves[2] from r.leaves 2) r.buf _ _) ?_
  intro u2 v2 q2
  refine Both.bind (updateChunk_both e (show SRel x E E' s.leaves[3] t.leaves[3] from r.leaves 3) r.buf _ _) ?_
  intro u3 v3 q3
  refine Both.bind (updateChunk_both e (show SRel x E E' s.leaves[4] t.leaves[4] from r.leaves 4) r.buf _ _) ?_
  intro u4 v4 q4
  refine Both.bind (updateChunk_both e (show SRel x E E' s.leaves[5] t.leaves[5] from r.leaves 5) r.buf _ _) ?_
  intro u5 v5 q5
  refine Both.bind (updateChunk_both e (show SRel x E E' s.leaves[6] t.leaves[6] from r.leaves 6) r.buf _ _) ?_
  intro u6 v6 q6
  refine Both.bind (updateChunk_both e (show SRel x E E' s.leaves[7] t.leaves[7] from r.leaves 7) r.buf _ _) ?_
  intro u7 v7 q7
  refine Both.bind (updateChunk_both e q0 r.buf _ _) ?_
  intro x0 y0 p0
  refine Both.bind (updateChunk_both e q1 r.buf _ _) ?_
  intro x1 y1 p1
  refine Both.bind (updateChunk_both e q2 r.buf _ _) ?_
  intro x2 y2 p2
  refine Both.bind (updateChunk_both e q3 r.buf _ _) ?_
  intro x3 y3 p3
  refine Both.bind (updateChunk_both e q4 r.buf _ _) ?_
  intro x4 y4 p4
  refine Both.bind (updateChunk_both e q5 r.buf _ _) ?_
  intro x5 y5 p5
  refine Both.bind (updateChunk_both e q6 r.buf _ _) ?_
  intro x6 y6 p6
  refine Both.bind (updateChunk_both e q7 r.buf _ _) ?_
  intro x7 y7 p7
  refine Both.mono (Q := fun y z =>
    y.1 = s ∧ z.1 = t ∧ HRel x y.2 z.2 ∧ y.2.len = s.root.hashLength) ?_ (fun _ _ h => h)
  refine Both.bind (Blake2s.finalize_both p0) ?_; rintro ⟨_, h0⟩ ⟨_, g0⟩ ⟨-, hr0, -⟩
  refine Both.bind (asBytes_both hr0) ?_; rintro a0 b0 ⟨d0, -⟩
  refine Both.bind (update_root e r.root d0) ?_; rintro m0 n0 ⟨w0, e0⟩
  refine Both.bind (Blake2s.finalize_both p1) ?_; rintro ⟨_, h1⟩ ⟨_, g1⟩ ⟨-, hr1, -⟩
  refine Both.bind (asBytes_both hr1) ?_; rintro a1 b1 ⟨d1, -⟩
  refine Both.bind (update_root e w0 d1) ?_; rintro m1 n1 ⟨w1, e1⟩
  refine Both.bind (Blake2s.finalize_both p2) ?_; rintro ⟨_, h2⟩ ⟨_, g2⟩ ⟨-, hr2, -⟩
  refine Both.bind (asBytes_both hr2) ?_; rintro a2 b2 ⟨d2, -⟩
  refine Both.bind (update_root e w1 d2) ?_; rintro m2 n2 ⟨w2, e2⟩
  refine Both.bind (Blake2s.finalize_both p3) ?_; rintro ⟨_, h3⟩ ⟨_, g3⟩ ⟨-, hr3, -⟩
  refine Both.bind (asBytes_both hr3) ?_; rintro a3 b3 ⟨d3, -⟩
  refine Both.bind (update_root e w2 d3) ?_; rintro m3 n3 ⟨w3, e3⟩
  refine Both.bind (Blake2s.finalize_both p4) ?_; rintro ⟨_, h4⟩ ⟨_, g4⟩ ⟨-, hr4, -⟩
  refine Both.bind (asBytes_both hr4) ?_; rintro a4 b4 ⟨d4, -⟩
  refine Both.bind (update_root e w3 d4) ?_; rintro m4 n4 ⟨w4, e4⟩
  refine Both.bind (Blake2s.finalize_both p5) ?_; rintro ⟨_, h5⟩ ⟨_, g5⟩ ⟨-, hr5, -⟩
  refine Both.bind (asBytes_both hr5) ?_; rintro a5 b5 ⟨d5, -⟩
  refine Both.bind (update_root e w4 d5) ?_; rintro m5 n5 ⟨w5, e5⟩
  refine Both.bind (Blake2s.finalize_both p6) ?_; rintro ⟨_, h6⟩ ⟨_, g6⟩ ⟨-, hr6, -⟩
  refine Both.bind (asBytes_both hr6) ?_; rintro a6 b6 ⟨d6, -⟩
  refine Both.bind (update_root e w5 d6) ?_; rintro m6 n6 ⟨w6, e6⟩
  refine Both.bind (Blake2s.finalize_both p7) ?_; rintro ⟨_, h7⟩ ⟨_, g7⟩ ⟨-, hr7, -⟩
  refine Both.bind (asBytes_both hr7) ?_; rintro a7 b7 ⟨d7, -⟩
  refine Both.bind (update_root e w6 d7) ?_; rintro m7 n7 ⟨w7, e7⟩
  refine Both.bind (Blake2s.finalize_both w7) ?_
  rintro ⟨_, h⟩ ⟨_, g⟩ ⟨-, hr, hl⟩
  refine Both.pure ⟨rfl, rfl, hr, ?_⟩
  rw [hl, e7, e6, e5, e4, e3, e2, e1, e0]

theorem getCount_both {E E' : Env} (e : ERel E E') {x : Prop} {s t : State} (r : SpRel x E E' s t) :
    Both E (s.getCount E) (t.getCount E') (fun c d => c = d) := by
  have r0 : t.leaves[0].getCount = s.leaves[0].getCount := (r.leaves 0).count
  have r1 : t.leaves[1].getCount = s.leaves[1].getCount := (r.leaves 1).count
  have r2 : t.leaves[2].getCount = s.leaves[2].getCount := (r.leaves 2).count
  have r3 : t.leaves[3].getCount = s.leaves[3].getCount := (r.leaves 3).count
  have r4 : t.leaves[4].getCount = s.leaves[4].getCount := (r.leaves 4).count
  have r5 : t.leaves[5].getCount = s.leaves[5].getCount := (r.leaves 5).count
  have r6 : t.leaves[6].getCount = s.leaves[6].getCount := (r.leaves 6).count
  have r7 : t.leaves[7].getCount = s.leaves[7].getCount := (r.leaves 7).count
  unfold State.getCount
  rw [r.buflen, r0, r1, r2, r3, r4, r5, r6, r7]
  refine Both.bind (addChk_both e _ _) ?_; rintro _ _ rfl
  refine Both.bind (addChk_both e _ _) ?_; rintro _ _ rfl
  refine Both.bind (addChk_both e _ _) ?_; rintro _ _ rfl
  refine Both.bind (addChk_both e _ _) ?_; rintro _ _ rfl
  refine Both.bind (addChk_both e _ _) ?_; rintro _ _ rfl
  refine Both.bind (addChk_both e _ _) ?_; rintro _ _ rfl
  refine Both.bind (addChk_both e _ _) ?_; rintro _ _ rfl
  exact addChk_both e _ _

theorem debug_both {E E' : Env} (e : ERel E E') {x : Prop} {s t : State} (r : SpRel x E E' s t) :
    Both E (s.debug E) (t.debug E') (fun c d => c = d) := by
  unfold State.debug
  refine Both.bind (getCount_both e r) ?_
  rintro c _ rfl
  have r0 : t.leaves[0].debug = s.leaves[0].debug := debug_rel (r.leaves 0)
  have r1 : t.leaves[1].debug = s.leaves[1].debug := debug_rel (r.leaves 1)
  have r2 : t.leaves[2].debug = s.leaves[2].debug := debug_rel (r.leaves 2)
  have r3 : t.leaves[3].debug = s.leaves[3].debug := debug_rel (r.leaves 3)
  rw [debug_rel r.root, r0, r1, r2, r3]
  exact Both.pure rfl

theorem forcePortable_rel {E E' : Env} {x : Prop} {s t : State} (r : SpRel x E E' s t) :
    SpRel x E E' s.forcePortable t.forcePortable := by
  refine ⟨?_, Blake2s.forcePortable_rel r.root, r.buflen, r.le, nofun, nofun, r.buf⟩
  exact SRel8.mk (Blake2s.forcePortable_rel (r.leaves 0)) (Blake2s.forcePortable_rel (r.leaves 1))
    (Blake2s.forcePortable_rel (r.leaves 2)) (Blake2s.forcePortable_rel (r.leaves 3))
    (Blake2s.forcePortable_rel (r.leaves 4)) (Blake2s.forcePortable_rel (r.leaves 5))
    (Blake2s.forcePortable_rel (r.leaves 6)) (Blake2s.forcePortable_rel (r.leaves 7))

end Sp

end Blake2s
