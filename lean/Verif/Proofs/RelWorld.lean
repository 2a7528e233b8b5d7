import Verif.Proofs.RelMany
import Verif.Proofs.HashLemmas
import Verif.Props.Many
import Verif.Machine
/-!
# Two runs side by side: whole programs
-/

namespace Blake2s

theorem DRel.refl (x : Prop) (a : List U8) : DRel x a a := ⟨rfl, fun _ => rfl⟩

/-! ## Setters -/

/-- Two accepted `Params` that agree on everything but the data. -/
structure QRel (x : Prop) (p q : Params) : Prop extends PRel x p q where
  v : p.Valid
  v' : q.Valid

theorem Setter.inRange_mapBytes {f : List U8 → List U8} (hf : ∀ b, (f b).length = b.length)
    (c : Setter) : (c.mapBytes f).InRange ↔ c.InRange := by
  cases c <;> simp [Setter.mapBytes, Setter.InRange, hf]

theorem set_both {E : Env} {x : Prop} {p q : Params} (r : QRel x p q) {f : List U8 → List U8}
    (hf : ∀ b, DRel x b (f b)) (c : Setter) :
    Both E (p.set c) (q.set (c.mapBytes f)) (fun p' q' =>
      QRel x p' q' ∧ p' = p.put c ∧ c.InRange) := by
  have hr := c.inRange_mapBytes (fun b => (hf b).len.symm)
  by_cases h : c.InRange
  · have h' := hr.mpr h
    refine .inl ⟨_, _, set_pos p h, set_pos q h', ?_, rfl, h⟩
    have v := set_valid r.v (set_pos p h)
    have v' := set_valid r.v' (set_pos q h')
    refine { v := v, v' := v', hl1 := v.hl.1, hl2 := v.hl.2, hl := ?_, kl := ?_, ln := ?_, eq := ?_ }
    · cases c <;> first | exact r.hl | rfl
    · cases c <;> first | exact r.kl | rfl | skip
      rename_i k
      show BitVec.ofNat 8 (f k).length = BitVec.ofNat 8 k.length
      rw [(hf k).len]
    · cases c <;> first | exact r.ln | rfl
    · intro hx
      rw [r.eq hx]
      congr 1
      cases c <;> simp only [Setter.mapBytes] <;> (congr 1; exact (hf _).eq hx)
  · have h' := fun e => h (hr.mp e)
    exact .inr ⟨_, .inr (.inr rfl), set_neg p h, set_neg q h'⟩

theorem put_keyLength_other {p : Params} {c : Setter} (h : ∀ k, c ≠ .key k) :
    (p.put c).keyLength = p.keyLength := by
  cases c <;> first | rfl | exact absurd rfl (h _)

theorem Sp.set_both {E : Env} {x : Prop} {p q : Sp.Params} (r : Sp.PRel x p q)
    {f : List U8 → List U8} (hf : ∀ b, DRel x b (f b)) (c : Sp.Setter) :
    Both E (p.set c) (q.set (c.mapBytes f)) (fun p' q' => Sp.PRel x p' q') := by
  cases c with
  | hashLength n =>
    simp only [Sp.Setter.mapBytes, Sp.Params.set, Sp.setHashLength_eq]
    split
    · rename_i h
      refine .inl ⟨_, _, rfl, rfl, ⟨⟨?_, r.valid.kl⟩, rfl, r.kl, fun hx => by rw [r.eq hx]⟩⟩
      simp only [toNat_ofNat8 n h.2]
      exact h
    · exact .inr ⟨_, .inr (.inr rfl), rfl, rfl⟩
  | key k =>
    simp only [Sp.Setter.mapBytes, Sp.Params.set, Sp.setKey_eq]
    rw [← (hf k).len]
    split
    · rename_i h
      refine .inl ⟨_, _, rfl, rfl, ⟨⟨r.valid.hl, ?_⟩, r.hl, rfl, fun hx => by
        rw [r.eq hx, ← (hf k).eq hx]⟩⟩
      simp only [toNat_ofNat8 _ h]
      exact h
    · exact .inr ⟨_, .inr (.inr rfl), rfl, rfl⟩

/-! ## Hash queries -/

theorem hexOf_length (b : List U8) : (hexOf b).length = 2 * b.length := by
  induction b with
  | nil => rfl
  | cons x xs ih =>
    have : hexOf (x :: xs) = hexDigit (x.toNat / 16) :: hexDigit (x.toNat % 16) :: hexOf xs := rfl
    rw [this, List.length_cons, List.length_cons, ih, List.length_cons]
    omega

theorem toHex_ok (h : Hash) (hl : h.len.toNat ≤ 32) :
    h.toHex = .ok (hexOf (h.bytes.toList.take h.len.toNat)) := by
  unfold Hash.toHex
  rw [asBytes_ok h hl]
  show bytesToHex _ = _
  unfold bytesToHex
  rw [bytesToHexLoop_ok _ _ (by simp; omega)]
  rfl

/-- Two outputs that agree on what is visible, and altogether if `x`. -/
structure ORel (x : Prop) (o o' : Out) : Prop where
  vis : o'.visible = o.visible
  eq : x → o = o'

theorem ORel.refl (x : Prop) (o : Out) : ORel x o o := ⟨rfl, fun _ => rfl⟩

theorem HRel.l2' {x : Prop} {h g : Hash} (r : HRel x h g) : g.len.toNat ≤ 32 := by
  rw [r.len]; exact r.l2

theorem toHex_both {E : Env} {x : Prop} {h g : Hash} (r : HRel x h g) :
    Both E h.toHex g.toHex (fun a b => ORel x (.hex a) (.hex b)) := by
  refine .inl ⟨_, _, toHex_ok h r.l2, toHex_ok g r.l2', ?_, fun hx => by rw [r.eq hx]⟩
  simp only [Out.visible, hexOf_length, r.len, List.length_take, Vector.length_toList]

theorem debugHash_both {E : Env} {x : Prop} {h g : Hash} (r : HRel x h g) :
    Both E h.debug g.debug (fun a b => ORel x (.hex a) (.hex b)) := by
  unfold Hash.debug
  refine Both.bind (toHex_both r) ?_
  intro a b o
  refine Both.pure ⟨?_, fun hx => ?_⟩
  · have := o.vis
    simp only [Out.visible, Out.length.injEq] at this
    simp only [Out.visible, List.length_append, this]
  · have := o.eq hx
    simp only [Out.hex.injEq] at this
    rw [this]

theorem eqHash_both {E : Env} {x : Prop} {h g h' g' : Hash} (r : HRel x h g) (r' : HRel x h' g') :
    Both E (h.eqHash h') (g.eqHash g') (fun a b => x → a = b) := by
  unfold Hash.eqHash
  refine Both.bind (asBytes_both r) ?_
  rintro a b ⟨d, -⟩
  refine Both.bind (asBytes_both r') ?_
  rintro a' b' ⟨d', -⟩
  exact Both.pure fun hx => by rw [d.eq hx, d'.eq hx]

theorem eqSlice_both {E : Env} {x : Prop} {h g : Hash} (r : HRel x h g) {s t : List U8}
    (ds : DRel x s t) : Both E (h.eqSlice s) (g.eqSlice t) (fun a b => x → a = b) := by
  unfold Hash.eqSlice
  refine Both.bind (asBytes_both r) ?_
  rintro a b ⟨d, -⟩
  exact Both.pure fun hx => by rw [d.eq hx, ds.eq hx]

/-! ## Whole messages -/

theorem blake2s_both {E E' : Env} (e : ERel E E') {x : Prop} {a b : List U8} (d : DRel x a b) :
    Both E (Blake2s.blake2s E a) (Blake2s.blake2s E' b) (fun h g => HRel x h g) := by
  unfold Blake2s.blake2s State.new
  refine Both.bind (toState_both (x := x) e (p := Params.new) (q := Params.new)
    ⟨rfl, by decide, by decide, rfl, rfl, fun _ => rfl⟩) ?_
  intro s t r
  refine Both.bind (update_both e r d) ?_
  intro s1 t1 r1
  refine Both.bind (finalize_both r1) ?_
  rintro ⟨_, h⟩ ⟨_, g⟩ ⟨-, hr, -⟩
  exact Both.pure hr

theorem Sp.new_both {E E' : Env} (e : ERel E E') {x : Prop} :
    Both E (Sp.State.new E) (Sp.State.new E') (fun s t => Sp.SpRel x E E' s t) :=
  Sp.toState_both e ⟨⟨by decide, by decide⟩, rfl, rfl, fun _ => rfl⟩

theorem new_both {E E' : Env} (e : ERel E E') {x : Prop} :
    Both E (State.new E) (State.new E') (fun s t => SRel x E E' s t) :=
  toState_both e ⟨rfl, by decide, by decide, rfl, rfl, fun _ => rfl⟩

theorem blake2sp_both {E E' : Env} (e : ERel E E') {x : Prop} {a b : List U8} (d : DRel x a b) :
    Both E (Blake2s.blake2sp E a) (Blake2s.blake2sp E' b) (fun h g => HRel x h g) := by
  unfold Blake2s.blake2sp
  refine Both.bind (Sp.new_both (x := x) e) ?_
  intro s t r
  refine Both.bind (Sp.update_both e r d) ?_
  intro s1 t1 r1
  refine Both.bind (Sp.finalize_both e r1) ?_
  rintro ⟨_, h⟩ ⟨_, g⟩ ⟨-, -, hr, -⟩
  exact Both.pure hr

/-! ## Bulk hashing -/

theorem fits_small {E : Env} {p : Params} {n : Nat} (h : n < 2 ^ 63) : Fits E p n := by
  intro _
  split <;> omega

theorem hashOne_hashes {E : Env} (hE : E.WF) {p : Params} (v : p.Valid) {input : List U8} {h : Hash}
    (e : hashOne E p input = .ok h) :
    (p.cfg E).hashes (Spec.keyBlock p.keyBytes ++ input) h := by
  rcases hashOne_ends E hE p v input with ⟨h', e', hh, _⟩ | ⟨e', _⟩
  · rw [e] at e'
    cases e'
    exact hh
  · rw [e] at e'
    cases e'

theorem hashOne_platform {E E' : Env} (hE : E.WF) (hE' : E'.WF) {p : Params} (v : p.Valid)
    {input : List U8} {h h' : Hash} (e : hashOne E p input = .ok h)
    (e' : hashOne E' p input = .ok h') : h = h' :=
  Cfg.hashes_unique (c := p.cfg E) (hashOne_hashes hE v e) (hashOne_hashes hE' v e')

theorem exact4_len {E : Env} (hE : E.WF) {p : Params} (v : p.Valid) {input : Vector (List U8) 4}
    {len : Nat} (hl : ExactLengths input len) (h63 : len < 2 ^ 63) :
    ∃ hs, hash4Exact E p input = .ok hs ∧ ∀ i : Fin 4, hs[i].len = p.hashLength := by
  cases hx : (E.x86 && E.std && E.avx2)
  · obtain ⟨hs, e, h⟩ := hash4_portable E hE hx p v.accepted input len hl (fits_small h63)
    exact ⟨hs, e, fun i => (hashOne_hashes hE v (h i)).2⟩
  · obtain ⟨hs, e, h⟩ := hash4_simd E hE hx p v.accepted input len hl
    exact ⟨hs, e, fun i => (h i).2⟩

theorem exact8_len {E : Env} (hE : E.WF) {p : Params} (v : p.Valid) {input : Vector (List U8) 8}
    {len : Nat} (hl : ExactLengths input len) (h63 : len < 2 ^ 63) :
    ∃ hs, hash8Exact E p input = .ok hs ∧ ∀ i : Fin 8, hs[i].len = p.hashLength := by
  cases hx : (E.x86 && E.std && E.avx2)
  · obtain ⟨hs, e, h⟩ := hash8_portable E hE hx p v.accepted input len hl (fits_small h63)
    exact ⟨hs, e, fun i => (hashOne_hashes hE v (h i)).2⟩
  · obtain ⟨hs, e, h⟩ := hash8_simd E hx p v.accepted input len hl
    exact ⟨hs, e, fun i => (h i).2⟩

theorem ExactLengths.map {x : Prop} {n : Nat} {a b : Vector (List U8) n} {len : Nat}
    (d : ∀ i : Fin n, DRel x a[i] b[i]) : ExactLengths b len ↔ ExactLengths a len := by
  unfold ExactLengths
  have : (∀ i : Fin n, b[i].length = len) ↔ (∀ i : Fin n, a[i].length = len) :=
    ⟨fun h i => by rw [(d i).len]; exact h i, fun h i => by rw [← (d i).len]; exact h i⟩
  rw [this]

theorem Vector.eq_of_fin {α : Type} {n : Nat} {a b : Vector α n} (h : ∀ i : Fin n, a[i] = b[i]) :
    a = b := Vector.ext fun i hi => h ⟨i, hi⟩

theorem hash4Exact_both {E E' : Env} (e : ERel E E') {x : Prop} {p q : Params} (r : QRel x p q)
    (hk : x → E.usesAvx2 = E'.usesAvx2 ∨ p.keyLength = 0) {a b : Vector (List U8) 4} (d : ∀ i : Fin 4, DRel x a[i] b[i])
    (h63 : a[0].length < 2 ^ 63) :
    Both E (hash4Exact E p a) (hash4Exact E' q b) (fun y z => ∀ i : Fin 4, HRel x y[i] z[i]) := by
  by_cases hl : ∃ len, ExactLengths a len
  · obtain ⟨len, hl⟩ := hl
    have h63 : len < 2 ^ 63 := by
      have : a[0].length = len := hl.1 0
      omega
    have hl' := (ExactLengths.map d).mpr hl
    obtain ⟨y, ey, hy⟩ := exact4_len e.wf r.v hl h63
    obtain ⟨z, ez, hz⟩ := exact4_len e.wf' r.v' hl' h63
    refine .inl ⟨y, z, ey, ez, fun i => ⟨?_, ?_, ?_, ?_⟩⟩
    · rw [hy, hz, r.hl]
    · rw [hy]; exact r.hl1
    · rw [hy]; exact r.hl2
    · intro hx
      have hpq := r.eq hx
      subst hpq
      have hab : a = b := Vector.eq_of_fin fun i => (d i).eq hx
      subst hab
      rcases hk hx with hs | hk
      · cases hu : E.usesAvx2 with
        | true =>
          obtain ⟨y', ey', hy'⟩ := hash4_simd E e.wf hu p r.v.accepted a len hl
          obtain ⟨z', ez', hz'⟩ := hash4_simd E' e.wf' (hs.symm.trans hu) p r.v.accepted a len hl
          rw [ey] at ey'
          rw [ez] at ez'
          cases ey'
          cases ez'
          have h1 : y[i].bytes = z[i].bytes :=
            Vector.toList_inj.mp ((hy' i).1.trans (hz' i).1.symm)
          have h2 : y[i].len = z[i].len := (hy' i).2.trans (hz' i).2.symm
          generalize y[i] = s at h1 h2
          generalize z[i] = t at h1 h2
          cases s
          cases t
          cases h1
          cases h2
          rfl
        | false =>
          obtain ⟨y', ey', hy'⟩ := hash4_portable E e.wf hu p r.v.accepted a len hl (fits_small h63)
          obtain ⟨z', ez', hz'⟩ := hash4_portable E' e.wf' (hs.symm.trans hu) p r.v.accepted a len hl
            (fits_small h63)
          rw [ey] at ey'
          rw [ez] at ez'
          cases ey'
          cases ez'
          exact hashOne_platform e.wf e.wf' r.v (hy' i) (hz' i)
      · obtain ⟨y', ey', hy'⟩ := C13_hash4_exact E e.wf p r.v.accepted hk a len hl (fits_small h63)
        obtain ⟨z', ez', hz'⟩ := C13_hash4_exact E' e.wf' p r.v.accepted hk a len hl
          (fits_small h63)
        rw [ey] at ey'
        rw [ez] at ez'
        cases ey'
        cases ez'
        exact hashOne_platform e.wf e.wf' r.v (hy' i).1 (hz' i).1
  · have hl' : ¬ ∃ len, ExactLengths b len := fun ⟨len, h⟩ => hl ⟨len, (ExactLengths.map d).mp h⟩
    exact .inr ⟨_, .inr (.inr rfl), C13_refuses E p a hl, C13_refuses E' q b hl'⟩

theorem hash8Exact_both {E E' : Env} (e : ERel E E') {x : Prop} {p q : Params} (r : QRel x p q)
    (hk : x → E.usesAvx2 = E'.usesAvx2 ∨ p.keyLength = 0) {a b : Vector (List U8) 8} (d : ∀ i : Fin 8, DRel x a[i] b[i])
    (h63 : a[0].length < 2 ^ 63) :
    Both E (hash8Exact E p a) (hash8Exact E' q b) (fun y z => ∀ i : Fin 8, HRel x y[i] z[i]) := by
  by_cases hl : ∃ len, ExactLengths a len
  · obtain ⟨len, hl⟩ := hl
    have h63 : len < 2 ^ 63 := by
      have : a[0].length = len := hl.1 0
      omega
    have hl' := (ExactLengths.map d).mpr hl
    obtain ⟨y, ey, hy⟩ := exact8_len e.wf r.v hl h63
    obtain ⟨z, ez, hz⟩ := exact8_len e.wf' r.v' hl' h63
    refine .inl ⟨y, z, ey, ez, fun i => ⟨?_, ?_, ?_, ?_⟩⟩
    · rw [hy, hz, r.hl]
    · rw [hy]; exact r.hl1
    · rw [hy]; exact r.hl2
    · intro hx
      have hpq := r.eq hx
      subst hpq
      have hab : a = b := Vector.eq_of_fin fun i => (d i).eq hx
      subst hab
      rcases hk hx with hs | hk
      · cases hu : E.usesAvx2 with
        | true =>
          obtain ⟨y', ey', hy'⟩ := hash8_simd E hu p r.v.accepted a len hl
          obtain ⟨z', ez', hz'⟩ := hash8_simd E' (hs.symm.trans hu) p r.v.accepted a len hl
          rw [ey] at ey'
          rw [ez] at ez'
          cases ey'
          cases ez'
          have h1 : y[i].bytes = z[i].bytes :=
            Vector.toList_inj.mp ((hy' i).1.trans (hz' i).1.symm)
          have h2 : y[i].len = z[i].len := (hy' i).2.trans (hz' i).2.symm
          generalize y[i] = s at h1 h2
          generalize z[i] = t at h1 h2
          cases s
          cases t
          cases h1
          cases h2
          rfl
        | false =>
          obtain ⟨y', ey', hy'⟩ := hash8_portable E e.wf hu p r.v.accepted a len hl (fits_small h63)
          obtain ⟨z', ez', hz'⟩ := hash8_portable E' e.wf' (hs.symm.trans hu) p r.v.accepted a len hl
            (fits_small h63)
          rw [ey] at ey'
          rw [ez] at ez'
          cases ey'
          cases ez'
          exact hashOne_platform e.wf e.wf' r.v (hy' i) (hz' i)
      · obtain ⟨y', ey', hy'⟩ := C14_hash8_exact E e.wf p r.v.accepted hk a len hl (fits_small h63)
        obtain ⟨z', ez', hz'⟩ := C14_hash8_exact E' e.wf' p r.v.accepted hk a len hl
          (fits_small h63)
        rw [ey] at ey'
        rw [ez] at ez'
        cases ey'
        cases ez'
        exact hashOne_platform e.wf e.wf' r.v (hy' i).1 (hz' i).1
  · have hl' : ¬ ∃ len, ExactLengths b len := fun ⟨len, h⟩ => hl ⟨len, (ExactLengths.map d).mp h⟩
    exact .inr ⟨_, .inr (.inr rfl), C14_refuses E p a hl, C14_refuses E' q b hl'⟩

theorem tooLong_small {E : Env} {m : List U8} (h : m.length < 2 ^ 63) : ¬ TooLong E m := by
  unfold TooLong
  omega

theorem hash8_both {E E' : Env} (e : ERel E E') {x : Prop} {p q : Vector Params 8}
    (r : ∀ i : Fin 8, QRel x p[i] q[i]) {a b : Vector (List U8) 8}
    (d : ∀ i : Fin 8, DRel x a[i] b[i]) (h63 : ∀ i : Fin 8, a[i].length < 2 ^ 63) :
    Both E (hash8 E p a) (hash8 E' q b) (fun y z => ∀ i : Fin 8, HRel x y[i] z[i]) := by
  by_cases hk : ∀ i : Fin 8, p[i].keyLength = 0
  · obtain ⟨y, ey, hy⟩ := hash8_ok E e.wf p a hk (fun i => (r i).v.off) (fun i => tooLong_small (h63 i))
    obtain ⟨z, ez, hz⟩ := hash8_ok E' e.wf' q b (fun i => by rw [(r i).kl]; exact hk i)
      (fun i => (r i).v'.off) (fun i => tooLong_small (by rw [← (d i).len]; exact h63 i))
    refine .inl ⟨y, z, ey, ez, fun i => ⟨?_, ?_, ?_, ?_⟩⟩
    · rw [(hy i).2, (hz i).2, (r i).hl]
    · rw [(hy i).2]; exact (r i).hl1
    · rw [(hy i).2]; exact (r i).hl2
    · intro hx
      apply Cfg.hashes_unique (c := p[i].cfg E) (data := a[i]) (hy i)
      rw [(r i).eq hx, (d i).eq hx]
      exact hz i
  · obtain ⟨i, hi⟩ := Classical.not_forall.mp hk
    exact .inr ⟨_, .inr (.inr rfl), hash8_keyed E p a i hi,
      hash8_keyed E' q b i (by rw [(r i).kl]; exact hi)⟩

/-! ## The variables -/

/-- Two worlds that agree on everything but the data (and altogether if `x`). -/
structure WRel (x : Prop) (E E' : Env) (k : Nat → Bool) (w v : World) : Prop where
  params : ∀ j, QRel x (w.params j) (v.params j)
  keyed : ∀ j, (w.params j).keyLength = 0 ↔ k j = false
  state : ∀ j, SRel x E E' (w.state j) (v.state j)
  hash : ∀ j, HRel x (w.hash j) (v.hash j)
  spParams : ∀ j, Sp.PRel x (w.spParams j) (v.spParams j)
  spState : ∀ j, Sp.SpRel x E E' (w.spState j) (v.spState j)

theorem assign_rel {α β : Type} {P : α → β → Prop} {f : Nat → α} {g : Nat → β}
    (h : ∀ j, P (f j) (g j)) {a : α} {b : β} (hab : P a b) (i : Nat) :
    ∀ j, P (assign f i a j) (assign g i b j) := by
  intro j
  unfold assign
  split
  · exact hab
  · exact h j

theorem foldl_assign_rel {α β : Type} {P : α → β → Prop} (is : List Nat) {f : Nat → α}
    {g : Nat → β} (h : ∀ j, P (f j) (g j)) {xs : List α} {ys : List β} (hl : xs.length = ys.length)
    (hxy : ∀ i (hx : i < xs.length) (hy : i < ys.length), P xs[i] ys[i]) :
    ∀ j, P ((is.zip xs).foldl (fun f ix => assign f ix.1 ix.2) f j)
      ((is.zip ys).foldl (fun f ix => assign f ix.1 ix.2) g j) := by
  induction is generalizing f g xs ys with
  | nil => simpa using h
  | cons i is ih =>
    cases xs with
    | nil =>
      cases ys with
      | nil => simpa using h
      | cons _ _ => cases hl
    | cons x xs =>
      cases ys with
      | nil => cases hl
      | cons y ys =>
        simp only [List.zip_cons_cons, List.foldl_cons]
        apply ih
        · exact assign_rel h (hxy 0 (by simp) (by simp)) i
        · simpa using hl
        · intro j hx hy
          exact hxy (j + 1) (by simpa using hx) (by simpa using hy)

theorem assignAll_rel {α β : Type} {P : α → β → Prop} {n : Nat} {f : Nat → α} {g : Nat → β}
    (h : ∀ j, P (f j) (g j)) (is : Vector Nat n) {xs : Vector α n} {ys : Vector β n}
    (hxy : ∀ i : Fin n, P xs[i] ys[i]) : ∀ j, P (assignAll f is xs j) (assignAll g is ys j) := by
  unfold assignAll
  refine foldl_assign_rel _ h (by simp) ?_
  intro i hx hy
  have := hxy ⟨i, by simpa using hx⟩
  simpa using this

theorem init_both {E E' : Env} (e : ERel E E') (x : Prop) :
    Both E (World.init E) (World.init E') (fun w v => WRel x E E' (fun _ => false) w v) := by
  unfold World.init
  refine Both.bind (new_both (x := x) e) ?_
  intro s t r
  refine Both.bind (blake2s_both (x := x) e (DRel.refl x [])) ?_
  intro h g hr
  refine Both.bind (Sp.new_both (x := x) e) ?_
  intro s' t' r'
  have hp : QRel x Params.new Params.new :=
    { hl := rfl, hl1 := by decide, hl2 := by decide, kl := rfl, ln := rfl, eq := fun _ => rfl
      v := default_valid, v' := default_valid }
  exact Both.pure ⟨fun _ => hp, fun _ => ⟨fun _ => rfl, fun _ => rfl⟩, fun _ => r, fun _ => hr,
    fun _ => ⟨Sp.default_valid, rfl, rfl, fun _ => rfl⟩, fun _ => r'⟩

/-- The calls that the restriction on keys is about. -/
def Call.ExactUnkeyed (k : Nat → Bool) : Call → Prop
  | .hash4Exact p _ _ => k p = false
  | .hash8Exact p _ _ => k p = false
  | _ => True


theorem call_both {E E' : Env} (e : ERel E E') {x : Prop} {k : Nat → Bool} {w v : World}
    (r : WRel x E E' k w v) {f : List U8 → List U8} (hf : ∀ b, DRel x b (f b)) (c : Call)
    (hl : c.Legal) (hk : x → E.usesAvx2 = E'.usesAvx2 ∨ c.ExactUnkeyed k) :
    Both E (w.call E c) (v.call E' (c.mapBytes f)) (fun y z =>
      WRel x E E' (c.keyed k) y.1 z.1 ∧ ORel x y.2 z.2) := by
  obtain ⟨rp, rk, rs, rh, rsp, rss⟩ := r
  have hf8 : ∀ {n : Nat} (b : Vector (List U8) n) (i : Fin n), DRel x b[i] (b.map f)[i] := by
    intro n b i
    have : (b.map f)[i] = f b[i] := by simp
    rw [this]
    exact hf _
  have hs8 : ∀ s : Vector Nat 8, SRel8 x E E' (s.map w.state) (s.map v.state) := by
    intro s i
    have h1 : (s.map w.state)[i] = w.state s[i] := by simp
    have h2 : (s.map v.state)[i] = v.state s[i] := by simp
    rw [h1, h2]
    exact rs _
  cases c with
  | newParams p =>
    have hp : QRel x Params.new Params.new :=
      { hl := rfl, hl1 := by decide, hl2 := by decide, kl := rfl, ln := rfl, eq := fun _ => rfl
        v := default_valid, v' := default_valid }
    exact Both.pure ⟨⟨assign_rel rp hp _,
      assign_rel (P := fun (p : Params) (b : Bool) => p.keyLength = 0 ↔ b = false) rk
        ⟨fun _ => rfl, fun _ => rfl⟩ _, rs, rh, rsp, rss⟩, .refl _ _⟩
  | cloneParams dst src =>
    exact Both.pure ⟨⟨assign_rel rp (rp src) _,
      assign_rel (P := fun (p : Params) (b : Bool) => p.keyLength = 0 ↔ b = false) rk (rk src) _,
      rs, rh, rsp, rss⟩, .refl _ _⟩
  | set p c =>
    refine Both.bind (set_both (rp p) hf c) ?_
    rintro p' q' ⟨q, hp', hin⟩
    refine Both.pure ⟨⟨assign_rel rp q _, ?_, rs, rh, rsp, rss⟩, .refl _ _⟩
    by_cases hc : ∃ b, c = .key b
    · obtain ⟨b, rfl⟩ := hc
      refine assign_rel (P := fun (p : Params) (b : Bool) => p.keyLength = 0 ↔ b = false) rk ?_ _
      rw [hp']
      show BitVec.ofNat 8 b.length = 0 ↔ (!b.isEmpty) = false
      have hb : b.length ≤ 32 := hin
      cases b with
      | nil => exact ⟨fun _ => rfl, fun _ => rfl⟩
      | cons y ys =>
        refine ⟨fun h => ?_, fun h => by cases h⟩
        have := congrArg BitVec.toNat h
        rw [toNat_ofNat8 _ hb] at this
        cases this
    · have hk' : Call.keyed k (.set p c) = k := by
        cases c <;> first | rfl | exact absurd ⟨_, rfl⟩ hc
      rw [hk']
      intro j
      show (assign w.params p p' j).keyLength = 0 ↔ _
      unfold assign
      split
      · rename_i hj
        rw [hj, hp', put_keyLength_other (fun b hb => hc ⟨b, hb⟩)]
        exact rk p
      · exact rk j
  | newState s =>
    refine Both.bind (new_both (x := x) e) ?_
    intro s t q
    exact Both.pure ⟨⟨rp, rk, assign_rel rs q _, rh, rsp, rss⟩, .refl _ _⟩
  | toState s p =>
    refine Both.bind (toState_both e (rp p).toPRel) ?_
    intro s t q
    exact Both.pure ⟨⟨rp, rk, assign_rel rs q _, rh, rsp, rss⟩, .refl _ _⟩
  | cloneState dst src =>
    exact Both.pure ⟨⟨rp, rk, assign_rel rs (rs src) _, rh, rsp, rss⟩, .refl _ _⟩
  | update s b =>
    refine Both.bind (update_both e (rs s) (hf b)) ?_
    intro s t q
    exact Both.pure ⟨⟨rp, rk, assign_rel rs q _, rh, rsp, rss⟩, .refl _ _⟩
  | write s b =>
    refine Both.bind (Q := fun y z => SRel x E E' y.1 z.1 ∧ y.2 = z.2) ?_ ?_
    · unfold State.write
      refine Both.bind (update_both e (rs s) (hf b)) ?_
      intro s t q
      exact Both.pure ⟨q, (hf b).len⟩
    · rintro ⟨s, n⟩ ⟨t, m⟩ ⟨q, hn⟩
      have hn : n = m := hn
      subst hn
      exact Both.pure ⟨⟨rp, rk, assign_rel rs q _, rh, rsp, rss⟩, .refl _ _⟩
  | flush s =>
    exact Both.pure ⟨⟨rp, rk, assign_rel rs (rs s) _, rh, rsp, rss⟩, .refl _ _⟩
  | setLastNode s b =>
    exact Both.pure ⟨⟨rp, rk, assign_rel rs (setLastNode_rel (rs s) b) _, rh, rsp, rss⟩, .refl _ _⟩
  | finalize s h =>
    refine Both.bind (finalize_both (rs s)) ?_
    rintro ⟨s, d⟩ ⟨t, g⟩ ⟨q, hq, -⟩
    exact Both.pure ⟨⟨rp, rk, assign_rel rs q _, assign_rel rh hq _, rsp, rss⟩, .refl _ _⟩
  | count s =>
    refine Both.pure ⟨⟨rp, rk, rs, rh, rsp, rss⟩, ?_⟩
    show ORel x (.count (w.state s).count) (.count (v.state s).count)
    rw [(rs s).count]
    exact .refl _ _
  | debugState s =>
    refine Both.pure ⟨⟨rp, rk, rs, rh, rsp, rss⟩, ?_⟩
    show ORel x (.text (w.state s).debug.toList) (.text (v.state s).debug.toList)
    rw [debug_rel (rs s)]
    exact .refl _ _
  | forcePortable s =>
    exact Both.pure ⟨⟨rp, rk, assign_rel rs (forcePortable_rel (rs s)) _, rh, rsp, rss⟩, .refl _ _⟩
  | blake2s b h =>
    refine Both.bind (blake2s_both e (hf b)) ?_
    intro d g q
    exact Both.pure ⟨⟨rp, rk, rs, assign_rel rh q _, rsp, rss⟩, .refl _ _⟩
  | update8 s b =>
    refine Both.bind (update8_both e (hs8 s) (hf8 b)) ?_
    intro y z q
    exact Both.pure ⟨⟨rp, rk, assignAll_rel rs s q, rh, rsp, rss⟩, .refl _ _⟩
  | finalize8 s h =>
    refine Both.bind (finalize8_both (hs8 s)) ?_
    rintro ⟨y, d⟩ ⟨z, g⟩ ⟨q, hq⟩
    exact Both.pure ⟨⟨rp, rk, assignAll_rel rs s q, assignAll_rel rh h (fun i => (hq i).1), rsp, rss⟩,
      .refl _ _⟩
  | hash4Exact p b h =>
    refine Both.bind (hash4Exact_both e (rp p) (fun hx => (hk hx).imp id (rk p).mpr) (hf8 b)
      (hl.1 _ (by simp [Call.slices]))) ?_
    intro y z q
    exact Both.pure ⟨⟨rp, rk, rs, assignAll_rel rh h q, rsp, rss⟩, .refl _ _⟩
  | hash8Exact p b h =>
    refine Both.bind (hash8Exact_both e (rp p) (fun hx => (hk hx).imp id (rk p).mpr) (hf8 b)
      (hl.1 _ (by simp [Call.slices]))) ?_
    intro y z q
    exact Both.pure ⟨⟨rp, rk, rs, assignAll_rel rh h q, rsp, rss⟩, .refl _ _⟩
  | hash8 p b h =>
    refine Both.bind (hash8_both (x := x) (p := p.map w.params) (q := p.map v.params) e ?_ (hf8 b)
      (fun i => hl.1 _ (by simp [Call.slices]))) ?_
    · intro i
      have h1 : (p.map w.params)[i] = w.params p[i] := by simp
      have h2 : (p.map v.params)[i] = v.params p[i] := by simp
      rw [h1, h2]
      exact rp _
    · intro y z q
      exact Both.pure ⟨⟨rp, rk, rs, assignAll_rel rh h q, rsp, rss⟩, .refl _ _⟩
  | cloneHash dst src =>
    exact Both.pure ⟨⟨rp, rk, rs, assign_rel rh (rh src) _, rsp, rss⟩, .refl _ _⟩
  | asBytes h =>
    refine Both.bind (asBytes_both (rh h)) ?_
    rintro a b ⟨d, -⟩
    refine Both.pure ⟨⟨rp, rk, rs, rh, rsp, rss⟩, ?_, ?_⟩
    · simp only [Out.visible, d.len]
    · intro hx; simp only [d.eq hx]
  | toHex h =>
    refine Both.bind (toHex_both (rh h)) ?_
    intro a b q
    exact Both.pure ⟨⟨rp, rk, rs, rh, rsp, rss⟩, q⟩
  | debugHash h =>
    refine Both.bind (debugHash_both (rh h)) ?_
    intro a b q
    exact Both.pure ⟨⟨rp, rk, rs, rh, rsp, rss⟩, q⟩
  | eqHash a b =>
    refine Both.bind (eqHash_both (rh a) (rh b)) ?_
    intro a b q
    exact Both.pure ⟨⟨rp, rk, rs, rh, rsp, rss⟩, rfl, fun hx => by rw [q hx]⟩
  | eqSlice h b =>
    refine Both.bind (eqSlice_both (rh h) (hf b)) ?_
    intro a b q
    exact Both.pure ⟨⟨rp, rk, rs, rh, rsp, rss⟩, rfl, fun hx => by rw [q hx]⟩
  | blake2sp b h =>
    refine Both.bind (blake2sp_both e (hf b)) ?_
    intro d g q
    exact Both.pure ⟨⟨rp, rk, rs, assign_rel rh q _, rsp, rss⟩, .refl _ _⟩
  | spNewParams p =>
    exact Both.pure ⟨⟨rp, rk, rs, rh, assign_rel rsp ⟨⟨by decide, by decide⟩, rfl, rfl, fun _ => rfl⟩ _,
      rss⟩, .refl _ _⟩
  | spCloneParams dst src =>
    exact Both.pure ⟨⟨rp, rk, rs, rh, assign_rel rsp (rsp src) _, rss⟩, .refl _ _⟩
  | spSet p c =>
    refine Both.bind (Sp.set_both (rsp p) hf c) ?_
    intro a b q
    exact Both.pure ⟨⟨rp, rk, rs, rh, assign_rel rsp q _, rss⟩, .refl _ _⟩
  | spDebugParams p =>
    refine Both.pure ⟨⟨rp, rk, rs, rh, rsp, rss⟩, ?_⟩
    have : (v.spParams p).debug = (w.spParams p).debug := by
      unfold Sp.Params.debug
      rw [(rsp p).hl, (rsp p).kl]
    show ORel x (.text (w.spParams p).debug.toList) (.text (v.spParams p).debug.toList)
    rw [this]
    exact .refl _ _
  | spNewState s =>
    refine Both.bind (Sp.new_both (x := x) e) ?_
    intro s t q
    exact Both.pure ⟨⟨rp, rk, rs, rh, rsp, assign_rel rss q _⟩, .refl _ _⟩
  | spToState s p =>
    refine Both.bind (Sp.toState_both e (rsp p)) ?_
    intro s t q
    exact Both.pure ⟨⟨rp, rk, rs, rh, rsp, assign_rel rss q _⟩, .refl _ _⟩
  | spUpdate s b =>
    refine Both.bind (Sp.update_both e (rss s) (hf b)) ?_
    intro s t q
    exact Both.pure ⟨⟨rp, rk, rs, rh, rsp, assign_rel rss q _⟩, .refl _ _⟩
  | spWrite s b =>
    refine Both.bind (Q := fun y z => Sp.SpRel x E E' y.1 z.1 ∧ y.2 = z.2) ?_ ?_
    · unfold Sp.State.write
      refine Both.bind (Sp.update_both e (rss s) (hf b)) ?_
      intro s t q
      exact Both.pure ⟨q, (hf b).len⟩
    · rintro ⟨s, n⟩ ⟨t, m⟩ ⟨q, hn⟩
      have hn : n = m := hn
      subst hn
      exact Both.pure ⟨⟨rp, rk, rs, rh, rsp, assign_rel rss q _⟩, .refl _ _⟩
  | spFlush s =>
    exact Both.pure ⟨⟨rp, rk, rs, rh, rsp, assign_rel rss (rss s) _⟩, .refl _ _⟩
  | spFinalize s h =>
    refine Both.bind (Sp.finalize_both e (rss s)) ?_
    rintro ⟨_, d⟩ ⟨_, g⟩ ⟨rfl, rfl, q, -⟩
    exact Both.pure ⟨⟨rp, rk, rs, assign_rel rh q _, rsp, assign_rel rss (rss s) _⟩, .refl _ _⟩
  | spCount s =>
    refine Both.bind (Sp.getCount_both e (rss s)) ?_
    rintro a _ rfl
    exact Both.pure ⟨⟨rp, rk, rs, rh, rsp, rss⟩, .refl _ _⟩
  | spDebugState s =>
    refine Both.bind (Sp.debug_both e (rss s)) ?_
    rintro a _ rfl
    exact Both.pure ⟨⟨rp, rk, rs, rh, rsp, rss⟩, .refl _ _⟩
  | spForcePortable s =>
    exact Both.pure ⟨⟨rp, rk, rs, rh, rsp, assign_rel rss (Sp.forcePortable_rel (rss s)) _⟩, .refl _ _⟩

theorem Setter.mapBytes_id (c : Setter) : c.mapBytes (fun b => b) = c := by cases c <;> rfl

theorem Call.mapBytes_id (c : Call) : c.mapBytes (fun b => b) = c := by
  cases c with
  | set p c => simp only [Call.mapBytes, Setter.mapBytes_id]
  | spSet p c => cases c <;> rfl
  | update8 s b => simp [Call.mapBytes]
  | hash4Exact p b h => simp [Call.mapBytes]
  | hash8Exact p b h => simp [Call.mapBytes]
  | hash8 p b h => simp [Call.mapBytes]
  | _ => rfl

theorem map_mapBytes_id (cs : List Call) : cs.map (Call.mapBytes fun b => b) = cs := by
  induction cs with
  | nil => rfl
  | cons c cs ih => rw [List.map_cons, ih, Call.mapBytes_id]

theorem call_unforced {E E' : Env} (e : ERel E E') {x : Prop} {k : Nat → Bool} {w v : World}
    (r : WRel x E E' k w v) (c : Call) (hl : c.Legal) (hk : x → E.usesAvx2 = E'.usesAvx2 ∨ c.ExactUnkeyed k) :
    Both E (w.call E c) (v.call E' c.unforced) (fun y z =>
      WRel x E E' (c.keyed k) y.1 z.1 ∧ ORel x y.2 z.2) := by
  by_cases h : c.unforced = c
  · rw [h]
    have := call_both e r (f := fun b => b) (fun b => DRel.refl x b) c hl hk
    rwa [Call.mapBytes_id] at this
  · have f : ∀ {a b : State}, SRel x E E' a b → SRel x E E' a.forcePortable b := fun q =>
      ⟨q.buflen, q.le, q.count, q.ln, q.hl, q.hl1, q.hl2, nofun, q.sup', q.h, q.buf⟩
    cases c with
    | forcePortable s =>
      have q : SRel x E E' (w.state s).forcePortable (v.state s).flush := f (r.state s)
      exact Both.pure ⟨⟨r.params, r.keyed, assign_rel r.state q _, r.hash, r.spParams, r.spState⟩,
        .refl _ _⟩
    | spForcePortable s =>
      have q := r.spState s
      have q' : Sp.SpRel x E E' (w.spState s).forcePortable (v.spState s).flush := by
        refine ⟨?_, f q.root, q.buflen, q.le, nofun, q.sup', q.buf⟩
        apply fin8_cases
        intro i hi
        match i, hi with
        | 0, _ => exact f (q.leaves 0)
        | 1, _ => exact f (q.leaves 1)
        | 2, _ => exact f (q.leaves 2)
        | 3, _ => exact f (q.leaves 3)
        | 4, _ => exact f (q.leaves 4)
        | 5, _ => exact f (q.leaves 5)
        | 6, _ => exact f (q.leaves 6)
        | 7, _ => exact f (q.leaves 7)
      exact Both.pure ⟨⟨r.params, r.keyed, r.state, r.hash, r.spParams, assign_rel r.spState q' _⟩,
        .refl _ _⟩
    | _ => exact absurd rfl h

/-- Lists of outputs that agree on what is visible, and altogether if `x`. -/
structure OsRel (x : Prop) (o o' : List Out) : Prop where
  vis : o'.map Out.visible = o.map Out.visible
  eq : x → o = o'

theorem run_both {E E' : Env} {x : Prop} (g : Call → Call)
    (hg : ∀ k w v c, WRel x E E' k w v → c.Legal →
      (x → E.usesAvx2 = E'.usesAvx2 ∨ c.ExactUnkeyed k) →
      Both E (w.call E c) (v.call E' (g c)) (fun y z =>
        WRel x E E' (c.keyed k) y.1 z.1 ∧ ORel x y.2 z.2))
    (cs : List Call) {k : Nat → Bool} {w v : World} (r : WRel x E E' k w v)
    (hl : ∀ c ∈ cs, c.Legal) (hk : x → E.usesAvx2 = E'.usesAvx2 ∨ NoKeyedExact k cs) :
    Both E (w.run E cs) (v.run E' (cs.map g)) (fun y z =>
      (∃ k', WRel x E E' k' y.1 z.1) ∧ OsRel x y.2 z.2) := by
  induction cs generalizing k w v with
  | nil => exact Both.pure ⟨⟨k, r⟩, rfl, fun _ => rfl⟩
  | cons c cs ih =>
    unfold World.run
    refine Both.bind (hg k w v c r (hl c (by simp)) (fun hx => ?_)) ?_
    · refine (hk hx).imp id fun h => ?_
      have := h.1
      cases c <;> first | exact this | trivial
    · rintro ⟨w1, o⟩ ⟨v1, o'⟩ ⟨r1, q⟩
      refine Both.bind (ih r1 (fun c hc => hl c (by simp [hc])) (fun hx => (hk hx).imp id (·.2))) ?_
      rintro ⟨w2, os⟩ ⟨v2, os'⟩ ⟨r2, q2⟩
      refine Both.pure ⟨r2, ?_, ?_⟩
      · simp only [List.map_cons, q.vis, q2.vis]
      · intro hx
        have h1 : o = o' := q.eq hx
        have h2 : os = os' := q2.eq hx
        rw [h1, h2]

theorem program_both {E E' : Env} (e : ERel E E') {x : Prop} (g : Call → Call)
    (hg : ∀ k w v c, WRel x E E' k w v → c.Legal →
      (x → E.usesAvx2 = E'.usesAvx2 ∨ c.ExactUnkeyed k) →
      Both E (w.call E c) (v.call E' (g c)) (fun y z =>
        WRel x E E' (c.keyed k) y.1 z.1 ∧ ORel x y.2 z.2))
    (cs : List Call) (hl : ∀ c ∈ cs, c.Legal)
    (hk : x → E.usesAvx2 = E'.usesAvx2 ∨ NoKeyedExact (fun _ => false) cs) :
    Both E (program E cs) (program E' (cs.map g)) (OsRel x) := by
  unfold program
  refine Both.bind (init_both e x) ?_
  intro w v r
  refine Both.bind (run_both g hg cs r hl hk) ?_
  rintro ⟨_, os⟩ ⟨_, os'⟩ ⟨-, q⟩
  exact Both.pure q

end Blake2s
