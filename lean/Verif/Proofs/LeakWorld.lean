import Verif.Proofs.LeakLow
import Verif.Proofs.RelWorld
/-!
# Traces of programs
-/

namespace Blake2s

/-- Two sets of variables that agree on everything but the bytes hashed, keys, salts,
personalisations, and what is computed from them. -/
structure WLow (w v : World) : Prop where
  params : ∀ i, PLow (w.params i) (v.params i)
  state : ∀ i, SLow (w.state i) (v.state i)
  hash : ∀ i, (v.hash i).len = (w.hash i).len
  spParams : ∀ i, Sp.PLow (w.spParams i) (v.spParams i)
  spState : ∀ i, Sp.SpLow (w.spState i) (v.spState i)

theorem SLow.refl (s : State) : SLow s s := ⟨rfl, rfl, rfl, rfl, rfl⟩

theorem Sp.SpLow.refl (s : Sp.State) : Sp.SpLow s s := ⟨fun _ => .refl _, .refl _, rfl, rfl⟩

theorem WLow.refl (w : World) : WLow w w :=
  ⟨fun _ => .refl _, fun _ => .refl _, fun _ => rfl, fun _ => ⟨rfl, rfl⟩, fun _ => .refl _⟩

/-- A setter call with other bytes. -/
def Setter.fill : Setter → List (List U8) → Setter
  | .key _, l => .key (l.headD [])
  | .salt _, l => .salt (l.headD [])
  | .personal _, l => .personal (l.headD [])
  | c, _ => c

/-- A setter call with other bytes. -/
def Sp.Setter.fill : Sp.Setter → List (List U8) → Sp.Setter
  | .key _, l => .key (l.headD [])
  | c, _ => c

/-- A call with other byte strings. -/
def Call.fill : Call → List (List U8) → Call
  | .set p c, l => .set p (c.fill l)
  | .update s _, l => .update s (l.headD [])
  | .write s _, l => .write s (l.headD [])
  | .blake2s _ h, l => .blake2s (l.headD []) h
  | .update8 s _, l => .update8 s (Vector.ofFn fun i : Fin 8 => l.getD i [])
  | .hash4Exact p _ h, l => .hash4Exact p (Vector.ofFn fun i : Fin 4 => l.getD i []) h
  | .hash8Exact p _ h, l => .hash8Exact p (Vector.ofFn fun i : Fin 8 => l.getD i []) h
  | .hash8 p _ h, l => .hash8 p (Vector.ofFn fun i : Fin 8 => l.getD i []) h
  | .eqSlice h _, l => .eqSlice h (l.headD [])
  | .blake2sp _ h, l => .blake2sp (l.headD []) h
  | .spSet p c, l => .spSet p (c.fill l)
  | .spUpdate s _, l => .spUpdate s (l.headD [])
  | .spWrite s _, l => .spWrite s (l.headD [])
  | c, _ => c

theorem ofFn_getD {n : Nat} (b : Vector (List U8) n) :
    (Vector.ofFn fun i : Fin n => b.toList.getD i []) = b := by
  ext1 i hi
  simp

/-- A call is made of its shape and its byte strings. -/
theorem fill_shape (c : Call) : c.shape.fill c.slices = c := by
  cases c with
  | set p c => cases c <;> rfl
  | spSet p c => cases c <;> rfl
  | update8 s b => exact congrArg (Call.update8 s) (ofFn_getD b)
  | hash4Exact p b h => exact congrArg (fun b => Call.hash4Exact p b h) (ofFn_getD b)
  | hash8Exact p b h => exact congrArg (fun b => Call.hash8Exact p b h) (ofFn_getD b)
  | hash8 p b h => exact congrArg (fun b => Call.hash8 p b h) (ofFn_getD b)
  | _ => rfl

theorem shape_fill (c : Call) (l : List (List U8)) : c.shape.fill l = c.fill l := by
  cases c with
  | set p c => cases c <;> rfl
  | spSet p c => cases c <;> rfl
  | _ => rfl

theorem shape_slices (c : Call) :
    c.shape.slices = c.slices.map fun b => List.replicate b.length 0 := by
  cases c with
  | set p c => cases c <;> rfl
  | spSet p c => cases c <;> rfl
  | update8 s b => exact Vector.toList_map
  | hash4Exact p b h => exact Vector.toList_map
  | hash8Exact p b h => exact Vector.toList_map
  | hash8 p b h => exact Vector.toList_map
  | _ => rfl

theorem LLow.of_map {a b : List (List U8)}
    (h : (b.map fun b => List.replicate b.length (0 : U8)) = a.map fun b => List.replicate b.length 0) :
    LLow a b := by
  induction a generalizing b with
  | nil =>
    cases b with
    | nil => exact .nil
    | cons => cases h
  | cons x xs ih =>
    cases b with
    | nil => cases h
    | cons y ys =>
      obtain ⟨h1, h2⟩ := List.cons.inj h
      have := congrArg List.length h1
      simp only [List.length_replicate] at this
      exact .cons this (ih h2)

/-- Two calls of one shape: the second is the first with other byte strings of the same lengths. -/
theorem fill_of_shape {c d : Call} (h : d.shape = c.shape) : d = c.fill d.slices ∧ LLow c.slices d.slices := by
  refine ⟨?_, .of_map ?_⟩
  · rw [← shape_fill, ← h, fill_shape]
  · rw [← shape_slices, ← shape_slices, h]

theorem LLow.head {b : List U8} {l : List (List U8)} (h : LLow [b] l) :
    (l.headD []).length = b.length := by
  cases h with
  | cons h _ => exact h

theorem LLow.get {a b : List (List U8)} (h : LLow a b) (i : Nat) :
    (b.getD i []).length = (a.getD i []).length := by
  induction h generalizing i with
  | nil => rfl
  | cons h _ ih =>
    cases i with
    | zero => exact h
    | succ i => exact ih i

theorem LLow.vec {n : Nat} {b : Vector (List U8) n} {l : List (List U8)} (h : LLow b.toList l) :
    DLow b (Vector.ofFn fun i : Fin n => l.getD i []) := by
  intro i
  have := h.get i
  have e : b.toList.getD i [] = b[i] := by simp
  rw [e] at this
  rw [← this]
  simp

theorem set_fill_low {p : Nat} (c : Setter) {l : List (List U8)} (h : LLow (Call.set p c).slices l) :
    SetLow c (c.fill l) := by
  cases c with
  | key b => exact .key h.head
  | salt b => exact .salt h.head
  | personal b => exact .personal h.head
  | _ => exact .same _

theorem spSet_fill_low {p : Nat} (c : Sp.Setter) {l : List (List U8)}
    (h : LLow (Call.spSet p c).slices l) : Sp.SetLow c (c.fill l) := by
  cases c with
  | key b => exact .key h.head
  | _ => exact .same _

theorem callT_fill (E : Env) {w v : World} (r : WLow w v) (c : Call) {l : List (List U8)}
    (hf : LLow c.slices l) (hc : c.printsHex = false) :
    Low (w.callT E c) (v.callT E (c.fill l)) (fun y z => WLow y.1 z.1) := by
  obtain ⟨rp, rs, rh, rsp, rss⟩ := r
  have ah : ∀ {a b : Hash} (_ : b.len = a.len) (i j : Nat),
      (assign v.hash i b j).len = (assign w.hash i a j).len :=
    fun h i => assign_rel (P := fun a b : Hash => b.len = a.len) rh h i
  have aah : ∀ {n : Nat} {a b : Vector Hash n} (_ : HLow a b) (i : Vector Nat n) (j : Nat),
      (assignAll v.hash i b j).len = (assignAll w.hash i a j).len :=
    fun h i => assignAll_rel (P := fun a b : Hash => b.len = a.len) rh i h
  have hs8 : ∀ s : Vector Nat 8, SLow8 (s.map w.state) (s.map v.state) := by
    intro s i
    have h1 : (s.map w.state)[i] = w.state s[i] := by simp
    have h2 : (s.map v.state)[i] = v.state s[i] := by simp
    rw [h1, h2]
    exact rs _
  have hp8 : ∀ s : Vector Nat 8, PLow8 (s.map w.params) (s.map v.params) := by
    intro s i
    have h1 : (s.map w.params)[i] = w.params s[i] := by simp
    have h2 : (s.map v.params)[i] = v.params s[i] := by simp
    rw [h1, h2]
    exact rp _
  cases c with
  | newParams p => exact .pure ⟨assign_rel rp (.refl _) _, rs, rh, rsp, rss⟩
  | cloneParams dst src => exact .pure ⟨assign_rel rp (rp src) _, rs, rh, rsp, rss⟩
  | set p c =>
    exact .bind (setT_low (rp p) (set_fill_low c hf)) fun _ _ q =>
      .pure ⟨assign_rel rp q _, rs, rh, rsp, rss⟩
  | newState s =>
    exact .bind (withParamsT_low E (.refl _)) fun _ _ q => .pure ⟨rp, assign_rel rs q _, rh, rsp, rss⟩
  | toState s p =>
    exact .bind (withParamsT_low E (rp p)) fun _ _ q => .pure ⟨rp, assign_rel rs q _, rh, rsp, rss⟩
  | cloneState dst src => exact .pure ⟨rp, assign_rel rs (rs src) _, rh, rsp, rss⟩
  | update s b =>
    exact .bind (updateT_low E (rs s) hf.head) fun _ _ q => .pure ⟨rp, assign_rel rs q _, rh, rsp, rss⟩
  | write s b =>
    refine .bind (writeT_low E (rs s) hf.head) ?_
    rintro ⟨x, n⟩ ⟨y, m⟩ ⟨q, -⟩
    exact .pure ⟨rp, assign_rel rs q _, rh, rsp, rss⟩
  | flush s => exact .pure ⟨rp, assign_rel rs (rs s) _, rh, rsp, rss⟩
  | setLastNode s b =>
    have q : SLow ((w.state s).setLastNode b) ((v.state s).setLastNode b) :=
      ⟨(rs s).buflen, (rs s).count, (rs s).fn, rfl, (rs s).hl⟩
    exact .pure ⟨rp, assign_rel rs q _, rh, rsp, rss⟩
  | finalize s h =>
    refine .bind (finalizeT_low E (rs s)) ?_
    rintro ⟨x, n⟩ ⟨y, m⟩ ⟨q, l⟩
    exact .pure ⟨rp, assign_rel rs q _, ah l _, rsp, rss⟩
  | count s => exact .pure ⟨rp, rs, rh, rsp, rss⟩
  | debugState s => exact .bind (debugT_low (rs s)) fun _ _ _ => .pure ⟨rp, rs, rh, rsp, rss⟩
  | forcePortable s =>
    have q : SLow (w.state s).forcePortable (v.state s).forcePortable :=
      ⟨(rs s).buflen, (rs s).count, rfl, (rs s).ln, (rs s).hl⟩
    exact .pure ⟨rp, assign_rel rs q _, rh, rsp, rss⟩
  | blake2s b h =>
    exact .bind (blake2sT_low E hf.head) fun _ _ l => .pure ⟨rp, rs, ah l _, rsp, rss⟩
  | update8 s b =>
    exact .bind (update8T_low E (hs8 s) hf.vec) fun _ _ q =>
      .pure ⟨rp, assignAll_rel rs _ q, rh, rsp, rss⟩
  | finalize8 s h =>
    refine .bind (finalize8T_low E (hs8 s)) ?_
    rintro ⟨x, n⟩ ⟨y, m⟩ ⟨q, l⟩
    exact .pure ⟨rp, assignAll_rel rs _ q, aah l _, rsp, rss⟩
  | hash4Exact p b h =>
    exact .bind (hash4ExactT_low E (rp p) hf.vec) fun _ _ l =>
      .pure ⟨rp, rs, aah l _, rsp, rss⟩
  | hash8Exact p b h =>
    exact .bind (hash8ExactT_low E (rp p) hf.vec) fun _ _ l =>
      .pure ⟨rp, rs, aah l _, rsp, rss⟩
  | hash8 p b h =>
    exact .bind (hash8T_low E (hp8 p) hf.vec) fun _ _ l =>
      .pure ⟨rp, rs, aah l _, rsp, rss⟩
  | cloneHash dst src => exact .pure ⟨rp, rs, ah (rh src) _, rsp, rss⟩
  | asBytes h => exact .bind (asBytesT_low (rh h)) fun _ _ _ => .pure ⟨rp, rs, rh, rsp, rss⟩
  | toHex h => cases hc
  | debugHash h => cases hc
  | eqHash a b => exact .bind (eqHashT_low (rh a) (rh b)) fun _ _ _ => .pure ⟨rp, rs, rh, rsp, rss⟩
  | eqSlice h b => exact .bind (eqSliceT_low (rh h) hf.head) fun _ _ _ => .pure ⟨rp, rs, rh, rsp, rss⟩
  | blake2sp b h =>
    exact .bind (blake2spT_low E hf.head) fun _ _ l => .pure ⟨rp, rs, ah l _, rsp, rss⟩
  | spNewParams p =>
    have q : Sp.PLow Sp.Params.new Sp.Params.new := ⟨rfl, rfl⟩
    exact .pure ⟨rp, rs, rh, assign_rel rsp q _, rss⟩
  | spCloneParams dst src => exact .pure ⟨rp, rs, rh, assign_rel rsp (rsp src) _, rss⟩
  | spSet p c =>
    exact .bind (Sp.setT_low (rsp p) (spSet_fill_low c hf)) fun _ _ q =>
      .pure ⟨rp, rs, rh, assign_rel rsp q _, rss⟩
  | spDebugParams p =>
    exact .bind (Sp.debugParamsT_low (rsp p)) fun _ _ _ => .pure ⟨rp, rs, rh, rsp, rss⟩
  | spNewState s =>
    exact .bind (Sp.withParamsT_low E ⟨rfl, rfl⟩) fun _ _ q =>
      .pure ⟨rp, rs, rh, rsp, assign_rel rss q _⟩
  | spToState s p =>
    exact .bind (Sp.withParamsT_low E (rsp p)) fun _ _ q =>
      .pure ⟨rp, rs, rh, rsp, assign_rel rss q _⟩
  | spUpdate s b =>
    exact .bind (Sp.updateT_low E (rss s) hf.head) fun _ _ q =>
      .pure ⟨rp, rs, rh, rsp, assign_rel rss q _⟩
  | spWrite s b =>
    refine .bind (Sp.writeT_low E (rss s) hf.head) ?_
    rintro ⟨x, n⟩ ⟨y, m⟩ ⟨q, -⟩
    exact .pure ⟨rp, rs, rh, rsp, assign_rel rss q _⟩
  | spFlush s => exact .pure ⟨rp, rs, rh, rsp, assign_rel rss (rss s) _⟩
  | spFinalize s h =>
    refine .bind (Sp.finalizeT_low E (rss s)) ?_
    rintro ⟨x, n⟩ ⟨y, m⟩ ⟨q, l⟩
    exact .pure ⟨rp, rs, ah l _, rsp, assign_rel rss q _⟩
  | spCount s =>
    show Low (do return (w, Out.count (← (w.spState s).getCountT E)))
      (do return (v, Out.count (← (v.spState s).getCountT E))) _
    rw [Sp.getCountT_low E (rss s)]
    exact .same _ fun _ => .pure ⟨rp, rs, rh, rsp, rss⟩
  | spDebugState s =>
    exact .bind (Sp.debugT_low E (rss s)) fun _ _ _ => .pure ⟨rp, rs, rh, rsp, rss⟩
  | spForcePortable s =>
    have q : Sp.SpLow (w.spState s).forcePortable (v.spState s).forcePortable := by
      refine ⟨?_, ?_, (rss s).buflen, rfl⟩
      · have q : ∀ i : Fin 8, SLow (w.spState s).leaves[i].forcePortable (v.spState s).leaves[i].forcePortable :=
          fun i => ⟨((rss s).leaves i).buflen, ((rss s).leaves i).count, rfl, ((rss s).leaves i).ln,
            ((rss s).leaves i).hl⟩
        exact .mk (q 0) (q 1) (q 2) (q 3) (q 4) (q 5) (q 6) (q 7)
      · have h := (rss s).root
        exact ⟨h.buflen, h.count, rfl, h.ln, h.hl⟩
    exact .pure ⟨rp, rs, rh, rsp, assign_rel rss q _⟩

theorem callT_low (E : Env) {w v : World} (r : WLow w v) {c d : Call} (h : d.shape = c.shape)
    (hc : c.printsHex = false) :
    Low (w.callT E c) (v.callT E d) (fun y z => WLow y.1 z.1) := by
  obtain ⟨e, l⟩ := fill_of_shape h
  have := callT_fill E r c l hc
  rwa [← e] at this

theorem runT_low (E : Env) {w v : World} (r : WLow w v) {cs ds : List Call}
    (h : ds.map Call.shape = cs.map Call.shape) (hc : ∀ c ∈ cs, c.printsHex = false) :
    Low (w.runT E cs) (v.runT E ds) (fun y z => WLow y.1 z.1) := by
  induction cs generalizing ds w v with
  | nil =>
    cases ds with
    | nil => exact .pure r
    | cons => cases h
  | cons c cs ih =>
    cases ds with
    | nil => cases h
    | cons d ds =>
      obtain ⟨h1, h2⟩ := List.cons.inj h
      unfold World.runT
      refine .bind (callT_low E r h1 (hc c (.head _))) ?_
      rintro ⟨w1, o⟩ ⟨v1, o'⟩ q
      refine .bind (ih q h2 fun c h => hc c (.tail _ h)) ?_
      rintro ⟨w2, os⟩ ⟨v2, os'⟩ q
      exact .pure q

theorem programT_low (E : Env) {cs ds : List Call} (h : ds.map Call.shape = cs.map Call.shape)
    (hc : ∀ c ∈ cs, c.printsHex = false) :
    Low (programT E cs) (programT E ds) (fun _ _ => True) := by
  unfold programT
  refine .same _ fun w => .bind (runT_low E (.refl w) h hc) ?_
  rintro ⟨w2, os⟩ ⟨v2, os'⟩ q
  exact .pure trivial

/-! ## Programs that print digests -/

theorem hexOf_injective {a b : List U8} (h : hexOf a = hexOf b) : a = b := by
  induction a generalizing b with
  | nil =>
    cases b with
    | nil => rfl
    | cons y ys => cases h
  | cons x xs ih =>
    cases b with
    | nil => cases h
    | cons y ys =>
      have h : hexDigit (x.toNat / 16) :: hexDigit (x.toNat % 16) :: hexOf xs
          = hexDigit (y.toNat / 16) :: hexDigit (y.toNat % 16) :: hexOf ys := h
      obtain ⟨h1, h⟩ := List.cons.inj h
      obtain ⟨h2, h⟩ := List.cons.inj h
      have hd : ∀ m n : Fin 16, hexDigit m.val = hexDigit n.val → m = n := by decide
      have hx : x.toNat < 256 := x.isLt
      have hy : y.toNat < 256 := y.isLt
      have e1 := hd ⟨x.toNat / 16, by omega⟩ ⟨y.toNat / 16, by omega⟩ h1
      have e2 := hd ⟨x.toNat % 16, by omega⟩ ⟨y.toNat % 16, by omega⟩ h2
      simp only [Fin.mk.injEq] at e1 e2
      rw [ih h]
      congr 1
      apply BitVec.eq_of_toNat_eq
      omega

theorem asBytes_le {h : Hash} {b : List U8} (e : h.asBytes = .ok b) : b.length ≤ 32 := by
  unfold Hash.asBytes sliceTo at e
  split at e
  · cases e
    simp
    omega
  · cases e

/-- A digest printed in hexadecimal fixes the trace of printing it. -/
theorem toHexT_low {h g : Hash} (r : g.len = h.len) (e : h.toHexT.1 = g.toHexT.1) :
    Low h.toHexT g.toHexT Eq := by
  rw [Hash.toHexT_fst, Hash.toHexT_fst] at e
  have l := asBytesT_low r
  unfold Hash.toHexT
  obtain ⟨lt, ⟨a, b, ha, hb, -⟩ | ⟨f, ha, hb⟩⟩ := l
  · have ha' : h.asBytes = .ok a := by rw [← ha, Hash.asBytesT_fst]
    have hb' : g.asBytes = .ok b := by rw [← hb, Hash.asBytesT_fst]
    have e1 : h.toHex = .ok (hexOf a) := by
      have := asBytes_le ha'
      unfold Hash.toHex
      rw [ha']
      show bytesToHexLoop a [] = _
      rw [bytesToHexLoop_ok a [] (by simp; omega)]
      rfl
    have e2 : g.toHex = .ok (hexOf b) := by
      have := asBytes_le hb'
      unfold Hash.toHex
      rw [hb']
      show bytesToHexLoop b [] = _
      rw [bytesToHexLoop_ok b [] (by simp; omega)]
      rfl
    rw [e1, e2] at e
    have : a = b := hexOf_injective (Except.ok.inj e)
    subst this
    have q : Low h.asBytesT g.asBytesT Eq := ⟨lt, .inl ⟨a, a, ha, hb, rfl⟩⟩
    exact .bind q fun _ _ h => by cases h; exact .refl _
  · exact .bind (Q := Eq) ⟨lt, .inr ⟨f, ha, hb⟩⟩ fun _ _ h => by cases h; exact .refl _

theorem debugHashT_low {h g : Hash} (r : g.len = h.len) (e : h.debugT.1 = g.debugT.1) :
    Low h.debugT g.debugT Eq := by
  have e' : h.toHexT.1 = g.toHexT.1 := by
    unfold Hash.debugT at e
    simp only [Tr.bind_fst, Tr.pure_fst] at e
    cases h1 : h.toHexT.1 <;> cases h2 : g.toHexT.1 <;> rw [h1, h2] at e
    · exact e
    · cases e
    · cases e
    · have := Except.ok.inj e
      rw [List.append_left_inj, List.append_right_inj] at this
      rw [this]
  unfold Hash.debugT
  exact .bind (toHexT_low r e') fun _ _ h => by cases h; exact .refl _

/-- One call, of programs that print the same digests. -/
theorem callT_hex (E : Env) {w v w1 v1 : World} (r : WLow w v) {c d : Call}
    (hsh : d.shape = c.shape) {o o' : Out}
    (hw : (w.callT E c).1 = .ok (w1, o)) (hv : (v.callT E d).1 = .ok (v1, o'))
    (ho : o.hexText = o'.hexText) :
    (w.callT E c).2 = (v.callT E d).2 ∧ WLow w1 v1 := by
  by_cases hc : c.printsHex = false
  · obtain ⟨t, ⟨a, b, ha, hb, q⟩ | ⟨f, ha, -⟩⟩ := callT_low E r hsh hc
    · rw [hw] at ha
      rw [hv] at hb
      cases ha
      cases hb
      exact ⟨t, q⟩
    · rw [hw] at ha
      cases ha
  · obtain ⟨e, -⟩ := fill_of_shape hsh
    rw [e] at hv ⊢
    cases c with
    | toHex h =>
      have hw : ((do return (w, Out.hex (← (w.hash h).toHexT))) : Tr (World × Out)).1 = _ := hw
      have hv : ((do return (v, Out.hex (← (v.hash h).toHexT))) : Tr (World × Out)).1 = _ := hv
      simp only [Tr.bind_fst, Tr.pure_fst] at hw hv
      cases h1 : (w.hash h).toHexT.1 <;> rw [h1] at hw <;> cases hw
      cases h2 : (v.hash h).toHexT.1 <;> rw [h2] at hv <;> cases hv
      cases ho
      have l : Low (w.callT E (.toHex h)) (v.callT E (.toHex h)) (fun _ _ => True) :=
        .bind (toHexT_low (r.hash h) (h1.trans h2.symm)) fun _ _ _ => .pure trivial
      exact ⟨l.1, r⟩
    | debugHash h =>
      have hw : ((do return (w, Out.hex (← (w.hash h).debugT))) : Tr (World × Out)).1 = _ := hw
      have hv : ((do return (v, Out.hex (← (v.hash h).debugT))) : Tr (World × Out)).1 = _ := hv
      simp only [Tr.bind_fst, Tr.pure_fst] at hw hv
      cases h1 : (w.hash h).debugT.1 <;> rw [h1] at hw <;> cases hw
      cases h2 : (v.hash h).debugT.1 <;> rw [h2] at hv <;> cases hv
      cases ho
      have l : Low (w.callT E (.debugHash h)) (v.callT E (.debugHash h)) (fun _ _ => True) :=
        .bind (debugHashT_low (r.hash h) (h1.trans h2.symm)) fun _ _ _ => .pure trivial
      exact ⟨l.1, r⟩
    | _ => exact absurd rfl hc

theorem Tr.bind_ok {α β : Type} {m : Tr α} {g : α → Tr β} {b : β} (h : (m >>= g).1 = .ok b) :
    ∃ a, m.1 = .ok a ∧ (g a).1 = .ok b ∧ (m >>= g).2 = m.2 ++ (g a).2 := by
  rcases m with ⟨r, t⟩
  cases r with
  | ok a => exact ⟨a, rfl, h, rfl⟩
  | error f => cases h

theorem runT_hex (E : Env) {cs ds : List Call} (h : ds.map Call.shape = cs.map Call.shape)
    {w v w1 v1 : World} (r : WLow w v) {os os' : List Out}
    (hw : (w.runT E cs).1 = .ok (w1, os)) (hv : (v.runT E ds).1 = .ok (v1, os'))
    (ho : os.map Out.hexText = os'.map Out.hexText) :
    (w.runT E cs).2 = (v.runT E ds).2 := by
  induction cs generalizing ds w v os os' with
  | nil =>
    cases ds with
    | nil => rfl
    | cons => cases h
  | cons c cs ih =>
    cases ds with
    | nil => cases h
    | cons d ds =>
    obtain ⟨h1, h2⟩ := List.cons.inj h
    unfold World.runT at hw hv ⊢
    obtain ⟨⟨w2, o⟩, a1, hw, t1⟩ := Tr.bind_ok hw
    obtain ⟨⟨v2, o'⟩, b1, hv, u1⟩ := Tr.bind_ok hv
    rw [t1, u1]
    obtain ⟨⟨w3, os3⟩, a2, hw, t2⟩ := Tr.bind_ok hw
    obtain ⟨⟨v3, os3'⟩, b2, hv, u2⟩ := Tr.bind_ok hv
    have hw : (Except.ok (w3, o :: os3) : R _) = .ok (w1, os) := hw
    have hv : (Except.ok (v3, o' :: os3') : R _) = .ok (v1, os') := hv
    cases hw
    cases hv
    obtain ⟨ho1, ho2⟩ := List.cons.inj ho
    obtain ⟨e, q⟩ := callT_hex E r h1 a1 b1 ho1
    have e2 := ih h2 q a2 b2 ho2
    dsimp only at t2 u2 ⊢
    rw [t2, u2, e, e2]
    rfl

theorem programT_hex (E : Env) {cs ds : List Call} (h : ds.map Call.shape = cs.map Call.shape)
    {os os' : List Out} (hw : (programT E cs).1 = .ok os)
    (hv : (programT E ds).1 = .ok os')
    (ho : os.map Out.hexText = os'.map Out.hexText) :
    (programT E cs).2 = (programT E ds).2 := by
  unfold programT at hw hv ⊢
  obtain ⟨w, a1, hw, t1⟩ := Tr.bind_ok hw
  obtain ⟨v, b1, hv, u1⟩ := Tr.bind_ok hv
  rw [a1] at b1
  cases b1
  rw [t1, u1]
  obtain ⟨⟨w3, os3⟩, a2, hw, t2⟩ := Tr.bind_ok hw
  obtain ⟨⟨v3, os3'⟩, b2, hv, u2⟩ := Tr.bind_ok hv
  have hw : (Except.ok os3 : R _) = .ok os := hw
  have hv : (Except.ok os3' : R _) = .ok os' := hv
  cases hw
  cases hv
  rw [t2, u2, runT_hex E h (.refl w) a2 b2 ho]
  rfl

/-! ## What printing a digest reveals -/

/-- The trace of printing bytes: the nibbles are positions in the table of digits. -/
def hexTrace : List U8 → Nat → List Event
  | [], _ => [.branch false]
  | b :: bs, n =>
    [.branch true, .address (b.toNat / 16), .branch true, .address n, .address (b.toNat % 16),
      .branch true, .address (n + 1)] ++ hexTrace bs (n + 2)

theorem bytesToHexLoopT_trace (b : List U8) (s : List Char) (h : s.length + 2 * b.length ≤ 64) :
    (bytesToHexLoopT b s).2 = hexTrace b s.length := by
  induction b generalizing s with
  | nil => rfl
  | cons x xs ih =>
    rw [List.length_cons] at h
    have h1 : x.toNat < 256 := x.isLt
    have hp : ∀ (s : List Char) (c : Char), s.length < 64 → arrayStringPushT (2 * OUTBYTES) s c
        = (.ok (s ++ [c]), [.branch true, .address s.length]) := by
      intro s c hs
      have : decide (s.length < 2 * OUTBYTES) = true :=
        decide_eq_true (show s.length < 64 from hs)
      unfold arrayStringPushT
      rw [this, push_ok s c hs]
      rfl
    have ht : ∀ n : Nat, n < 16 → hexTableT n = (.ok (hexDigit n), [.address n]) := by
      intro n hn
      unfold hexTableT
      rw [hexTable_ok n hn]
      rfl
    unfold bytesToHexLoopT
    rw [nibble_hi, nibble_lo, ht _ (by omega), ht _ (by omega)]
    have e1 := hp s (hexDigit (x.toNat / 16)) (by omega)
    have e2 := hp (s ++ [hexDigit (x.toNat / 16)]) (hexDigit (x.toNat % 16)) (by simp; omega)
    have e3 := ih ((s ++ [hexDigit (x.toNat / 16)]) ++ [hexDigit (x.toNat % 16)]) (by simp; omega)
    show Event.branch true :: .address (x.toNat / 16) :: (Tr.andThen (arrayStringPushT (2 * OUTBYTES) s
      (hexDigit (x.toNat / 16))) fun s => Tr.andThen (.ok (hexDigit (x.toNat % 16)), [.address (x.toNat % 16)])
        fun c => Tr.andThen (arrayStringPushT (2 * OUTBYTES) s c) fun s => bytesToHexLoopT xs s).2 = _
    rw [e1]
    show Event.branch true :: .address (x.toNat / 16) :: .branch true :: .address s.length ::
      .address (x.toNat % 16) :: (Tr.andThen (arrayStringPushT (2 * OUTBYTES)
        (s ++ [hexDigit (x.toNat / 16)]) (hexDigit (x.toNat % 16))) fun s => bytesToHexLoopT xs s).2 = _
    rw [e2]
    show Event.branch true :: .address (x.toNat / 16) :: .branch true :: .address s.length ::
      .address (x.toNat % 16) :: .branch true :: .address (s ++ [hexDigit (x.toNat / 16)]).length ::
      (bytesToHexLoopT xs _).2 = _
    rw [e3]
    simp [hexTrace]

theorem hexTrace_injective (a b : List U8) (n : Nat) (h : hexTrace a n = hexTrace b n) : a = b := by
  induction a generalizing b n with
  | nil =>
    cases b with
    | nil => rfl
    | cons y ys => simp [hexTrace] at h
  | cons x xs ih =>
    cases b with
    | nil => simp [hexTrace] at h
    | cons y ys =>
      simp only [hexTrace, List.cons_append, List.nil_append, List.cons.injEq, Event.address.injEq,
        true_and] at h
      obtain ⟨h1, h2, h⟩ := h
      rw [ih ys (n + 2) h]
      congr 1
      apply BitVec.eq_of_toNat_eq
      omega

/-- The trace of printing a digest determines the digest. -/
theorem toHexT_reveals {h g : Hash} (r : g.len = h.len) {a b : List U8} (ha : h.asBytes = .ok a)
    (hb : g.asBytes = .ok b) (e : h.toHexT.2 = g.toHexT.2) : a = b := by
  have la := asBytes_le ha
  have lb := asBytes_le hb
  rw [← Hash.asBytesT_fst] at ha hb
  have l := (asBytesT_low r).1
  unfold Hash.toHexT at e
  have step : ∀ (m : Tr (List U8)) (a : List U8), m.1 = .ok a →
      (m >>= fun x => bytesToHexLoopT x []).2 = m.2 ++ (bytesToHexLoopT a []).2 := by
    rintro ⟨r, t⟩ a h
    cases h
    rfl
  rw [step _ _ ha, step _ _ hb, l, List.append_cancel_left_eq,
    bytesToHexLoopT_trace a [] (by simp; omega), bytesToHexLoopT_trace b [] (by simp; omega)] at e
  exact hexTrace_injective a b _ e

end Blake2s
