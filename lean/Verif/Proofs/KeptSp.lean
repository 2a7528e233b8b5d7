import Verif.Proofs.Kept
import Verif.Proofs.SpRoot
/-!
# The contents of the buffers of `blake2sp::State`
-/

namespace Blake2s

theorem Kept.padded_length {b : List U8} (h : b.length ≤ 64) : (Kept.padded b).length = 64 := by
  simp [Kept.padded]; omega

theorem Kept.padded_getD (b : List U8) (i : Nat) : (Kept.padded b).getD i 0 = b.getD i 0 := by
  unfold Kept.padded
  rw [List.getD_eq_getElem?_getD, List.getElem?_append]
  split
  · rw [List.getD_eq_getElem?_getD]
  · rename_i h
    rw [List.getElem?_replicate, List.getD_eq_getElem?_getD, List.getElem?_eq_none (by omega)]
    split <;> rfl

theorem State.buf_eq {s : State} {b : List U8} (hb : b.length = 64)
    (h : ∀ i, i < 64 → s.at i = b.getD i 0) : s.buf.toList = b := by
  apply List.ext_getElem
  · simp [hb]
  · intro i h1 h2
    have hi : i < 64 := by rw [hb] at h2; exact h2
    have := h i hi
    unfold State.at at this
    rw [List.getD_eq_getElem?_getD, List.getElem?_eq_getElem h1, List.getD_eq_getElem?_getD,
      List.getElem?_eq_getElem h2] at this
    exact this

theorem Kept.place_zero (x : List U8) (hx : x.length ≤ 64) (i : Nat) : place 0 x 0 i = x.getD i 0 := by
  unfold place
  simp only [Nat.zero_add, Nat.zero_le, true_and, Nat.sub_zero]
  rw [show (x.length - 1) / 64 = 0 by omega]
  simp only [Nat.mul_zero, Nat.zero_add]
  split
  · rfl
  · rw [if_neg (by omega), List.getD_eq_getElem?_getD, List.getElem?_eq_none (by omega)]
    rfl

theorem keyBlock_getD (k : List U8) (i : Nat) : (Spec.keyBlock k).getD i 0 = k.getD i 0 := by
  unfold Spec.keyBlock
  split
  · rename_i h; rw [h]
  · exact Kept.padded_getD k i

/-- A new state holds the key, followed by zeros, in its buffer. -/
theorem withParams_buf {E : Env} {p : Params} (v : p.Valid) (hE : E.WF) :
    Gives (State.withParams E p) (fun s => s.buf.toList = Kept.padded p.keyBytes) := by
  intro s h
  have hk : p.keyBytes.length ≤ 32 := by rw [v.keyBytes_length]; exact v.kl
  refine State.buf_eq (Kept.padded_length (by omega)) fun i hi => ?_
  rw [withParams_at v hE h i hi, Kept.place_zero _ ?_, Kept.padded_getD, keyBlock_getD]
  rw [keyBlock_length _ (by omega)]
  split <;> omega

namespace Sp

/-- What `update` never touches. -/
structure Untouched (s t : State) : Prop where
  leaves : ∀ i : Fin 8, t.leaves[i].buf = s.leaves[i].buf
  root : t.root.buf = s.root.buf

theorem Untouched.refl (s : State) : Untouched s s := ⟨fun _ => rfl, rfl⟩

theorem Untouched.trans {s t u : State} (h : Untouched s t) (g : Untouched t u) : Untouched s u :=
  ⟨fun i => (g.leaves i).trans (h.leaves i), g.root.trans h.root⟩

theorem compress8_bufs (E : Env) (row : Vector U8 512) (lf : Vector Blake2s.State 8) (fn : Compress8Fn) :
    Gives (State.compress8 E row lf fn) (fun r => ∀ i : Fin 8, r[i].buf = lf[i].buf) := by
  unfold State.compress8
  iterate 24 refine Gives.any fun _ => ?_
  refine Gives.pure (fin8_cases ?_)
  intro i hi
  match i, hi with
  | 0, _ => rfl
  | 1, _ => rfl
  | 2, _ => rfl
  | 3, _ => rfl
  | 4, _ => rfl
  | 5, _ => rfl
  | 6, _ => rfl
  | 7, _ => rfl

theorem updateLoop_bufs (E : Env) (fn : Compress8Fn) (fuel : Nat) (lf : Vector Blake2s.State 8) (x : List U8) :
    Gives (State.updateLoop E fn fuel lf x) (fun r => ∀ i : Fin 8, r.1[i].buf = lf[i].buf) := by
  induction fuel generalizing lf x with
  | zero => exact Gives.throw
  | succ fuel ih =>
    unfold State.updateLoop
    split
    · refine Gives.any fun b => ?_
      refine (compress8_bufs E b lf fn).bind fun l hl => ?_
      refine Gives.any fun y => ?_
      exact (ih l y).mono fun r h i => (h i).trans (hl i)
    · exact Gives.pure fun _ => rfl

theorem fillBuf_untouched (E : Env) (s : State) (x : List U8) :
    Gives (s.fillBuf E x) (fun r => Untouched s r.1) := by
  unfold State.fillBuf
  iterate 5 refine Gives.any fun _ => ?_
  exact Gives.pure ⟨fun _ => rfl, rfl⟩

theorem updateBuffered_untouched (E : Env) (s : State) (x : List U8) :
    Gives (s.updateBuffered E x) (fun r => Untouched s r.1) := by
  unfold State.updateBuffered
  split
  · refine (fillBuf_untouched E s x).bind ?_
    rintro ⟨s1, y⟩ h1
    simp only at h1 ⊢
    split
    · refine (compress8_bufs E _ _ _).bind fun l hl => ?_
      refine Gives.any fun bl => ?_
      split
      · refine (compress8_bufs E _ _ _).bind fun l' hl' => ?_
        exact Gives.pure ⟨fun i => (hl' i).trans ((hl i).trans (h1.leaves i)), h1.root⟩
      · refine Gives.any fun _ => Gives.any fun _ => ?_
        exact Gives.pure ⟨fun i => (hl i).trans (h1.leaves i), h1.root⟩
    · exact Gives.pure h1
  · exact Gives.pure (.refl s)

theorem update_untouched (E : Env) (s : State) (x : List U8) :
    Gives (s.update E x) (fun t => Untouched s t) := by
  unfold State.update
  refine (updateBuffered_untouched E s x).bind ?_
  rintro ⟨s1, y⟩ h1
  refine (updateLoop_bufs E _ _ s1.leaves y).bind ?_
  rintro ⟨l, z⟩ hl
  refine (fillBuf_untouched E _ z).bind ?_
  rintro ⟨s2, w⟩ h2
  refine Gives.any fun _ => Gives.pure ?_
  have hm : Untouched s1 { s1 with leaves := l } := ⟨hl, rfl⟩
  exact h1.trans (hm.trans h2)

theorem forcePortable_untouched (s : State) : Untouched s s.forcePortable := by
  refine ⟨fin8_cases ?_, rfl⟩
  intro i hi
  match i, hi with
  | 0, _ => rfl
  | 1, _ => rfl
  | 2, _ => rfl
  | 3, _ => rfl
  | 4, _ => rfl
  | 5, _ => rfl
  | 6, _ => rfl
  | 7, _ => rfl

theorem leafState_buf {E : Env} (hE : E.WF) {p : Params} (v : p.Valid) (i : U64) (hi : i.toNat < 2 ^ 48) :
    Gives (State.leafState E (nodeP p 0 0 false) i) (fun s => s.buf.toList = Kept.padded p.keyBytes) := by
  unfold State.leafState
  rw [setNodeOffset_eq, if_pos hi]
  have := withParams_buf (E := E) (p := nodeP p i 0 (decide (i = 7))) (nodeP_valid v _ _ _ hi) hE
  rw [nodeP_keyBytes v] at this
  exact Gives.bind (m := Blake2s.Params.toState E (Blake2s.Params.setLastNode (Blake2s.Params.setNodeDepth
      { nodeP p 0 0 false with nodeOffset := i } 0) (decide (i = 7)))) this fun s h => Gives.pure h

/-- A new state has the key in the buffers of the leaves and of the root. -/
theorem withParams_bufs {E : Env} (hE : E.WF) {p : Params} (v : p.Valid) :
    Gives (State.withParams E p) (fun s =>
      (∀ i : Fin 8, s.leaves[i].buf.toList = Kept.padded p.keyBytes) ∧
        s.root.buf.toList = Kept.padded p.keyBytes ∧ s.buf = Vector.replicate 1024 0 ∧ s.buflen = 0) := by
  unfold State.withParams
  rw [baseParams_ok p v]
  simp only [bind, Except.bind]
  rw [setNodeOffset_eq, if_pos (by decide)]
  simp only []
  have := withParams_buf (E := E) (p := nodeP p 0 1 true) (nodeP_valid v _ _ _ (by decide)) hE
  rw [nodeP_keyBytes v] at this
  refine Gives.bind (m := Blake2s.Params.toState E (Blake2s.Params.setLastNode (Blake2s.Params.setNodeDepth
      { nodeP p 0 0 false with nodeOffset := 0 } 1) true)) this fun root hr => ?_
  refine (leafState_buf hE v 0 (by decide)).bind fun l0 h0 => ?_
  refine (leafState_buf hE v 1 (by decide)).bind fun l1 h1 => ?_
  refine (leafState_buf hE v 2 (by decide)).bind fun l2 h2 => ?_
  refine (leafState_buf hE v 3 (by decide)).bind fun l3 h3 => ?_
  refine (leafState_buf hE v 4 (by decide)).bind fun l4 h4 => ?_
  refine (leafState_buf hE v 5 (by decide)).bind fun l5 h5 => ?_
  refine (leafState_buf hE v 6 (by decide)).bind fun l6 h6 => ?_
  refine (leafState_buf hE v 7 (by decide)).bind fun l7 h7 => ?_
  refine Gives.pure ⟨fin8_cases ?_, hr, rfl, rfl⟩
  intro i hi
  match i, hi with
  | 0, _ => exact h0
  | 1, _ => exact h1
  | 2, _ => exact h2
  | 3, _ => exact h3
  | 4, _ => exact h4
  | 5, _ => exact h5
  | 6, _ => exact h6
  | 7, _ => exact h7

theorem run_untouched {E : Env} (ops : List Op) {s t : State} {hs : List Hash}
    (h : s.run E ops = .ok (t, hs)) : Untouched s t := by
  induction ops generalizing s hs with
  | nil => cases h; exact .refl _
  | cons op ops ih =>
    cases op with
    | update x =>
      unfold State.run at h
      cases e : s.update E x with
      | error f => rw [e] at h; cases h
      | ok s1 => rw [e] at h; exact (update_untouched E s x s1 e).trans (ih h)
    | write x =>
      unfold State.run State.write at h
      cases e : s.update E x with
      | error f => rw [e] at h; cases h
      | ok s1 => rw [e] at h; exact (update_untouched E s x s1 e).trans (ih h)
    | flush => exact ih h
    | finalize =>
      unfold State.run at h
      cases e : s.finalize E with
      | error f => rw [e] at h; cases h
      | ok q =>
        obtain ⟨s1, d⟩ := q
        rw [e] at h
        have := finalize_keeps e
        subst this
        have h' : ((s1.run E ops) >>= fun x => pure (x.1, d :: x.2) : R _) = .ok (t, hs) := h
        cases e2 : s1.run E ops with
        | error f => rw [e2] at h'; cases h'
        | ok x => rw [e2] at h'; cases h'; exact ih e2
    | forcePortable => exact (forcePortable_untouched s).trans (ih h)

/-! ## The buffer of 1024 bytes -/

/-- Place `i` of a list is zero, or one of the first `m` bytes of `data` at the same place of its row. -/
def From (data : List U8) (m : Nat) (b : List U8) : Prop :=
  ∀ i, b.getD i 0 = 0 ∨ ∃ q, q < m ∧ q % 512 = i % 512 ∧ b.getD i 0 = data.getD q 0

/-- The state is in order after `m` bytes of `data`; `x` is the rest. -/
structure Partly (data : List U8) (s : State) (x : List U8) : Prop where
  le : s.buflen.toNat ≤ 1024
  at' : ∃ m, x = data.drop m ∧ m ≤ data.length ∧ m % 512 = s.buflen.toNat % 512 ∧ From data m s.buf.toList

theorem From.mono {data : List U8} {m n : Nat} {b : List U8} (h : From data m b) (hmn : m ≤ n) :
    From data n b := by
  intro i
  rcases h i with h | ⟨q, h1, h2⟩
  · exact .inl h
  · exact .inr ⟨q, by omega, h2⟩

theorem fillBuf_partly (E : Env) {data : List U8} {s : State} {x : List U8} (h : Partly data s x) :
    Gives (s.fillBuf E x) (fun r => Partly data r.1 r.2 ∧
      (r.2 ≠ [] → r.1.buflen.toNat = 1024) ∧ (s.buflen.toNat + x.length ≤ 1024 → r.2 = [])) := by
  obtain ⟨hle, m, rfl, hm, hmod, hf⟩ := h
  unfold State.fillBuf
  rw [usizeSub_ok _ _ hle]
  simp only [bind, Except.bind]
  generalize ht : min (1024 - s.buflen.toNat) (data.drop m).length = t
  have ht1 : t ≤ (data.drop m).length := by omega
  rw [sliceTo_ok _ _ ht1]
  simp only []
  obtain ⟨v, e, hv⟩ := copyFromSlice_ok s.buf s.buflen.toNat (s.buflen.toNat + t) ((data.drop m).take t)
    (by omega) (by omega) (by simp at ht1 ⊢; omega)
  rw [e]
  simp only []
  have hbl : addChk E s.buflen (BitVec.ofNat 16 t) = .ok (BitVec.ofNat 16 (s.buflen.toNat + t)) := by
    have h1 := addChk_ends (w := 16) E s.buflen.toNat t (fun _ => s.buflen.isLt) (by omega)
    obtain ⟨a, h2, h3, _⟩ := h1.elim (by rintro ⟨_, h⟩; omega)
    rw [BitVec.ofNat_toNat, BitVec.setWidth_eq] at h2
    rw [h2, h3]
  rw [hbl]
  simp only []
  rw [sliceFrom_ok _ _ ht1]
  have hbn : (BitVec.ofNat 16 (s.buflen.toNat + t)).toNat = s.buflen.toNat + t := by
    simp; omega
  rw [List.length_drop] at ht1 ht
  refine Gives.pure ⟨⟨?_, m + t, ?_, by omega, ?_, ?_⟩, ?_, ?_⟩
  · show (BitVec.ofNat 16 (s.buflen.toNat + t)).toNat ≤ 1024
    rw [hbn]; omega
  · show (data.drop m).drop t = _
    rw [List.drop_drop]
  · show _ = (BitVec.ofNat 16 (s.buflen.toNat + t)).toNat % 512
    rw [hbn]; omega
  · intro i
    show v.toList.getD i 0 = 0 ∨ ∃ q, _ ∧ _ ∧ v.toList.getD i 0 = _
    have hlt : ((data.drop m).take t).length = t := by simp; omega
    have hlb : (s.buf.toList.take s.buflen.toNat).length = s.buflen.toNat := by simp; omega
    have hg : v.toList.getD i 0 = if s.buflen.toNat ≤ i ∧ i < s.buflen.toNat + t
        then data.getD (m + (i - s.buflen.toNat)) 0 else s.buf.toList.getD i 0 := by
      rw [hv]
      simp only [List.getD_eq_getElem?_getD, List.append_assoc]
      rw [List.getElem?_append, hlb]
      by_cases h1 : i < s.buflen.toNat
      · rw [if_pos h1, if_neg (by omega), List.getElem?_take, if_pos h1]
      · rw [if_neg h1, List.getElem?_append, hlt]
        by_cases h2 : i - s.buflen.toNat < t
        · rw [if_pos h2, if_pos (by omega), List.getElem?_take, if_pos h2, List.getElem?_drop]
        · rw [if_neg h2, if_neg (by omega), List.getElem?_drop]
          congr 2
          omega
    rw [hg]
    split
    · exact .inr ⟨m + (i - s.buflen.toNat), by omega, by omega, rfl⟩
    · rcases hf i with h | ⟨q, h1, h2, h3⟩
      · exact .inl h
      · exact .inr ⟨q, by omega, h2, h3⟩
  · intro hne
    have := List.length_pos_iff.mpr hne
    simp only [List.drop_drop, List.length_drop] at this
    show (BitVec.ofNat 16 (s.buflen.toNat + t)).toNat = 1024
    rw [hbn]; omega
  · intro hfit
    rw [List.length_drop] at hfit
    show (data.drop m).drop t = []
    rw [List.drop_drop, List.drop_eq_nil_of_le (by omega)]

theorem updateBuffered_partly (E : Env) {data : List U8} {s : State} {x : List U8} (h : Partly data s x) :
    Gives (s.updateBuffered E x) (fun r => Partly data r.1 r.2 ∧
      (r.1.buflen.toNat = 0 ∨ r.1.buflen.toNat + r.2.length ≤ 1024)) := by
  unfold State.updateBuffered
  split
  · refine (fillBuf_partly E h).bind ?_
    rintro ⟨s1, y⟩ ⟨h1, h2, _⟩
    simp only at h1 h2 ⊢
    split
    · rename_i hy
      have hne : y ≠ [] := by
        intro h; rw [h] at hy; exact absurd hy (by decide)
      have hfull := h2 hne
      refine Gives.any fun l => ?_
      have hs : Gives (subChk E s1.buflen (8 * BitVec.ofNat 16 BLOCKBYTES)) (fun b => b.toNat = 512) := by
        intro b hb
        have : s1.buflen = 1024 := BitVec.eq_of_toNat_eq hfull
        rw [this] at hb
        have hall : ∀ o, (if o && decide ((1024 : U16).toNat < (8 * BitVec.ofNat 16 BLOCKBYTES).toNat)
            then throw .overflow else pure ((1024 : U16) - 8 * BitVec.ofNat 16 BLOCKBYTES) : R U16) = .ok 512 := by
          decide
        have hb' := hb
        unfold subChk at hb'
        rw [hall E.overflowChecks] at hb'
        cases hb'
        rfl
      refine hs.bind fun bl hbl => ?_
      obtain ⟨hle, m, rfl, hm, hmod, hf⟩ := h1
      split
      · refine Gives.any fun l' => Gives.pure
          ⟨⟨by show (0 : U16).toNat ≤ 1024; decide, m, rfl, hm, ?_, hf⟩, .inl rfl⟩
        show m % 512 = (0 : U16).toNat % 512
        rw [hmod, hfull]
        decide
      · rename_i hs7
        have hs7' : (data.drop m).length ≤ 448 := Nat.le_of_not_lt hs7
        have hright : (subArray s1.buf 512 512).toList = s1.buf.toList.drop 512 := by
          rw [subArray_toList _ _ _ (by omega), List.take_of_length_le (by simp)]
        have hleft : (subArray s1.buf 0 512).toList = s1.buf.toList.take 512 := by
          rw [subArray_toList _ _ _ (by omega)]; rfl
        simp only [hbl]
        rw [sliceTo_ok _ _ (by simp)]
        simp only [bind, Except.bind]
        obtain ⟨v, e, hv⟩ := copyFromSlice_ok (subArray s1.buf 0 512) 0 512
          ((subArray s1.buf 512 512).toList.take 512) (by omega) (by omega) (by simp)
        rw [e]
        refine Gives.pure ⟨⟨by show bl.toNat ≤ 1024; omega, m, rfl, hm, ?_, ?_⟩, .inr (by
          show bl.toNat + (data.drop m).length ≤ 1024; omega)⟩
        · show m % 512 = bl.toNat % 512
          rw [hmod, hfull, hbl]
        · intro i
          show (v ++ subArray s1.buf 512 512).toList.getD i 0 = 0 ∨ ∃ q, _ ∧ _ ∧
            (v ++ subArray s1.buf 512 512).toList.getD i 0 = _
          have hv' : v.toList = s1.buf.toList.drop 512 := by
            rw [hv, hright, hleft, List.take_zero, List.nil_append, List.take_of_length_le (by simp),
              List.drop_take, List.take_zero, List.append_nil]
          have hg : (v ++ subArray s1.buf 512 512).toList.getD i 0 =
              if i < 512 then s1.buf.toList.getD (512 + i) 0 else s1.buf.toList.getD i 0 := by
            rw [Vector.toList_append, hv', hright]
            simp only [List.getD_eq_getElem?_getD]
            rw [List.getElem?_append]
            have : (s1.buf.toList.drop 512).length = 512 := by simp
            rw [this]
            split
            · rw [List.getElem?_drop]
            · rw [List.getElem?_drop, show 512 + (i - 512) = i by omega]
          rw [hg]
          split
          · rcases hf (512 + i) with h | ⟨q, h1, h2, h3⟩
            · exact .inl h
            · exact .inr ⟨q, h1, by omega, h3⟩
          · exact hf i
    · rename_i hy
      have hy' : y = [] := by
        cases y with
        | nil => rfl
        | cons a b => exact absurd rfl hy
      refine Gives.pure ⟨h1, .inr ?_⟩
      rw [hy']
      exact h1.le
  · rename_i h0
    exact Gives.pure ⟨h, .inl (by show s.buflen.toNat = 0; omega)⟩

theorem updateLoop_partly (E : Env) (fn : Compress8Fn) (fuel : Nat) {data : List U8} {s : State}
    (lf : Vector Blake2s.State 8) {x : List U8} (h : Partly data s x)
    (hfit : s.buflen.toNat = 0 ∨ s.buflen.toNat + x.length ≤ 1024) :
    Gives (State.updateLoop E fn fuel lf x) (fun r => Partly data s r.2 ∧
      s.buflen.toNat + r.2.length ≤ 1024) := by
  induction fuel generalizing lf x with
  | zero => exact Gives.throw
  | succ fuel ih =>
    unfold State.updateLoop
    split
    · rename_i hx
      have hx' : 960 < x.length := hx
      refine Gives.any fun b => Gives.any fun l => ?_
      rw [show sliceFrom x (8 * BLOCKBYTES) = .ok (x.drop 512) from sliceFrom_ok _ _ (by
        show 512 ≤ x.length; omega)]
      refine ih l ?_ (hfit.imp id fun h => by rw [List.length_drop]; omega)
      obtain ⟨hle, m, rfl, hm, hmod, hf⟩ := h
      rw [List.length_drop] at hx'
      exact ⟨hle, m + 512, by rw [List.drop_drop], by omega, by omega, hf.mono (by omega)⟩
    · rename_i hx
      have hx' : x.length ≤ 960 := Nat.le_of_not_lt hx
      exact Gives.pure ⟨h, by show s.buflen.toNat + x.length ≤ 1024; omega⟩

theorem update_partly (E : Env) {done : List U8} {s : State} (x : List U8)
    (h : Partly done s []) : Gives (s.update E x) (fun t => Partly (done ++ x) t []) := by
  have h0 : Partly (done ++ x) s x := by
    obtain ⟨hle, m, hd, hm, hmod, hf⟩ := h
    have hm' : m = done.length := by
      have := congrArg List.length hd
      simp at this; omega
    subst hm'
    refine ⟨hle, done.length, by simp, by simp, hmod, ?_⟩
    intro i
    rcases hf i with h | ⟨q, h1, h2, h3⟩
    · exact .inl h
    · refine .inr ⟨q, h1, h2, ?_⟩
      rw [h3]
      simp only [List.getD_eq_getElem?_getD]
      rw [List.getElem?_append_left h1]
  unfold State.update
  refine (updateBuffered_partly E h0).bind ?_
  rintro ⟨s1, y⟩ ⟨h1, f1⟩
  refine (updateLoop_partly E _ _ s1.leaves h1 f1).bind ?_
  rintro ⟨l, z⟩ ⟨h2, f2⟩
  have h2' : Partly (done ++ x) { s1 with leaves := l } z := ⟨h2.le, h2.at'⟩
  refine (fillBuf_partly E h2').bind ?_
  rintro ⟨s2, w⟩ ⟨h3, _, h4⟩
  have hw : w = [] := h4 f2
  subst hw
  exact Gives.any fun _ => Gives.pure h3

theorem run_partly {E : Env} (ops : List Op) {done : List U8} {s t : State} {hs : List Hash}
    (r : Partly done s []) (h : s.run E ops = .ok (t, hs)) : Partly (done ++ fed ops) t [] := by
  induction ops generalizing done s hs with
  | nil => cases h; simpa [fed] using r
  | cons op ops ih =>
    cases op with
    | update x =>
      unfold State.run at h
      cases e : s.update E x with
      | error f => rw [e] at h; cases h
      | ok s1 =>
        rw [e] at h
        rw [fed, ← List.append_assoc]
        exact ih (update_partly E x r s1 e) h
    | write x =>
      unfold State.run State.write at h
      cases e : s.update E x with
      | error f => rw [e] at h; cases h
      | ok s1 =>
        rw [e] at h
        rw [fed, ← List.append_assoc]
        exact ih (update_partly E x r s1 e) h
    | flush => exact ih r h
    | finalize =>
      unfold State.run at h
      cases e : s.finalize E with
      | error f => rw [e] at h; cases h
      | ok q =>
        obtain ⟨s1, d⟩ := q
        rw [e] at h
        have := finalize_keeps e
        subst this
        have h' : ((s1.run E ops) >>= fun x => pure (x.1, d :: x.2) : R _) = .ok (t, hs) := h
        cases e2 : s1.run E ops with
        | error f => rw [e2] at h'; cases h'
        | ok x => rw [e2] at h'; cases h'; exact ih r e2
    | forcePortable => exact ih (s := s.forcePortable) ⟨r.le, r.at'⟩ h

end Sp

end Blake2s
