import Verif.Kept
import Verif.Proofs.Eight
import Verif.Proofs.History
/-!
# The contents of the buffers, remains included
-/

namespace Blake2s

/-- If the computation ends normally, its value satisfies `Q`. -/
def Gives {α : Type} (m : R α) (Q : α → Prop) : Prop := ∀ a, m = .ok a → Q a

theorem Gives.pure {α : Type} {a : α} {Q : α → Prop} (h : Q a) : Gives (pure a) Q := by
  intro b e; cases e; exact h

theorem Gives.bind {α β : Type} {m : R α} {f : α → R β} {P : α → Prop} {Q : β → Prop} (h : Gives m P)
    (hf : ∀ a, P a → Gives (f a) Q) : Gives (m >>= f) Q := by
  intro b e
  cases hm : m with
  | error x => rw [hm] at e; cases e
  | ok a => rw [hm] at e; exact hf a (h a hm) b e

theorem Gives.any {α β : Type} {m : R α} {f : α → R β} {Q : β → Prop} (hf : ∀ a, Gives (f a) Q) :
    Gives (m >>= f) Q := Gives.bind (P := fun _ => True) (fun _ _ => trivial) fun a _ => hf a

theorem Gives.mono {α : Type} {m : R α} {P Q : α → Prop} (h : Gives m P) (hpq : ∀ a, P a → Q a) : Gives m Q :=
  fun a e => hpq a (h a e)

theorem Gives.throw {α : Type} {f : Fault} {Q : α → Prop} : Gives (throw f : R α) Q := by
  intro a e; cases e

namespace Kept

/-- `x` written over `b` from position `l`. -/
def over (b : List U8) (l : Nat) (x : List U8) : List U8 := b.take l ++ x ++ b.drop (l + x.length)

/-- `x` is fed to an empty buffer `b`. -/
def tail (b x : List U8) : List U8 := over b 0 (x.drop (64 * ((x.length - 1) / 64)))

/-- `x` is fed to a buffer `b` in which `l` bytes wait. -/
def fill (l : Nat) (b x : List U8) : List U8 :=
  if l = 0 then tail b x
  else if x.length ≤ 64 - l then over b l x
  else tail (over b l (x.take (64 - l))) (x.drop (64 - l))

theorem over_nil (b : List U8) (l : Nat) : over b l [] = b := by
  simp [over]

theorem over_length {b x : List U8} {l : Nat} (hb : b.length = 64) (h : l + x.length ≤ 64) :
    (over b l x).length = 64 := by
  simp [over]; omega

theorem tail_small {b x : List U8} (h : x.length ≤ 64) : tail b x = over b 0 x := by
  unfold tail
  rw [show (x.length - 1) / 64 = 0 by omega]
  rfl

theorem tail_step {b x : List U8} (h : 64 < x.length) : tail b (x.drop 64) = tail b x := by
  unfold tail
  rw [List.drop_drop, List.length_drop]
  congr 2
  omega

end Kept

/-- What feeding the rest `r.2` to `r.1` makes of the buffer is what feeding `x` to `s` does. -/
def Same (s : State) (x : List U8) (r : State × List U8) : Prop :=
  Kept.fill r.1.buflen.toNat r.1.buf.toList r.2 = Kept.fill s.buflen.toNat s.buf.toList x

theorem fillBuf_gives (E : Env) (s : State) (hl : s.buflen.toNat ≤ 64) (x : List U8) :
    Gives (s.fillBuf E x) (fun r => ∃ t, t = min (64 - s.buflen.toNat) x.length ∧ r.2 = x.drop t ∧
      r.1.buflen.toNat = s.buflen.toNat + t ∧
      r.1.buf.toList = Kept.over s.buf.toList s.buflen.toNat (x.take t)) := by
  unfold State.fillBuf
  rw [usizeSub_ok _ _ hl]
  simp only [bind, Except.bind]
  generalize ht : min (64 - s.buflen.toNat) x.length = t
  have ht1 : t ≤ x.length := by omega
  rw [sliceTo_ok _ _ ht1]
  simp only []
  obtain ⟨v, e, hv⟩ := copyFromSlice_ok s.buf s.buflen.toNat (s.buflen.toNat + t) (x.take t)
    (by omega) (by omega) (by simp; omega)
  rw [e]
  simp only []
  have hbl : addChk E s.buflen (BitVec.ofNat 8 t) = .ok (BitVec.ofNat 8 (s.buflen.toNat + t)) := by
    have h1 := addChk_ends (w := 8) E s.buflen.toNat t (fun _ => s.buflen.isLt) (by omega)
    obtain ⟨a, h2, h3, _⟩ := h1.elim (by rintro ⟨_, h⟩; omega)
    rw [BitVec.ofNat_toNat, BitVec.setWidth_eq] at h2
    rw [h2, h3]
  rw [hbl]
  simp only []
  refine Gives.any (m := addChk E s.count (BitVec.ofNat 64 t)) fun c => ?_
  rw [sliceFrom_ok _ _ ht1]
  refine Gives.pure ⟨t, rfl, rfl, ?_, ?_⟩
  · simp; omega
  · simp only [hv, Kept.over, List.length_take, Nat.min_eq_left ht1]

theorem compressBuffer_gives (E : Env) (s : State) (hl : s.buflen.toNat ≤ 64) (x : List U8) :
    Gives (s.compressBufferIfPossible E x) (fun r => Same s x r ∧ r.1.buflen.toNat ≤ 64 ∧
      (r.2 = [] ∨ r.1.buflen.toNat = 0)) := by
  unfold State.compressBufferIfPossible
  by_cases hb : s.buflen.toNat > 0
  · rw [if_pos hb]
    refine (fillBuf_gives E s hl x).bind ?_
    rintro ⟨s', r⟩ ⟨t, ht, hr, hbl, hbuf⟩
    simp only at hr hbl hbuf
    subst hr
    by_cases he : (x.drop t).isEmpty = true
    · simp only [he, Bool.not_true, Bool.false_eq_true, if_false]
      have hnil : x.drop t = [] := List.isEmpty_iff.mp he
      have hlen := congrArg List.length hnil
      simp only [List.length_drop, List.length_nil] at hlen
      refine Gives.pure ⟨?_, by show s'.buflen.toNat ≤ 64; omega, .inl hnil⟩
      show Kept.fill s'.buflen.toNat s'.buf.toList (x.drop t) = _
      rw [hnil, Kept.fill, if_neg (by omega), if_pos (by simp), Kept.over_nil, hbuf,
        List.take_of_length_le (by omega), Kept.fill, if_neg (by omega), if_pos (by omega)]
    · simp only [he, Bool.not_false, if_true]
      have hne : x.drop t ≠ [] := fun h => he (by rw [h]; rfl)
      have hlen := List.length_pos_iff.mpr hne
      simp only [List.length_drop] at hlen
      refine Gives.any fun h => Gives.pure ⟨?_, by show (0 : U8).toNat ≤ 64; decide, .inr rfl⟩
      show Kept.fill (0 : U8).toNat s'.buf.toList (x.drop t) = _
      have ht' : t = 64 - s.buflen.toNat := by omega
      rw [hbuf, ht']
      rw [show (0 : U8).toNat = 0 from rfl, Kept.fill, if_pos rfl, Kept.fill, if_neg (by omega),
        if_neg (by omega)]
  · rw [if_neg hb]
    exact Gives.pure ⟨rfl, hl, .inr (by show s.buflen.toNat = 0; omega)⟩

theorem Kept.fill_step {l : Nat} {b x : List U8} (hl : l = 0) (h : 64 < x.length) :
    fill l b (x.drop 64) = fill l b x := by
  rw [fill, if_pos hl, fill, if_pos hl, tail_step h]

theorem Kept.fill_last {l : Nat} {b x : List U8} (hl : x = [] ∨ l = 0) (h : x.length ≤ 64) :
    fill l b x = over b l x := by
  unfold fill
  split
  · rename_i h0
    rw [tail_small h, h0]
  · rename_i h0
    rcases hl with rfl | h'
    · rw [if_pos (by simp)]
    · exact absurd h' h0

theorem updateLoop_gives (E : Env) (fuel : Nat) (s : State) (x : List U8)
    (hm : x = [] ∨ s.buflen.toNat = 0) (hl : s.buflen.toNat ≤ 64) :
    Gives (State.updateLoop E fuel s x) (fun r => Same s x r ∧ r.1.buflen.toNat ≤ 64 ∧
      (r.2 = [] ∨ r.1.buflen.toNat = 0) ∧ r.2.length ≤ 64) := by
  induction fuel generalizing s x with
  | zero => exact Gives.throw
  | succ fuel ih =>
    unfold State.updateLoop
    by_cases hx : x.length > BLOCKBYTES
    · have hx' : 64 < x.length := hx
      have h0 : s.buflen.toNat = 0 := by
        rcases hm with rfl | h
        · exact absurd hx' (by simp)
        · exact h
      rw [if_pos hx]
      refine Gives.any fun c => Gives.any fun b => Gives.any fun h => ?_
      rw [sliceFrom_ok _ _ (by show 64 ≤ x.length; omega)]
      refine (ih { s with h := h, count := c } (x.drop 64) (.inr h0) hl).mono ?_
      rintro r ⟨hs, h2, h3, h4⟩
      refine ⟨?_, h2, h3, h4⟩
      unfold Same at hs ⊢
      rw [hs]
      exact Kept.fill_step h0 hx'
    · rw [if_neg hx]
      exact Gives.pure ⟨rfl, hl, hm, Nat.le_of_not_lt hx⟩

/-- The buffer after `update`. -/
theorem update_gives (E : Env) (s : State) (hl : s.buflen.toNat ≤ 64) (x : List U8) :
    Gives (s.update E x) (fun s' => s'.buf.toList = Kept.fill s.buflen.toNat s.buf.toList x) := by
  unfold State.update
  refine (compressBuffer_gives E s hl x).bind ?_
  rintro ⟨s1, x1⟩ ⟨e1, l1, m1⟩
  refine (updateLoop_gives E _ s1 x1 m1 l1).bind ?_
  rintro ⟨s2, x2⟩ ⟨e2, l2, m2, n2⟩
  simp only at l2 m2 n2
  refine (fillBuf_gives E s2 l2 x2).bind ?_
  rintro ⟨s3, x3⟩ ⟨t, ht, _, _, hb⟩
  simp only at hb
  refine Gives.pure ?_
  have ht' : t = x2.length := by
    rcases m2 with rfl | h
    · simpa using ht
    · omega
  unfold Same at e1 e2
  rw [← e1, ← e2, hb, ht', List.take_length]
  exact (Kept.fill_last m2 n2).symm

namespace Kept

theorem over_getD {b x : List U8} {l : Nat} (hb : b.length = 64) (h : l + x.length ≤ 64) (i : Nat) :
    (over b l x).getD i 0 = if l ≤ i ∧ i < l + x.length then x.getD (i - l) 0 else b.getD i 0 := by
  unfold over
  simp only [List.getD_eq_getElem?_getD, List.append_assoc]
  rw [List.getElem?_append]
  have ht : (b.take l).length = l := by simp; omega
  rw [ht]
  by_cases h1 : i < l
  · rw [if_pos h1, if_neg (by omega), List.getElem?_take, if_pos h1]
  · rw [if_neg h1, List.getElem?_append]
    by_cases h2 : i - l < x.length
    · rw [if_pos h2, if_pos (by omega)]
    · rw [if_neg h2, if_neg (by omega), List.getElem?_drop]
      congr 2
      omega

theorem drop_getD (x : List U8) (k i : Nat) : (x.drop k).getD i 0 = x.getD (k + i) 0 := by
  simp only [List.getD_eq_getElem?_getD, List.getElem?_drop]

theorem take_getD (x : List U8) (k i : Nat) (h : i < k) : (x.take k).getD i 0 = x.getD i 0 := by
  simp only [List.getD_eq_getElem?_getD, List.getElem?_take, if_pos h]

theorem tail_getD {b x : List U8} (hb : b.length = 64) (i : Nat) :
    (tail b x).getD i 0 = if 64 * ((x.length - 1) / 64) + i < x.length
      then x.getD (64 * ((x.length - 1) / 64) + i) 0 else b.getD i 0 := by
  unfold tail
  have hl : 0 + (x.drop (64 * ((x.length - 1) / 64))).length ≤ 64 := by
    rw [List.length_drop]; omega
  rw [over_getD hb hl, List.length_drop, drop_getD]
  by_cases h : 64 * ((x.length - 1) / 64) + i < x.length
  · rw [if_pos h, if_pos (by omega), Nat.sub_zero]
  · rw [if_neg h, if_neg (by omega)]

theorem waiting_le (n : Nat) : waiting n ≤ 64 := by
  unfold waiting; split <;> omega

/-- The contents of the buffer, place by place. -/
theorem fill_getD {b x : List U8} (hb : b.length = 64) (n i : Nat) (hi : i < 64) :
    (fill (waiting n) b x).getD i 0 = place n x (b.getD i 0) i := by
  have hw := waiting_le n
  unfold fill place
  simp only []
  by_cases h0 : waiting n = 0
  · have hn : n = 0 := by
      unfold waiting at h0; split at h0 <;> omega
    subst hn
    rw [if_pos h0, tail_getD hb]
    simp only [Nat.zero_add, Nat.zero_le, true_and, Nat.sub_zero]
    split
    · rfl
    · rw [if_neg (by omega)]
  · have hn : n ≠ 0 := fun h => h0 (by rw [h]; rfl)
    have hwn : waiting n = (n - 1) % 64 + 1 := by unfold waiting; rw [if_neg hn]
    rw [if_neg h0]
    generalize waiting n = l at hwn hw h0
    by_cases hx : x.length ≤ 64 - l
    · rw [if_pos hx, over_getD hb (by omega)]
      by_cases h1 : l ≤ i ∧ i < l + x.length
      · rw [if_pos h1, if_pos (by omega)]
        congr 1
        omega
      · rw [if_neg h1, if_neg (by omega), if_neg (by omega)]
    · rw [if_neg hx]
      have hlt : (x.take (64 - l)).length = 64 - l := by simp; omega
      rw [tail_getD (over_length hb (by omega)), over_getD hb (by omega), List.length_drop, drop_getD, hlt]
      by_cases h1 : 64 * ((x.length - (64 - l) - 1) / 64) + i < x.length - (64 - l)
      · rw [if_pos h1, if_pos (by omega)]
        congr 1
        omega
      · rw [if_neg h1]
        by_cases h2 : l ≤ i
        · rw [if_pos (by omega), if_neg (by omega), if_pos (by omega), take_getD _ _ _ (by omega)]
          congr 1
          omega
        · rw [if_neg (by omega), if_neg (by omega), if_neg (by omega)]

end Kept

/-! ## Histories -/

theorem Rep.waiting {E : Env} {c : Cfg} {data : List U8} {s : State} (r : Rep E c data s) :
    s.buflen.toNat = Kept.waiting data.length := by
  obtain ⟨k, w, hk⟩ := r
  have h1 := w.len
  have h2 := w.le
  unfold Kept.waiting
  split
  · omega
  · rcases Nat.eq_zero_or_pos k with h | h
    · subst h; omega
    · have := hk h; omega

theorem Rep.le {E : Env} {c : Cfg} {data : List U8} {s : State} (r : Rep E c data s) :
    s.buflen.toNat ≤ 64 := by
  obtain ⟨k, w, _⟩ := r
  exact w.le

/-- Place `i` of the buffer. -/
def State.at (s : State) (i : Nat) : U8 := s.buf.toList.getD i 0

theorem State.at_eq (s : State) (i : Fin 64) : s.at i = s.buf[i] := by
  unfold State.at
  rw [List.getD_eq_getElem?_getD, List.getElem?_eq_getElem (by simp)]
  simp

theorem update_at {E : Env} {c : Cfg} {data : List U8} {s s' : State} (r : Rep E c data s) (x : List U8)
    (h : s.update E x = .ok s') (i : Nat) (hi : i < 64) : s'.at i = Kept.place data.length x (s.at i) i := by
  unfold State.at
  rw [update_gives E s r.le x s' h, r.waiting]
  exact Kept.fill_getD (by simp) _ _ hi

theorem Rep.update {E : Env} {c : Cfg} {data : List U8} {s s' : State} (r : Rep E c data s) (x : List U8)
    (h : s.update E x = .ok s') : Rep E c (data ++ x) s' := by
  rcases update_ends r x with ⟨a, e, ra⟩ | ⟨e, _⟩
  · rw [e] at h; cases h; exact ra
  · rw [e] at h; cases h

theorem zeroTail_at (s : State) (i : Nat) (hi : i < 64) :
    ({ s with buf := State.zeroTail s.buf s.buflen } : State).at i = if s.buflen.toNat ≤ i then 0 else s.at i := by
  unfold State.at
  rw [zeroTail_getD _ _ _ hi]
  split
  · rw [List.getD_eq_getElem?_getD, List.getElem?_take, if_neg (by omega)]; rfl
  · rw [Kept.take_getD _ _ _ (by omega)]

theorem run_at {E : Env} (ops : List Op) {c : Cfg} {data : List U8} {s s' : State} {hs : List Hash}
    (r : Rep E c data s) (h : s.run E ops = .ok (s', hs)) (i : Nat) (hi : i < 64) :
    s'.at i = Kept.after data.length (s.at i) i ops := by
  induction ops generalizing c data s hs with
  | nil => cases h; rfl
  | cons op ops ih =>
    cases op with
    | update x =>
      unfold State.run at h
      cases e : s.update E x with
      | error f => rw [e] at h; cases h
      | ok s1 =>
        rw [e] at h
        have := ih (r.update x e) h
        rw [List.length_append] at this
        rw [this, update_at r x e i hi]
        rfl
    | write x =>
      unfold State.run State.write at h
      cases e : s.update E x with
      | error f => rw [e] at h; cases h
      | ok s1 =>
        rw [e] at h
        have := ih (r.update x e) h
        rw [List.length_append] at this
        rw [this, update_at r x e i hi]
        rfl
    | flush => exact ih r h
    | finalize =>
      obtain ⟨s1, d, e, r1, _, _, e1⟩ := finalize_ok r
      unfold State.run at h
      rw [e] at h
      cases e2 : s1.run E ops with
      | error f =>
        have h' : ((s1.run E ops) >>= fun x => pure (x.1, d :: x.2) : R _) = .ok (s', hs) := h
        rw [e2] at h'; cases h'
      | ok x =>
        have h' : ((s1.run E ops) >>= fun x => pure (x.1, d :: x.2) : R _) = .ok (s', hs) := h
        rw [e2] at h'
        cases h'
        rw [ih r1 e2, e1, zeroTail_at s i hi, r.waiting]
        rfl
    | setLastNode b => exact ih (s := s.setLastNode b) (setLastNode_rep r b) h
    | forcePortable => exact ih (s := s.forcePortable) (forcePortable_rep r) h

theorem zeros_getD (n i : Nat) : (Vector.replicate n (0 : U8)).toList.getD i 0 = 0 := by
  rw [Vector.toList_replicate, List.getD_eq_getElem?_getD, List.getElem?_replicate]
  split <;> rfl

theorem withParams_at {E : Env} {p : Params} (v : p.Valid) (hE : E.WF) {s : State}
    (h : State.withParams E p = .ok s) (i : Nat) (hi : i < 64) :
    s.at i = Kept.place 0 (Spec.keyBlock p.keyBytes) 0 i := by
  have h0 := initial_rep E hE p v
  unfold State.withParams at h
  by_cases hk : p.keyLength.toNat > 0
  · simp only [hk, if_true] at h
    obtain ⟨b, e, hb⟩ := copyFromSlice_ok (Vector.replicate 64 0) 0 KEYBYTES p.key.toList (by decide)
      (by decide) (by simp)
    rw [e] at h
    have hb' : b.toList = Spec.keyBlock p.keyBytes := by
      rw [hb, ← v.keyBlock hk]
      simp
    rw [update_at h0 b.toList h i hi, hb']
    congr 1
    exact zeros_getD 64 i
  · simp only [hk, if_false] at h
    have : p.keyBytes = [] := by
      rw [Params.keyBytes, show p.keyLength.toNat = 0 by omega, List.take_zero]
    cases h
    rw [this]
    show (Vector.replicate 64 (0 : U8)).toList.getD i 0 = _
    rw [zeros_getD]
    unfold Kept.place
    have : (Spec.keyBlock []).length = 0 := rfl
    simp only [this]
    rw [if_neg (by omega), if_neg (by omega)]

theorem reaches_at {E : Env} (hE : E.WF) {p : Params} (v : p.Valid) {ops : List Op} {s : State}
    (h : Reaches E p ops s) (i : Nat) (hi : i < 64) :
    s.at i = Kept.after 0 0 i (.update (Spec.keyBlock p.keyBytes) :: ops) := by
  obtain ⟨s0, hs, h0, h1⟩ := h
  obtain ⟨s', e, r⟩ := withParams_ok E hE p v
  have : s' = s0 := by
    have h' : State.withParams E p = .ok s0 := h0
    rw [e] at h'; cases h'; rfl
  subst this
  rw [run_at ops r h1 i hi, withParams_at v hE e i hi]
  rw [Kept.after, Nat.zero_add]

/-! ## Eight at once -/

theorem Rep.ext {E : Env} {c : Cfg} {data : List U8} {s t : State} (r : Rep E c data s) (q : Rep E c data t)
    (h : s.buf = t.buf) : s = t := by
  have hb : s.buflen = t.buflen := BitVec.eq_of_toNat_eq (by rw [r.waiting, q.waiting])
  obtain ⟨k, w, _⟩ := r
  obtain ⟨l, x, _⟩ := q
  have hkl : k = l := by
    have h1 := w.len
    have h2 := x.len
    rw [hb] at h1
    omega
  subst hkl
  have hh : s.h = t.h := toFn_injective (w.h.trans x.h.symm)
  have hc : s.count = t.count := w.count.trans x.count.symm
  have hf : s.compressFn = t.compressFn := w.fn.trans x.fn.symm
  have hln : s.lastNode = t.lastNode := w.ln.trans x.ln.symm
  have hhl : s.hashLength = t.hashLength := w.hl.trans x.hl.symm
  cases s
  cases t
  simp only at h hb hh hc hf hln hhl
  subst h hb hh hc hf hln hhl
  rfl

/-- What is left to do to the buffers: nothing has been done to them that `update` would not do. -/
def Left (s : State) (x : List U8) (r : State) (y : List U8) : Prop :=
  Same s x (r, y) ∧ r.buflen.toNat ≤ 64 ∧ (y = [] ∨ r.buflen.toNat = 0)

theorem Left.step {s r : State} {x y : List U8} (h : Left s x r y) (hy : 64 < y.length) (hh : StateWords)
    (c : U64) : Left s x { r with count := c, h := hh } (y.drop 64) := by
  obtain ⟨h1, h2, h3⟩ := h
  have h0 : r.buflen.toNat = 0 := by
    rcases h3 with rfl | h
    · exact absurd hy (by simp)
    · exact h
  refine ⟨?_, h2, .inr h0⟩
  unfold Same at h1 ⊢
  rw [← h1]
  exact Kept.fill_step h0 hy

theorem update8Loop_gives (E : Env) (fn : Compress8Fn) (fuel : Nat) (s : Fin 8 → State) (x : Fin 8 → List U8)
    (st : Vector State 8) (input : Vector (List U8) 8) (h : ∀ i : Fin 8, Left (s i) (x i) st[i] input[i]) :
    Gives (update8Loop E fn fuel st input) (fun r => ∀ i : Fin 8, Left (s i) (x i) r.1[i] r.2[i]) := by
  induction fuel generalizing st input with
  | zero => exact Gives.throw
  | succ fuel ih =>
    unfold update8Loop
    split
    · rename_i hc
      simp only [Bool.and_eq_true, decide_eq_true_eq, BLOCKBYTES] at hc
      obtain ⟨⟨⟨⟨⟨⟨⟨n0, n1⟩, n2⟩, n3⟩, n4⟩, n5⟩, n6⟩, n7⟩ := hc
      refine Gives.any fun c0 => ?_
      refine Gives.any fun c1 => ?_
      refine Gives.any fun c2 => ?_
      refine Gives.any fun c3 => ?_
      refine Gives.any fun c4 => ?_
      refine Gives.any fun c5 => ?_
      refine Gives.any fun c6 => ?_
      refine Gives.any fun c7 => ?_
      refine Gives.any fun m0 => ?_
      refine Gives.any fun m1 => ?_
      refine Gives.any fun m2 => ?_
      refine Gives.any fun m3 => ?_
      refine Gives.any fun m4 => ?_
      refine Gives.any fun m5 => ?_
      refine Gives.any fun m6 => ?_
      refine Gives.any fun m7 => ?_
      refine Gives.any fun hw => ?_
      rw [show sliceFrom input[0] BLOCKBYTES = .ok (input[0].drop 64) from sliceFrom_ok _ _ (Nat.le_of_lt n0)]
      rw [show sliceFrom input[1] BLOCKBYTES = .ok (input[1].drop 64) from sliceFrom_ok _ _ (Nat.le_of_lt n1)]
      rw [show sliceFrom input[2] BLOCKBYTES = .ok (input[2].drop 64) from sliceFrom_ok _ _ (Nat.le_of_lt n2)]
      rw [show sliceFrom input[3] BLOCKBYTES = .ok (input[3].drop 64) from sliceFrom_ok _ _ (Nat.le_of_lt n3)]
      rw [show sliceFrom input[4] BLOCKBYTES = .ok (input[4].drop 64) from sliceFrom_ok _ _ (Nat.le_of_lt n4)]
      rw [show sliceFrom input[5] BLOCKBYTES = .ok (input[5].drop 64) from sliceFrom_ok _ _ (Nat.le_of_lt n5)]
      rw [show sliceFrom input[6] BLOCKBYTES = .ok (input[6].drop 64) from sliceFrom_ok _ _ (Nat.le_of_lt n6)]
      rw [show sliceFrom input[7] BLOCKBYTES = .ok (input[7].drop 64) from sliceFrom_ok _ _ (Nat.le_of_lt n7)]
      refine ih _ _ (fin8_cases ?_)
      intro i hi
      match i, hi with
      | 0, _ => exact (h 0).step n0 hw[0] c0
      | 1, _ => exact (h 1).step n1 hw[1] c1
      | 2, _ => exact (h 2).step n2 hw[2] c2
      | 3, _ => exact (h 3).step n3 hw[3] c3
      | 4, _ => exact (h 4).step n4 hw[4] c4
      | 5, _ => exact (h 5).step n5 hw[5] c5
      | 6, _ => exact (h 6).step n6 hw[6] c6
      | 7, _ => exact (h 7).step n7 hw[7] c7
    · exact Gives.pure h

theorem Left.update {s r : State} {x y : List U8} (h : Left s x r y) (E : Env) :
    Gives (r.update E y) (fun s' => s'.buf.toList = Kept.fill s.buflen.toNat s.buf.toList x) :=
  (update_gives E r h.2.1 y).mono fun _ e => e.trans h.1

/-- The buffers after `update8`. -/
theorem update8_gives (E : Env) (st : Vector State 8) (hl : ∀ i : Fin 8, st[i].buflen.toNat ≤ 64)
    (input : Vector (List U8) 8) :
    Gives (update8 E st input) (fun r => ∀ i : Fin 8,
      r[i].buf.toList = Kept.fill st[i].buflen.toNat st[i].buf.toList input[i]) := by
  unfold update8
  refine (compressBuffer_gives E st[0] (hl 0) input[0]).bind ?_; rintro ⟨s0, i0⟩ m0
  refine (compressBuffer_gives E st[1] (hl 1) input[1]).bind ?_; rintro ⟨s1, i1⟩ m1
  refine (compressBuffer_gives E st[2] (hl 2) input[2]).bind ?_; rintro ⟨s2, i2⟩ m2
  refine (compressBuffer_gives E st[3] (hl 3) input[3]).bind ?_; rintro ⟨s3, i3⟩ m3
  refine (compressBuffer_gives E st[4] (hl 4) input[4]).bind ?_; rintro ⟨s4, i4⟩ m4
  refine (compressBuffer_gives E st[5] (hl 5) input[5]).bind ?_; rintro ⟨s5, i5⟩ m5
  refine (compressBuffer_gives E st[6] (hl 6) input[6]).bind ?_; rintro ⟨s6, i6⟩ m6
  refine (compressBuffer_gives E st[7] (hl 7) input[7]).bind ?_; rintro ⟨s7, i7⟩ m7
  refine (update8Loop_gives E _ _ (fun i => st[i]) (fun i => input[i]) _ _ (fin8_cases ?_)).bind ?_
  · intro i hi
    match i, hi with
    | 0, _ => exact m0
    | 1, _ => exact m1
    | 2, _ => exact m2
    | 3, _ => exact m3
    | 4, _ => exact m4
    | 5, _ => exact m5
    | 6, _ => exact m6
    | 7, _ => exact m7
  · rintro ⟨st', in'⟩ hm
    have up := fun i : Fin 8 => (hm i).update E
    refine (up 0).bind ?_; intro s0 r0
    refine (up 1).bind ?_; intro s1 r1
    refine (up 2).bind ?_; intro s2 r2
    refine (up 3).bind ?_; intro s3 r3
    refine (up 4).bind ?_; intro s4 r4
    refine (up 5).bind ?_; intro s5 r5
    refine (up 6).bind ?_; intro s6 r6
    refine (up 7).bind ?_; intro s7 r7
    refine Gives.pure (fin8_cases ?_)
    intro i hi
    match i, hi with
    | 0, _ => exact r0
    | 1, _ => exact r1
    | 2, _ => exact r2
    | 3, _ => exact r3
    | 4, _ => exact r4
    | 5, _ => exact r5
    | 6, _ => exact r6
    | 7, _ => exact r7

end Blake2s
