import Verif.Proofs.Basic
import Verif.Proofs.Chain
import Verif.Proofs.SpecF
/-!
# The representation invariant of `State`, counting from an offset

The chaining value `c.h0` stands for `off` bytes hashed before. (Only `blake2sp` leaves need `off ≠ 0`.)
-/

namespace Blake2s

/-- The selected routine may be executed on this CPU. -/
def CompressFn.Supported (E : Env) (f : CompressFn) : Prop :=
  f = .sse41 → E.x86 = true ∧ E.sse41 = true

theorem CompressFn.call_ok {E : Env} {f : CompressFn} (hf : f.Supported E) (h : StateWords)
    (msg : Block) (c : U64) (lb ln : U32) :
    f.call E h msg c lb ln = .ok (Portable.compress h msg c lb ln) := by
  cases f with
  | portable => rfl
  | sse41 =>
    obtain ⟨h1, h2⟩ := hf rfl
    simp only [CompressFn.call, h1, h2, Bool.and_self, if_true, sse_compress]
    rfl

/-- What never changes while bytes are fed to a state. -/
structure Cfg where
  h0 : Fin 8 → Spec.Word
  fn : CompressFn
  lastNode : Bool
  hashLength : U8

/-- The state has compressed the first `k` blocks of `data` and holds the rest in its buffer. -/
structure WeakO (E : Env) (c : Cfg) (off : Nat) (data : List U8) (k : Nat) (s : State) : Prop where
  len : data.length = 64 * k + s.buflen.toNat
  le : s.buflen.toNat ≤ 64
  h : toFn s.h = Spec.chain c.h0 off data k
  buf : s.buf.toList.take s.buflen.toNat = data.drop (64 * k)
  count : s.count = BitVec.ofNat 64 (off + data.length)
  fits : E.overflowChecks = true → off + data.length < 2 ^ 64
  fn : s.compressFn = c.fn
  sup : c.fn.Supported E
  ln : s.lastNode = c.lastNode
  hl : s.hashLength = c.hashLength

/-- The invariant of a state between API calls. -/
def RepO (E : Env) (c : Cfg) (off : Nat) (data : List U8) (s : State) : Prop :=
  ∃ k, WeakO E c off data k s ∧ (0 < k → 0 < s.buflen.toNat)

/-- `s` has absorbed `total` except the pending `input`. -/
def PreO (E : Env) (c : Cfg) (off : Nat) (total : List U8) (s : State) (input : List U8) : Prop :=
  ∃ data k, WeakO E c off data k s ∧ data ++ input = total ∧ (0 < k → 0 < s.buflen.toNat ∨ input ≠ [])

/-- As `PreO`, and either nothing is pending or the buffer is empty. -/
def MidO (E : Env) (c : Cfg) (off : Nat) (total : List U8) (s : State) (input : List U8) : Prop :=
  PreO E c off total s input ∧ (input = [] ∨ s.buflen.toNat = 0)

theorem RepO.pre {E : Env} {c : Cfg} {off : Nat} {data : List U8} {s : State} (h : RepO E c off data s)
    (input : List U8) : PreO E c off (data ++ input) s input := by
  obtain ⟨k, w, hk⟩ := h
  exact ⟨data, k, w, rfl, fun h => .inl (hk h)⟩

/-- With overflow checks on, the total does not fit the 64-bit counter. -/
def TooLongO (E : Env) (off : Nat) (total : List U8) : Prop :=
  E.overflowChecks = true ∧ 2 ^ 64 ≤ off + total.length

theorem fillBuf_endsO {E : Env} {c : Cfg} {off : Nat} {data : List U8} {k : Nat} {s : State}
    (w : WeakO E c off data k s) (input : List U8) :
    Ends (s.fillBuf E input) (TooLongO E off (data ++ input)) (fun r =>
      ∃ t, t = min (64 - s.buflen.toNat) input.length ∧
        WeakO E c off (data ++ input.take t) k r.1 ∧ r.2 = input.drop t ∧
        r.1.buflen.toNat = s.buflen.toNat + t) := by
  unfold State.fillBuf
  rw [usizeSub_ok _ _ w.le]
  simp only [bind, Except.bind]
  generalize ht : min (64 - s.buflen.toNat) input.length = t
  have ht1 : t ≤ input.length := by omega
  have hle := w.le
  have ht2 : s.buflen.toNat + t ≤ 64 := by omega
  rw [sliceTo_ok _ _ ht1]
  simp only []
  obtain ⟨v, e, hv⟩ := copyFromSlice_ok s.buf s.buflen.toNat (s.buflen.toNat + t) (input.take t)
    (by omega) (by omega) (by simp; omega)
  rw [e]
  simp only []
  have hbl : addChk E s.buflen (BitVec.ofNat 8 t) = .ok (BitVec.ofNat 8 (s.buflen.toNat + t)) := by
    have h1 := addChk_ends (w := 8) E s.buflen.toNat t (fun _ => s.buflen.isLt) (by omega)
    obtain ⟨a, h2, h3, _⟩ := h1.elim (by rintro ⟨_, h⟩; omega)
    rw [BitVec.ofNat_toNat, BitVec.setWidth_eq] at h2
    rw [h2, h3]
  rw [hbl]
  simp only []
  rw [w.count]
  have hc := addChk_ends (w := 64) E (off + data.length) t w.fits (by omega)
  refine Ends.bind (r := addChk E (BitVec.ofNat 64 (off + data.length)) (BitVec.ofNat 64 t))
    (hc.mono (fun h => ⟨h.1, by simp; omega⟩) (fun a h => h)) ?_
  rintro a ⟨rfl, hfit⟩
  rw [sliceFrom_ok _ _ ht1]
  refine Ends.pure ⟨t, rfl, ?_, rfl, ?_⟩
  · have hbn : (BitVec.ofNat 8 (s.buflen.toNat + t)).toNat = s.buflen.toNat + t := by
      simp; omega
    have hl := w.len
    constructor
    · simp only [hbn, List.length_append, List.length_take]; omega
    · simp only [hbn]; omega
    · simp only []
      rw [w.h, Spec.chain_append _ _ _ _ _ (by omega)]
    · simp only [hbn, hv]
      rw [w.buf, List.drop_append_of_le_length (by omega)]
      rw [List.take_append_of_le_length (by simp; omega)]
      rw [List.take_of_length_le (by simp; omega)]
    · simp only [List.length_append, List.length_take]
      rw [show min t input.length = t by omega, Nat.add_assoc]
    · intro h
      have := hfit h
      simp only [List.length_append, List.length_take]; omega
    · exact w.fn
    · exact w.sup
    · exact w.ln
    · exact w.hl
  · simp; omega

theorem compressBuffer_endsO {E : Env} {c : Cfg} {off : Nat} {total : List U8} {s : State} {input : List U8}
    (p : PreO E c off total s input) :
    Ends (s.compressBufferIfPossible E input) (TooLongO E off total)
      (fun r => MidO E c off total r.1 r.2 ∧ r.2.length ≤ input.length) := by
  obtain ⟨data, k, w, rfl, hk⟩ := p
  unfold State.compressBufferIfPossible
  by_cases hb : s.buflen.toNat > 0
  · rw [if_pos hb]
    refine (fillBuf_endsO w input).bind ?_
    rintro ⟨s', rest⟩ ⟨t, ht, w', hr, hbl⟩
    simp only at w' hr hbl
    subst hr
    have hle := w.le
    by_cases he : (input.drop t).isEmpty = true
    · simp only [he, Bool.not_true, Bool.false_eq_true, if_false]
      have hnil : input.drop t = [] := List.isEmpty_iff.mp he
      refine Ends.pure ⟨⟨⟨_, k, w', ?_, fun _ => .inl ?_⟩, .inl hnil⟩, by simp⟩
      · rw [List.append_assoc, List.take_append_drop]
      · show 0 < s'.buflen.toNat
        omega
    · simp only [he, Bool.not_false, if_true]
      have hne : input.drop t ≠ [] := fun h => he (List.isEmpty_iff.mpr h)
      have htl : t < input.length := by
        apply Nat.lt_of_not_le; intro h; exact hne (List.drop_of_length_le h)
      have hbl64 : s'.buflen.toNat = 64 := by omega
      rw [w'.fn, CompressFn.call_ok w'.sup]
      refine Ends.pure ⟨⟨⟨data ++ input.take t, k + 1, ?_, ?_, fun _ => .inr hne⟩, .inr rfl⟩, by simp⟩
      · have hl := w'.len
        have hz : (0 : U8).toNat = 0 := rfl
        constructor
        · simp only [hz]; omega
        · simp
        · simp only []
          rw [w'.count]
          have hc := compress_spec s'.h s'.buf (off + (data ++ input.take t).length) false false
          have hbuf := w'.buf
          rw [hbl64, List.take_of_length_le (by simp)] at hbuf
          have hf : State.flagWord false = 0 := rfl
          rw [hf] at hc
          rw [hc, w'.h, hbuf, Spec.chain, List.take_of_length_le (l := List.drop _ _) (by simp only [List.length_drop]; omega)]
          congr 1
          omega
        · simp only [hz, List.take_zero]
          exact (List.drop_of_length_le (by omega)).symm
        · exact w'.count
        · exact w'.fits
        · rfl
        · exact w'.sup
        · exact w'.ln
        · exact w'.hl
      · rw [List.append_assoc, List.take_append_drop]
  · rw [if_neg hb]
    exact Ends.pure ⟨⟨⟨data, k, w, rfl, hk⟩, .inr (by show s.buflen.toNat = 0; omega)⟩, Nat.le_refl _⟩

/-- Compressing one more block directly from the input. -/
theorem WeakO.block {E : Env} {c : Cfg} {off : Nat} {data : List U8} {k : Nat} {s : State}
    (w : WeakO E c off data k s) (hb : s.buflen.toNat = 0) (block : Block) (b : List U8)
    (hbk : block.toList = b) (hfit : E.overflowChecks = true → off + data.length + 64 < 2 ^ 64) :
    WeakO E c off (data ++ b) (k + 1)
      { s with h := Portable.compress s.h block (BitVec.ofNat 64 (off + data.length + 64)) 0 0
               count := BitVec.ofNat 64 (off + data.length + 64) } := by
  have hl := w.len
  have hb64 : b.length = 64 := by rw [← hbk]; simp
  constructor
  · simp only [List.length_append]; omega
  · exact w.le
  · simp only []
    have hc := compress_spec s.h block (off + data.length + 64) false false
    have hf : State.flagWord false = 0 := rfl
    rw [hf] at hc
    rw [hc, w.h, Spec.chain, Spec.chain_append _ _ _ _ _ (by omega),
      List.drop_append_of_le_length (by omega), List.drop_of_length_le (by omega), List.nil_append,
      List.take_of_length_le (by omega), hbk]
    congr 1
    omega
  · simp only [hb, List.take_zero]
    exact (List.drop_of_length_le (by simp only [List.length_append]; omega)).symm
  · simp only [List.length_append, hb64, Nat.add_assoc]
  · simpa [hb64, Nat.add_assoc] using hfit
  · exact w.fn
  · exact w.sup
  · exact w.ln
  · exact w.hl

theorem updateLoop_endsO {E : Env} {c : Cfg} {off : Nat} {total : List U8} (fuel : Nat) (s : State)
    (input : List U8) (hf : input.length < fuel) (p : MidO E c off total s input) :
    Ends (State.updateLoop E fuel s input) (TooLongO E off total)
      (fun r => MidO E c off total r.1 r.2 ∧ r.2.length ≤ 64) := by
  induction fuel generalizing s input with
  | zero => omega
  | succ fuel ih =>
    unfold State.updateLoop BLOCKBYTES
    by_cases hi : input.length > 64
    · rw [if_pos hi]
      obtain ⟨⟨data, k, w, rfl, hk⟩, hm⟩ := p
      have hb : s.buflen.toNat = 0 := by
        rcases hm with h | h
        · rw [h] at hi; simp at hi
        · exact h
      rw [w.count]
      refine (((addChk_ends (w := 64) E (off + data.length) 64 w.fits (by decide)).mono
        (fun h => ⟨h.1, by simp; omega⟩) (fun a h => h))).bind ?_
      rintro a ⟨rfl, hfit⟩
      obtain ⟨v, e, hv⟩ := arrayRef_ok input 0 64 (by omega)
      rw [e, sliceFrom_ok _ _ (by omega)]
      simp only [bind, Except.bind]
      rw [w.fn, CompressFn.call_ok w.sup]
      simp only []
      have w' := w.block hb v _ hv hfit
      rw [List.drop_zero] at w'
      rw [← w.fn]
      apply ih _ _ (by simp; omega)
      refine ⟨⟨data ++ input.take 64, k + 1, w', ?_, fun _ => .inr ?_⟩, .inr hb⟩
      · rw [List.append_assoc, List.take_append_drop]
      · intro h
        have := congrArg List.length h
        simp at this; omega
    · rw [if_neg hi]
      exact Ends.pure ⟨p, by show input.length ≤ 64; omega⟩

theorem update_preO {E : Env} {c : Cfg} {off : Nat} {total : List U8} {s : State} {input : List U8}
    (p : PreO E c off total s input) :
    Ends (s.update E input) (TooLongO E off total) (fun s' => RepO E c off total s') := by
  unfold State.update
  refine (compressBuffer_endsO p).bind ?_
  rintro ⟨s1, i1⟩ ⟨m1, _⟩
  refine (updateLoop_endsO _ s1 i1 (by omega) m1).bind ?_
  rintro ⟨s2, i2⟩ ⟨⟨⟨data, k, w, rfl, hk⟩, hm⟩, hi⟩
  simp only at hi w hk hm
  refine (fillBuf_endsO w i2).bind ?_
  rintro ⟨s3, i3⟩ ⟨t, ht, w', hr, hbl⟩
  simp only at w' hr hbl
  have htl : t = i2.length := by
    rcases hm with h | h
    · rw [h] at ht ⊢; simpa using ht
    · omega
  rw [htl, List.take_length] at w'
  refine Ends.pure ⟨k, w', fun h => ?_⟩
  rcases hk h with h | h
  · show 0 < s3.buflen.toNat
    omega
  · show 0 < s3.buflen.toNat
    have : 0 < i2.length := List.length_pos_iff.mpr h
    omega

/-- `update` appends to what has been absorbed, and panics exactly when that gets too long. -/
theorem update_endsO {E : Env} {c : Cfg} {off : Nat} {data : List U8} {s : State} (h : RepO E c off data s)
    (input : List U8) :
    Ends (s.update E input) (TooLongO E off (data ++ input)) (fun s' => RepO E c off (data ++ input) s') :=
  update_preO (h.pre input)

end Blake2s
