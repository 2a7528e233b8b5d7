import Verif.Proofs.StateOff
/-!
# The representation invariant of `State`
-/

namespace Blake2s

/-- The state has compressed the first `k` blocks of `data` and holds the rest in its buffer. -/
structure Weak (E : Env) (c : Cfg) (data : List U8) (k : Nat) (s : State) : Prop where
  len : data.length = 64 * k + s.buflen.toNat
  le : s.buflen.toNat ≤ 64
  h : toFn s.h = Spec.chain c.h0 0 data k
  buf : s.buf.toList.take s.buflen.toNat = data.drop (64 * k)
  count : s.count = BitVec.ofNat 64 data.length
  fits : E.overflowChecks = true → data.length < 2 ^ 64
  fn : s.compressFn = c.fn
  sup : c.fn.Supported E
  ln : s.lastNode = c.lastNode
  hl : s.hashLength = c.hashLength

/-- The invariant of a state between API calls. -/
def Rep (E : Env) (c : Cfg) (data : List U8) (s : State) : Prop :=
  ∃ k, Weak E c data k s ∧ (0 < k → 0 < s.buflen.toNat)

/-- `s` has absorbed `total` except the pending `input`. -/
def Pre (E : Env) (c : Cfg) (total : List U8) (s : State) (input : List U8) : Prop :=
  ∃ data k, Weak E c data k s ∧ data ++ input = total ∧ (0 < k → 0 < s.buflen.toNat ∨ input ≠ [])

/-- As `Pre`, and either nothing is pending or the buffer is empty. -/
def Mid (E : Env) (c : Cfg) (total : List U8) (s : State) (input : List U8) : Prop :=
  Pre E c total s input ∧ (input = [] ∨ s.buflen.toNat = 0)

theorem Rep.pre {E : Env} {c : Cfg} {data : List U8} {s : State} (h : Rep E c data s)
    (input : List U8) : Pre E c (data ++ input) s input := by
  obtain ⟨k, w, hk⟩ := h
  exact ⟨data, k, w, rfl, fun h => .inl (hk h)⟩

/-- With overflow checks on, the total does not fit the 64-bit counter. -/
def TooLong (E : Env) (total : List U8) : Prop := E.overflowChecks = true ∧ 2 ^ 64 ≤ total.length

theorem Weak.off {E : Env} {c : Cfg} {data : List U8} {k : Nat} {s : State} (w : Weak E c data k s) :
    WeakO E c 0 data k s :=
  ⟨w.len, w.le, w.h, w.buf, by rw [Nat.zero_add]; exact w.count, by rw [Nat.zero_add]; exact w.fits,
    w.fn, w.sup, w.ln, w.hl⟩

theorem WeakO.weak {E : Env} {c : Cfg} {data : List U8} {k : Nat} {s : State}
    (w : WeakO E c 0 data k s) : Weak E c data k s :=
  ⟨w.len, w.le, w.h, w.buf, by rw [w.count, Nat.zero_add], by have := w.fits; rwa [Nat.zero_add] at this,
    w.fn, w.sup, w.ln, w.hl⟩

theorem Pre.off {E : Env} {c : Cfg} {total : List U8} {s : State} {input : List U8}
    (p : Pre E c total s input) : PreO E c 0 total s input := by
  obtain ⟨data, k, w, h⟩ := p
  exact ⟨data, k, w.off, h⟩

theorem Mid.off {E : Env} {c : Cfg} {total : List U8} {s : State} {input : List U8}
    (p : Mid E c total s input) : MidO E c 0 total s input := ⟨p.1.off, p.2⟩

theorem MidO.mid {E : Env} {c : Cfg} {total : List U8} {s : State} {input : List U8}
    (p : MidO E c 0 total s input) : Mid E c total s input := by
  obtain ⟨⟨data, k, w, h⟩, h'⟩ := p
  exact ⟨⟨data, k, w.weak, h⟩, h'⟩

theorem RepO.rep {E : Env} {c : Cfg} {data : List U8} {s : State} (r : RepO E c 0 data s) :
    Rep E c data s := by
  obtain ⟨k, w, h⟩ := r
  exact ⟨k, w.weak, h⟩

theorem Rep.off {E : Env} {c : Cfg} {data : List U8} {s : State} (r : Rep E c data s) :
    RepO E c 0 data s := by
  obtain ⟨k, w, h⟩ := r
  exact ⟨k, w.off, h⟩

theorem TooLongO.long {E : Env} {total : List U8} (h : TooLongO E 0 total) : TooLong E total := by
  unfold TooLongO at h
  rwa [Nat.zero_add] at h

theorem fillBuf_ends {E : Env} {c : Cfg} {data : List U8} {k : Nat} {s : State}
    (w : Weak E c data k s) (input : List U8) :
    Ends (s.fillBuf E input) (TooLong E (data ++ input)) (fun r =>
      ∃ t, t = min (64 - s.buflen.toNat) input.length ∧
        Weak E c (data ++ input.take t) k r.1 ∧ r.2 = input.drop t ∧
        r.1.buflen.toNat = s.buflen.toNat + t) := by
  refine (fillBuf_endsO w.off input).mono TooLongO.long ?_
  rintro r ⟨t, h1, h2, h3⟩
  exact ⟨t, h1, h2.weak, h3⟩

theorem compressBuffer_ends {E : Env} {c : Cfg} {total : List U8} {s : State} {input : List U8}
    (p : Pre E c total s input) :
    Ends (s.compressBufferIfPossible E input) (TooLong E total)
      (fun r => Mid E c total r.1 r.2 ∧ r.2.length ≤ input.length) :=
  (compressBuffer_endsO p.off).mono TooLongO.long fun _ h => ⟨h.1.mid, h.2⟩

/-- Compressing one more block directly from the input. -/
theorem Weak.block {E : Env} {c : Cfg} {data : List U8} {k : Nat} {s : State}
    (w : Weak E c data k s) (hb : s.buflen.toNat = 0) (block : Block) (b : List U8)
    (hbk : block.toList = b) (hfit : E.overflowChecks = true → data.length + 64 < 2 ^ 64) :
    Weak E c (data ++ b) (k + 1)
      { s with h := Portable.compress s.h block (BitVec.ofNat 64 (data.length + 64)) 0 0
               count := BitVec.ofNat 64 (data.length + 64) } := by
  have := w.off.block hb block b hbk (by rw [Nat.zero_add]; exact hfit)
  rw [Nat.zero_add] at this
  exact this.weak

theorem updateLoop_ends {E : Env} {c : Cfg} {total : List U8} (fuel : Nat) (s : State)
    (input : List U8) (hf : input.length < fuel) (p : Mid E c total s input) :
    Ends (State.updateLoop E fuel s input) (TooLong E total)
      (fun r => Mid E c total r.1 r.2 ∧ r.2.length ≤ 64) :=
  (updateLoop_endsO fuel s input hf p.off).mono TooLongO.long fun _ h => ⟨h.1.mid, h.2⟩

theorem update_pre {E : Env} {c : Cfg} {total : List U8} {s : State} {input : List U8}
    (p : Pre E c total s input) :
    Ends (s.update E input) (TooLong E total) (fun s' => Rep E c total s') :=
  (update_preO p.off).mono TooLongO.long fun _ h => h.rep

/-- `update` appends to what has been absorbed, and panics exactly when that gets too long. -/
theorem update_ends {E : Env} {c : Cfg} {data : List U8} {s : State} (h : Rep E c data s)
    (input : List U8) :
    Ends (s.update E input) (TooLong E (data ++ input)) (fun s' => Rep E c (data ++ input) s') :=
  update_pre (h.pre input)

end Blake2s
