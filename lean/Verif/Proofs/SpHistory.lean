import Verif.Proofs.SpParams
import Verif.Proofs.History
/-!
# Histories of calls on one `blake2sp::State`
-/

namespace Blake2s.Sp

/-- `s` is a BLAKE2sp state for parameters `p` that has been fed `total` and has passed on `n` rows. -/
def AbsN (E : Env) (p : Params) (n : Nat) (total : List U8) (s : State) : Prop :=
  ∃ c cr fn, SpRep E c cr fn (Spec.keyBlock p.keyBytes) total n s ∧
    (∀ i, (c i).h0 = (leafCfg E p i).h0 ∧ (c i).lastNode = (leafCfg E p i).lastNode ∧
      (c i).hashLength = 32) ∧
    cr.h0 = (rootCfg E p).h0 ∧ cr.lastNode = true ∧ cr.hashLength = p.hashLength

/-- `s` is a BLAKE2sp state for parameters `p` that has been fed `total`, within the buffer if there is a
key. -/
def Abs (E : Env) (p : Params) (total : List U8) (s : State) : Prop :=
  ∃ n, AbsN E p n total s ∧ (p.keyLength ≠ 0 → n = 0)

/-- The bytes of leaf `i` after `n` rows. -/
def rowsLeaf (p : Params) (n : Nat) (msg : List U8) (i : Fin 8) : List U8 :=
  Spec.digestBytes (Spec.absorb
    (Spec.chain (Spec.Sp.nodeParams p.hashLength p.keyLength (BitVec.ofNat 48 i.val) 0).init
      (Spec.keyBlock p.keyBytes).length (Spec.Sp.leafInput i (msg.take (512 * n))) n) (64 * n)
    (Spec.keyBlock p.keyBytes ++ Spec.Sp.leafInput i (msg.drop (512 * n))) (i.val == 7)) 32

/-- `h` is the hash that a state returns that has been fed `msg` and has passed on `n` rows. -/
def DigestN (p : Params) (n : Nat) (msg : List U8) (h : Hash) : Prop :=
  h.bytes.toList = Spec.digestBytes
    (Spec.absorb (Spec.Sp.nodeParams p.hashLength p.keyLength 0 1).init 0
      ((List.finRange 8).flatMap (rowsLeaf p n msg)) true) 32 ∧
    h.len = p.hashLength

/-- `h` is the BLAKE2sp hash of `msg`, including the bytes that `as_bytes` does not show. -/
def Digest (p : Params) (msg : List U8) (h : Hash) : Prop :=
  h.bytes.toList = Spec.digestBytes
    (Spec.absorb (Spec.Sp.nodeParams p.hashLength p.keyLength 0 1).init 0
      ((List.finRange 8).flatMap (Spec.Sp.leaf p.hashLength p.keyBytes msg)) true) 32 ∧
    h.len = p.hashLength

theorem Digest.asBytes {p : Params} (v : p.Valid) {msg : List U8} {h : Hash} (hh : Digest p msg h) :
    h.asBytes = .ok (Spec.Sp.hash p.hashLength p.keyBytes msg) := by
  obtain ⟨h1, h2⟩ := hh
  rw [asBytes_ok h (by rw [h2]; exact v.hl.2), h1, h2, digestBytes_take _ _ v.hl.2]
  unfold Spec.Sp.hash
  rw [v.keyLength_eq]

theorem Digest.unique {p : Params} {msg : List U8} {a b : Hash} (ha : Digest p msg a)
    (hb : Digest p msg b) : a = b := by
  obtain ⟨a1, a2⟩ := a
  obtain ⟨b1, b2⟩ := b
  obtain ⟨h1, h2⟩ := ha
  obtain ⟨h3, h4⟩ := hb
  simp only at h1 h2 h3 h4
  have : a1.toList = b1.toList := h1.trans h3.symm
  rw [Vector.toList_inj.mp this, h2, h4]

/-- Keyed states handle only histories correctly that leave everything in the buffer. -/
def Short (p : Params) (done : Nat) (ops : List Op) : Prop := p.keyLength ≠ 0 → AllBuffered done ops

theorem keyBlock_nil {p : Params} (v : p.Valid) (h : p.keyLength = 0) :
    Spec.keyBlock p.keyBytes = [] := by
  have : p.keyBytes = [] := by
    rw [← List.length_eq_zero_iff, v.keyBytes_length, h]; rfl
  rw [this]; rfl

theorem keyBlock_ne {p : Params} (v : p.Valid) (h : Spec.keyBlock p.keyBytes ≠ []) :
    p.keyLength ≠ 0 := fun h2 => h (keyBlock_nil v h2)

theorem keyBlock_length' {p : Params} (v : p.Valid) :
    (Spec.keyBlock p.keyBytes).length = if p.keyLength = 0 then 0 else 64 := by
  rw [keyBlock_length _ (by rw [v.keyBytes_length]; have := v.kl; omega)]
  have : p.keyBytes = [] ↔ p.keyLength = 0 := by
    rw [← List.length_eq_zero_iff, v.keyBytes_length]
    constructor
    · intro h; apply BitVec.eq_of_toNat_eq; simpa using h
    · intro h; rw [h]; rfl
  by_cases h : p.keyLength = 0
  · rw [if_pos h, if_pos (this.mpr h)]
  · rw [if_neg h, if_neg (fun h' => h (this.mp h'))]

/-- With overflow checks on, the bytes of some leaf, with the key block, do not fit its counter. -/
def LeafTooLong (E : Env) (pre total : List U8) : Prop :=
  ∃ i : Fin 8, E.overflowChecks = true ∧ 2 ^ 64 ≤ (pre ++ Spec.Sp.leafInput i total).length

/-- With overflow checks on, one of the leaf counters overflows. -/
def Bad (E : Env) (p : Params) (total : List U8) : Prop :=
  LeafTooLong E (Spec.keyBlock p.keyBytes) total

theorem not_bad {E : Env} {p : Params} (v : p.Valid) {total : List U8} (h : Fits E total.length)
    (hs : p.keyLength ≠ 0 → total.length ≤ 1024) : ¬ Bad E p total := by
  rintro ⟨i, h1, h2⟩
  have h3 := h h1
  have h4 := Spec.Sp.leafInput_length_le i total
  rw [List.length_append, keyBlock_length' v] at h2
  by_cases hk : p.keyLength = 0
  · rw [if_pos hk] at h2; omega
  · rw [if_neg hk] at h2
    have := hs hk
    omega

theorem AbsN.new (E : Env) (hE : E.WF) (p : Params) (v : p.Valid) :
    ∃ s, p.toState E = .ok s ∧ AbsN E p 0 [] s := by
  obtain ⟨s, e, r⟩ := withParams_ok E hE p v
  exact ⟨s, e, _, _, _, r, fun i => ⟨rfl, rfl, rfl⟩, rfl, rfl, rfl⟩

theorem Abs.new (E : Env) (hE : E.WF) (p : Params) (v : p.Valid) :
    ∃ s, p.toState E = .ok s ∧ Abs E p [] s := by
  obtain ⟨s, e, r⟩ := AbsN.new E hE p v
  exact ⟨s, e, 0, r, fun _ => rfl⟩

theorem rowsTaken_zero (done n : Nat) : rowsTaken done n = 0 ↔ Buffered done n := by
  unfold rowsTaken Buffered
  constructor <;> intro h <;> split at h <;> split <;> omega

theorem AbsN.len {E : Env} {p : Params} {n : Nat} {total : List U8} {s : State}
    (a : AbsN E p n total s) : 512 * n ≤ total.length := by
  obtain ⟨c, cr, fn, r, -⟩ := a
  exact r.rows.le

theorem AbsN.fits {E : Env} {p : Params} {n : Nat} {total : List U8} {s : State}
    (a : AbsN E p n total s) : ¬ Overrun E (Spec.keyBlock p.keyBytes) n := by
  obtain ⟨c, cr, fn, r, -⟩ := a
  exact r.rows.notOverrun

theorem AbsN.update {E : Env} {p : Params} (v : p.Valid) {n : Nat} {total : List U8} {s : State}
    (a : AbsN E p n total s) (input : List U8) (goal : Nat)
    (hgoal : goal = n + rowsTaken (total.length - 512 * n) input.length)
    (hd : E.debugAssertions = true → n < goal → p.keyLength = 0) :
    Ends (s.update E input) (Overrun E (Spec.keyBlock p.keyBytes) goal)
      (fun s' => AbsN E p goal (total ++ input) s') := by
  obtain ⟨c, cr, fn, r, h⟩ := a
  exact (update_ends r input goal hgoal (fun h1 h2 => keyBlock_nil v (hd h1 h2))).mono (fun h => h)
    (fun s' r' => ⟨c, cr, fn, r', h⟩)

theorem overrun_bad {E : Env} {p : Params} {goal : Nat} {total : List U8}
    (hg : 512 * goal ≤ total.length) (h : Overrun E (Spec.keyBlock p.keyBytes) goal) :
    Bad E p total := by
  refine ⟨0, h.1, ?_⟩
  have := leafInput_take_le 0 goal total hg
  have := h.2
  rw [List.length_append]
  omega

theorem Abs.update {E : Env} {p : Params} (v : p.Valid) {total : List U8} {s : State}
    (a : Abs E p total s) (input : List U8)
    (hs : p.keyLength ≠ 0 → Buffered total.length input.length) :
    Ends (s.update E input) (Bad E p (total ++ input)) (fun s' => Abs E p (total ++ input) s') := by
  obtain ⟨n, a, hn⟩ := a
  have ht : p.keyLength ≠ 0 → rowsTaken (total.length - 512 * n) input.length = 0 := by
    intro hk
    rw [hn hk, rowsTaken_zero]
    exact hs hk
  refine (a.update v input _ rfl ?_).mono (overrun_bad ?_) (fun s' r' => ⟨_, r', ?_⟩)
  · intro _ h1
    apply Classical.byContradiction
    intro h2
    rw [ht h2] at h1
    omega
  · have := a.len
    rw [List.length_append]
    unfold rowsTaken
    split <;> omega
  · intro hk
    rw [ht hk, hn hk]

theorem AbsN.finalize {E : Env} {p : Params} {n : Nat} {total : List U8} {s : State}
    (a : AbsN E p n total s) :
    Ends (s.finalize E) (RestTooLong E (Spec.keyBlock p.keyBytes) total n)
      (fun x => x.1 = s ∧ DigestN p n total x.2 ∧ ¬ RestTooLong E (Spec.keyBlock p.keyBytes) total n) := by
  obtain ⟨c, cr, fn, r, hc, h1, h2, h3⟩ := a
  refine (finalize_ends r (fun i => (hc i).2.2)).mono (fun h => h) ?_
  rintro ⟨s', h⟩ ⟨es, ⟨hb, hl⟩, hn⟩
  refine ⟨es, ⟨?_, hl.trans h3⟩, hn⟩
  rw [hb, h1, h2]
  have : Leaf c (Spec.keyBlock p.keyBytes) total n = rowsLeaf p n total := by
    funext i
    unfold Leaf rowsLeaf leafN rowCfg
    simp only []
    rw [(hc i).1, (hc i).2.1]
    rfl
  rw [this]
  rfl

/-- Without rows, or without a key and with a byte left for every leaf, the leaves compute what they
should. -/
theorem rowsLeaf_spec {p : Params} (v : p.Valid) {n : Nat} {total : List U8}
    (hk : p.keyLength ≠ 0 → n = 0) (hle : 512 * n ≤ total.length)
    (hm : 0 < n → 448 < (total.drop (512 * n)).length) (i : Fin 8) :
    rowsLeaf p n total i = Spec.Sp.leaf p.hashLength p.keyBytes total i := by
  unfold rowsLeaf Spec.Sp.leaf
  rw [v.keyLength_eq]
  by_cases h0 : n = 0
  · subst h0
    rfl
  · have hk0 : p.keyLength = 0 := Classical.byContradiction fun h => h0 (hk h)
    rw [keyBlock_nil v hk0]
    have e := Spec.absorb_chain
      (Spec.Sp.nodeParams p.hashLength p.keyLength (BitVec.ofNat 48 i.val) 0).init 0
      (Spec.Sp.leafInput i (total.take (512 * n))) (Spec.Sp.leafInput i (total.drop (512 * n)))
      (i.val == 7) n (Spec.Sp.leafInput_rows_length i n total hle) (by
        intro hn e
        have h1 := hm hn
        have h2 := congrArg List.length e
        have h3 : (Spec.Sp.leafInput i ((total.drop (512 * n)).take 512)).length ≤
            (Spec.Sp.leafInput i (total.drop (512 * n))).length := by
          conv => rhs; rw [← List.take_append_drop 512 (total.drop (512 * n))]
          rw [← Spec.Sp.dealt_zero, ← Spec.Sp.dealt_zero, Spec.Sp.dealt_append, List.length_append]
          omega
        rw [Spec.Sp.leafInput_one i _ (by simp; omega)] at h3
        simp only [List.length_take, List.length_drop, List.length_nil] at h1 h2 h3
        omega)
    simp only [List.length_nil, List.nil_append] at e ⊢
    rw [Nat.zero_add] at e
    rw [e, ← Spec.Sp.leafInput_append i n _ _ (by simp; omega), List.take_append_drop]

theorem AbsN.more {E : Env} {p : Params} {n : Nat} {total : List U8} {s : State}
    (a : AbsN E p n total s) : 0 < n → 448 < (total.drop (512 * n)).length := by
  obtain ⟨c, cr, fn, r, -⟩ := a
  intro h
  have h1 := r.more h
  have h2 := r.held.len
  rw [List.length_drop]
  omega

theorem DigestN.digest {p : Params} {n : Nat} {total : List U8} {h : Hash}
    (e : ∀ i, rowsLeaf p n total i = Spec.Sp.leaf p.hashLength p.keyBytes total i)
    (d : DigestN p n total h) : Digest p total h := by
  have : rowsLeaf p n total = Spec.Sp.leaf p.hashLength p.keyBytes total := funext e
  unfold DigestN at d
  rw [this] at d
  exact d

theorem restTooLong_bad {E : Env} {p : Params} {n : Nat} {total : List U8}
    (hle : 512 * n ≤ total.length) (h : RestTooLong E (Spec.keyBlock p.keyBytes) total n) :
    Bad E p total := by
  obtain ⟨i, h1, h2⟩ := h
  refine ⟨i, h1, ?_⟩
  conv => rhs; rw [← List.take_append_drop (512 * n) total]
  rw [Spec.Sp.leafInput_append i n _ _ (by simp; omega)]
  simp only [List.length_append] at h2 ⊢
  rw [Spec.Sp.leafInput_rows_length i n total hle]
  omega

theorem Abs.finalize {E : Env} {p : Params} (v : p.Valid) {total : List U8} {s : State}
    (a : Abs E p total s) : Ends (s.finalize E) (Bad E p total)
      (fun x => x.1 = s ∧ Digest p total x.2) := by
  obtain ⟨n, a, hk⟩ := a
  exact a.finalize.mono (restTooLong_bad a.len)
    (fun h d => ⟨d.1, d.2.1.digest (rowsLeaf_spec v hk a.len a.more)⟩)

theorem weak_portable {E : Env} {c : Cfg} {off : Nat} {data : List U8} {k : Nat} {s : Blake2s.State}
    (w : WeakO E c off data k s) : WeakO E { c with fn := .portable } off data k s.forcePortable :=
  ⟨w.len, w.le, w.h, w.buf, w.count, w.fits, rfl, nofun, w.ln, w.hl⟩

theorem AbsN.forcePortable {E : Env} {p : Params} {n : Nat} {total : List U8} {s : State}
    (a : AbsN E p n total s) : AbsN E p n total s.forcePortable := by
  obtain ⟨c, cr, fn, ⟨rows, held, hn, root, hfn, sup⟩, hc, h1, h2, h3⟩ := a
  refine ⟨fun i => { c i with fn := .portable }, { cr with fn := .portable }, .portable,
    ⟨⟨?_, rows.le⟩, ⟨held.len, held.le, held.buf, held.lem⟩, hn,
      forcePortable_rep root, rfl, nofun⟩, fun i => hc i, h1, h2, h3⟩
  apply fin8_cases
  intro i hi
  match i, hi with
  | 0, _ => exact weak_portable (rows.weak 0)
  | 1, _ => exact weak_portable (rows.weak 1)
  | 2, _ => exact weak_portable (rows.weak 2)
  | 3, _ => exact weak_portable (rows.weak 3)
  | 4, _ => exact weak_portable (rows.weak 4)
  | 5, _ => exact weak_portable (rows.weak 5)
  | 6, _ => exact weak_portable (rows.weak 6)
  | 7, _ => exact weak_portable (rows.weak 7)

theorem Abs.forcePortable {E : Env} {p : Params} {total : List U8} {s : State}
    (a : Abs E p total s) : Abs E p total s.forcePortable := by
  obtain ⟨n, a, h⟩ := a
  exact ⟨n, a.forcePortable, h⟩

theorem AbsN.count {E : Env} {p : Params} (v : p.Valid) {n : Nat} {total : List U8} {s : State}
    (a : AbsN E p n total s) :
    Ends (s.getCount E)
      (E.overflowChecks = true ∧
        2 ^ 64 ≤ (if p.keyLength = 0 then 0 else 512) + total.length)
      (fun k => k = BitVec.ofNat 64 ((if p.keyLength = 0 then 0 else 512) + total.length) ∧
        (E.overflowChecks = true →
          (if p.keyLength = 0 then 0 else 512) + total.length < 2 ^ 64)) := by
  obtain ⟨c, cr, fn, r, _⟩ := a
  have := getCount_ends r
  rw [keyBlock_length' v] at this
  by_cases h : p.keyLength = 0
  · rw [if_pos h] at this ⊢; exact this
  · rw [if_neg h] at this ⊢; exact this

theorem Abs.count {E : Env} {p : Params} (v : p.Valid) {total : List U8} {s : State}
    (a : Abs E p total s) :
    Ends (s.getCount E)
      (E.overflowChecks = true ∧
        2 ^ 64 ≤ (if p.keyLength = 0 then 0 else 512) + total.length)
      (fun k => k = BitVec.ofNat 64 ((if p.keyLength = 0 then 0 else 512) + total.length) ∧
        (E.overflowChecks = true →
          (if p.keyLength = 0 then 0 else 512) + total.length < 2 ^ 64)) := by
  obtain ⟨n, a, _⟩ := a
  exact a.count v

/-- `Digest` for every hash a history returns. -/
def Digests (p : Params) (data : List U8) : List Op → List Hash → Prop
  | [], hs => hs = []
  | .update b :: ops, hs => Digests p (data ++ b) ops hs
  | .write b :: ops, hs => Digests p (data ++ b) ops hs
  | .flush :: ops, hs => Digests p data ops hs
  | .finalize :: ops, hs => ∃ h t, hs = h :: t ∧ Digest p data h ∧ Digests p data ops t
  | .forcePortable :: ops, hs => Digests p data ops hs

theorem leafTooLong_mono {E : Env} {pre a : List U8} (b : List U8) (h : LeafTooLong E pre a) :
    LeafTooLong E pre (a ++ b) := by
  obtain ⟨i, h1, h2⟩ := h
  refine ⟨i, h1, ?_⟩
  rw [List.length_append] at h2 ⊢
  have : Spec.Sp.leafInput i (a ++ b) =
      Spec.Sp.leafInput i a ++ Spec.Sp.dealt i (0 + a.length) b := by
    rw [← Spec.Sp.dealt_zero, Spec.Sp.dealt_append]; rfl
  rw [this, List.length_append]
  omega

theorem allBuffered_le {ops : List Op} {done : Nat} (h : AllBuffered done ops) (hd : done ≤ 1024) :
    done + (fed ops).length ≤ 1024 := by
  have step : ∀ n, Buffered done n → done + n ≤ 1024 := by
    intro n hb
    unfold Buffered at hb
    split at hb <;> omega
  induction ops generalizing done with
  | nil => simpa [fed] using hd
  | cons op ops ih =>
    have go : ∀ n, Buffered done n → AllBuffered (done + n) ops →
        done + n + (fed ops).length ≤ 1024 := by
      intro n hb ha
      have h1 := step n hb
      refine ih ha h1 ?_
      intro m hm
      unfold Buffered at hm
      split at hm <;> omega
    cases op with
    | update b => rw [fed, List.length_append, ← Nat.add_assoc]; exact go _ h.1 h.2
    | write b => rw [fed, List.length_append, ← Nat.add_assoc]; exact go _ h.1 h.2
    | flush => exact ih h hd step
    | finalize => exact ih h hd step
    | forcePortable => exact ih h hd step

theorem run_ends {E : Env} {p : Params} (v : p.Valid) (ops : List Op) {data : List U8} {s : State}
    (a : Abs E p data s) (hs : Short p data.length ops) :
    Ends (s.run E ops) (Bad E p (data ++ fed ops)) (fun x =>
      Abs E p (data ++ fed ops) x.1 ∧ Digests p data ops x.2) := by
  induction ops generalizing data s with
  | nil => exact Ends.pure ⟨by simpa [fed] using a, rfl⟩
  | cons op ops ih =>
    cases op with
    | update b =>
      rw [fed, ← List.append_assoc]
      exact Ends.bind ((a.update v b (fun h => (hs h).1)).mono (leafTooLong_mono _) (fun _ h => h))
        (fun s' r' => ih r' (fun h => by rw [List.length_append]; exact (hs h).2))
    | write b =>
      rw [fed, ← List.append_assoc]
      refine Ends.bind (post := fun x => Abs E p (data ++ b) x.1) ?_
        (fun s' r' => ih r' (fun h => by rw [List.length_append]; exact (hs h).2))
      unfold State.write
      exact Ends.bind ((a.update v b (fun h => (hs h).1)).mono (leafTooLong_mono _) (fun _ h => h))
        (fun s' r' => Ends.pure r')
    | flush => exact ih a hs
    | finalize =>
      unfold State.run
      refine Ends.bind ((a.finalize v).mono (leafTooLong_mono _) (fun _ h => h)) ?_
      rintro ⟨_, h⟩ ⟨rfl, hh⟩
      refine Ends.bind (ih a hs) ?_
      rintro ⟨s2, hs⟩ ⟨r2, ha⟩
      exact Ends.pure ⟨r2, h, hs, rfl, hh, ha⟩
    | forcePortable => exact ih a.forcePortable hs

theorem Digests.asBytes {p : Params} (v : p.Valid) {ops : List Op} {done : List U8}
    {hs : List Hash} (ha : Digests p done ops hs) :
    hs.mapM Hash.asBytes = .ok (digests p.hashLength p.keyBytes done ops) := by
  induction ops generalizing done hs with
  | nil =>
    have : hs = [] := ha
    rw [this]; rfl
  | cons op ops ih =>
    cases op with
    | update i => exact ih (done := done ++ i) ha
    | write i => exact ih (done := done ++ i) ha
    | flush => exact ih (done := done) ha
    | finalize =>
      obtain ⟨x, t, rfl, hx, ht⟩ := ha
      rw [List.mapM_cons, hx.asBytes v, ih ht]
      rfl
    | forcePortable => exact ih (done := done) ha

theorem Digests.unique {p : Params} {ops : List Op} {data : List U8} {a b : List Hash}
    (ha : Digests p data ops a) (hb : Digests p data ops b) : a = b := by
  induction ops generalizing data a b with
  | nil => exact Eq.trans ha (Eq.symm hb)
  | cons op ops ih =>
    cases op with
    | update i => exact ih (data := data ++ i) ha hb
    | write i => exact ih (data := data ++ i) ha hb
    | flush => exact ih (data := data) ha hb
    | finalize =>
      obtain ⟨x, t, rfl, hx, ht⟩ := ha
      obtain ⟨y, u, rfl, hy, hu⟩ := hb
      rw [ih ht hu, hx.unique hy]
    | forcePortable => exact ih (data := data) ha hb

theorem fed_append (a b : List Op) : fed (a ++ b) = fed a ++ fed b := by
  induction a with
  | nil => rfl
  | cons op ops ih => cases op <;> simp [fed, ih]

theorem fed_chunks (chunks : List (List U8)) : fed (chunks.map Op.update) = chunks.flatten := by
  induction chunks with
  | nil => rfl
  | cons c cs ih => simp [fed, ih]

theorem digests_chunks (p : Params) (data : List U8) (chunks : List (List U8)) (after : List Op)
    (hs : List Hash) :
    Digests p data (chunks.map Op.update ++ after) hs = Digests p (data ++ chunks.flatten) after hs := by
  induction chunks generalizing data with
  | nil => simp
  | cons x xs ih =>
    simp only [List.map_cons, List.cons_append, Digests, ih, List.flatten_cons, List.append_assoc]

theorem Reaches.abs {E : Env} {p : Params} {ops : List Op} {s : State} (hE : E.WF) (v : p.Valid)
    (hs : Short p 0 ops) (h : Reaches E p ops s) : Abs E p (fed ops) s := by
  obtain ⟨s0, hs', h0, h1⟩ := h
  obtain ⟨s', e, a⟩ := Abs.new E hE p v
  have : s' = s0 := by rw [e] at h0; cases h0; rfl
  subst this
  rcases run_ends v ops a (by simpa using hs) with ⟨x, hx, r', _⟩ | ⟨hx, _⟩
  · rw [hx] at h1; cases h1; exact r'
  · rw [hx] at h1; cases h1

theorem not_bad_fed {E : Env} {p : Params} (v : p.Valid) {ops : List Op}
    (h : Fits E (fed ops).length) (hs : Short p 0 ops) : ¬ Bad E p (fed ops) :=
  not_bad v h fun hk => by
    have := allBuffered_le (hs hk) (by decide)
    omega

/-! ## Keyed states in debug builds -/

theorem compress8_panics {E : Env} (hd : E.debugAssertions = true) (row : Vector U8 512)
    (lf : Vector Blake2s.State 8) (fn : Compress8Fn) (h : lf[0].buflen ≠ 0) :
    State.compress8 E row lf fn = .error .debugAssertFailed := by
  unfold State.compress8
  have : debugAssert E (decide (0 = lf[0].buflen)) = .error .debugAssertFailed := by
    unfold debugAssert
    rw [hd, decide_eq_false (fun e => h e.symm)]
    rfl
  rw [this]
  rfl

theorem Abs.update_panics {E : Env} (hd : E.debugAssertions = true) {p : Params} (v : p.Valid)
    (hk : p.keyLength ≠ 0) {total : List U8} {s : State} (a : Abs E p total s) (input : List U8)
    (hb : ¬ Buffered total.length input.length) :
    s.update E input = .error .debugAssertFailed := by
  obtain ⟨n, ⟨c, cr, fn, ⟨rows, held, hn, root, hfn, sup⟩, -⟩, hn0⟩ := a
  have hpre : (Spec.keyBlock p.keyBytes).length = 64 := by rw [keyBlock_length' v, if_neg hk]
  have hn0 : n = 0 := hn0 hk
  subst hn0
  have hl := held.len
  have hbl : s.leaves[0].buflen ≠ 0 := by
    have w := rows.buflen 0
    rw [hpre] at w
    intro h
    have : s.leaves[(0 : Fin 8)].buflen = 0 := h
    rw [this] at w
    simp at w
  unfold State.update State.updateBuffered
  unfold Buffered at hb
  by_cases h0 : s.buflen.toNat > 0
  · rw [if_pos h0]
    have held1 : Held (total ++ input) 0 total.length s := by
      refine ⟨held.len, held.le, ?_, by simp⟩
      rw [held.buf, List.take_length, List.take_left]
    obtain ⟨s1, t, e, ht, held2, hbl1, el, er, ef⟩ := fillBuf_ok (E := E) held1 input
      (by rw [List.drop_left])
    rw [if_neg (by omega)] at hb
    rw [e]
    simp only [bind, Except.bind]
    have hne : (input.drop t).isEmpty = false := by
      cases hh : (input.drop t).isEmpty with
      | false => rfl
      | true =>
        have := List.length_eq_zero_iff.mpr (List.isEmpty_iff.mp hh)
        rw [List.length_drop] at this
        have hle := held2.le
        omega
    simp only [hne, Bool.not_false, if_true]
    rw [compress8_panics hd _ _ _ (by rw [el]; exact hbl)]
  · rw [if_neg h0]
    rw [if_pos (by omega)] at hb
    simp only [bind, Except.bind, pure, Except.pure]
    unfold State.updateLoop BLOCKBYTES
    rw [if_pos (by omega)]
    obtain ⟨w, e, hw⟩ := arrayRef_ok input 0 512 (by omega)
    rw [e]
    simp only [bind, Except.bind]
    rw [compress8_panics hd _ _ _ hbl]

/-- A keyed state in a debug build panics as soon as something does not go to the buffer. -/
theorem run_panics {E : Env} (hd : E.debugAssertions = true) {p : Params} (v : p.Valid)
    (hk : p.keyLength ≠ 0) (ops : List Op) {data : List U8} {s : State} (a : Abs E p data s)
    (hlen : data.length ≤ 1024) (hb : ¬ AllBuffered data.length ops) :
    s.run E ops = .error .debugAssertFailed := by
  have nobad : ∀ l : List U8, l.length ≤ 1024 → ¬ Bad E p l := fun l hl =>
    not_bad v (fun _ => by omega) (fun _ => hl)
  have le : ∀ (d b : List U8), d.length ≤ 1024 → Buffered d.length b.length →
      (d ++ b).length ≤ 1024 := by
    intro d b hd hb
    rw [List.length_append]
    unfold Buffered at hb
    split at hb <;> omega
  induction ops generalizing data s with
  | nil => exact absurd trivial hb
  | cons op ops ih =>
    cases op with
    | update b =>
      unfold State.run
      by_cases h1 : Buffered data.length b.length
      · have hle := le data b hlen h1
        obtain ⟨s', e, a'⟩ := (a.update v b (fun _ => h1)).elim (nobad _ hle)
        rw [e]
        refine ih a' hle ?_
        rw [List.length_append]
        exact fun h2 => hb ⟨h1, h2⟩
      · rw [a.update_panics hd v hk b h1]; rfl
    | write b =>
      unfold State.run State.write
      by_cases h1 : Buffered data.length b.length
      · have hle := le data b hlen h1
        obtain ⟨s', e, a'⟩ := (a.update v b (fun _ => h1)).elim (nobad _ hle)
        rw [e]
        refine ih a' hle ?_
        rw [List.length_append]
        exact fun h2 => hb ⟨h1, h2⟩
      · rw [a.update_panics hd v hk b h1]; rfl
    | flush => exact ih a hlen hb
    | finalize =>
      unfold State.run
      obtain ⟨⟨s', h⟩, e, rfl, _⟩ := (a.finalize v).elim (nobad _ hlen)
      rw [e]
      show (State.run E s' ops >>= _) = _
      rw [ih a hlen hb]
      rfl
    | forcePortable => exact ih a.forcePortable hlen hb

/-! ## Every history, with a key or without -/

/-- `DigestN` for every hash a history returns. -/
def DigestsN (p : Params) (n : Nat) (data : List U8) : List Op → List Hash → Prop
  | [], hs => hs = []
  | .update b :: ops, hs => DigestsN p (n + rowsTaken (data.length - 512 * n) b.length) (data ++ b) ops hs
  | .write b :: ops, hs => DigestsN p (n + rowsTaken (data.length - 512 * n) b.length) (data ++ b) ops hs
  | .flush :: ops, hs => DigestsN p n data ops hs
  | .finalize :: ops, hs => ∃ h t, hs = h :: t ∧ DigestN p n data h ∧ DigestsN p n data ops t
  | .forcePortable :: ops, hs => DigestsN p n data ops hs

theorem rowsAfter_le (ops : List Op) (n done : Nat) : n ≤ rowsAfter n done ops := by
  induction ops generalizing n done with
  | nil => exact Nat.le_refl _
  | cons op ops ih =>
    cases op with
    | update b => exact Nat.le_trans (Nat.le_add_right _ _) (ih _ _)
    | write b => exact Nat.le_trans (Nat.le_add_right _ _) (ih _ _)
    | flush => exact ih n done
    | finalize => exact ih n done
    | forcePortable => exact ih n done

/-- Nothing leaves the buffer exactly when no row is passed on. -/
theorem rowsAfter_zero (ops : List Op) (done : Nat) :
    rowsAfter 0 done ops = 0 ↔ AllBuffered done ops := by
  induction ops generalizing done with
  | nil => simp [rowsAfter, AllBuffered]
  | cons op ops ih =>
    have step : ∀ b : List U8, rowsAfter (0 + rowsTaken (done - 512 * 0) b.length) (done + b.length) ops = 0 ↔
        Buffered done b.length ∧ AllBuffered (done + b.length) ops := by
      intro b
      rw [Nat.zero_add, Nat.mul_zero, Nat.sub_zero, ← rowsTaken_zero, ← ih]
      constructor
      · intro h
        have h0 : rowsTaken done b.length = 0 := by
          have := rowsAfter_le ops (rowsTaken done b.length) (done + b.length)
          omega
        rw [h0] at h
        exact ⟨h0, h⟩
      · rintro ⟨h0, h⟩
        rw [h0]
        exact h
    cases op with
    | update b => exact step b
    | write b => exact step b
    | flush => exact ih done
    | finalize => exact ih done
    | forcePortable => exact ih done

theorem run_endsN {E : Env} {p : Params} (v : p.Valid) (ops : List Op) {n : Nat} {data : List U8} {s : State}
    (a : AbsN E p n data s)
    (hd : E.debugAssertions = true → p.keyLength ≠ 0 → rowsAfter n data.length ops = n) :
    Ends (s.run E ops) (Bad E p (data ++ fed ops)) (fun x =>
      AbsN E p (rowsAfter n data.length ops) (data ++ fed ops) x.1 ∧ DigestsN p n data ops x.2) := by
  induction ops generalizing n data s with
  | nil => exact Ends.pure ⟨by simpa [fed, rowsAfter] using a, rfl⟩
  | cons op ops ih =>
    have up : ∀ b : List U8, (E.debugAssertions = true → p.keyLength ≠ 0 →
        rowsAfter (n + rowsTaken (data.length - 512 * n) b.length) (data.length + b.length) ops = n) →
        Ends (s.update E b) (Bad E p (data ++ b ++ fed ops)) (fun s' =>
          AbsN E p (n + rowsTaken (data.length - 512 * n) b.length) (data ++ b) s' ∧
          (E.debugAssertions = true → p.keyLength ≠ 0 →
            rowsAfter (n + rowsTaken (data.length - 512 * n) b.length) (data ++ b).length ops =
              n + rowsTaken (data.length - 512 * n) b.length)) := by
      intro b hb
      have hz : E.debugAssertions = true → p.keyLength ≠ 0 →
          rowsTaken (data.length - 512 * n) b.length = 0 := by
        intro h1 h2
        have h3 := hb h1 h2
        have := rowsAfter_le ops (n + rowsTaken (data.length - 512 * n) b.length) (data.length + b.length)
        omega
      refine (a.update v b _ rfl ?_).mono (fun h => leafTooLong_mono _ (overrun_bad ?_ h))
        (fun s' h => ⟨h, ?_⟩)
      · intro h1 h2
        apply Classical.byContradiction
        intro h3
        have := hz h1 h3
        omega
      · have := a.len
        rw [List.length_append]
        unfold rowsTaken
        split <;> omega
      · intro h1 h2
        rw [List.length_append, hb h1 h2, hz h1 h2, Nat.add_zero]
    cases op with
    | update b =>
      rw [fed, ← List.append_assoc]
      refine Ends.bind (up b hd) (fun s' r' => ?_)
      have := ih r'.1 r'.2
      rw [List.length_append] at this
      exact this
    | write b =>
      rw [fed, ← List.append_assoc]
      unfold State.run State.write
      refine Ends.bind (Ends.bind (up b hd) (fun s' r' => Ends.pure (post := fun x : State × Nat =>
        AbsN E p (n + rowsTaken (data.length - 512 * n) b.length) (data ++ b) x.1 ∧
          (E.debugAssertions = true → p.keyLength ≠ 0 →
            rowsAfter (n + rowsTaken (data.length - 512 * n) b.length) (data ++ b).length ops =
              n + rowsTaken (data.length - 512 * n) b.length)) r')) ?_
      rintro ⟨s', k⟩ r'
      have := ih r'.1 r'.2
      rw [List.length_append] at this
      exact this
    | flush => exact ih a hd
    | finalize =>
      unfold State.run
      refine Ends.bind (a.finalize.mono (fun h => leafTooLong_mono _ (restTooLong_bad a.len h))
        (fun _ h => h)) ?_
      rintro ⟨_, h⟩ ⟨rfl, hh⟩
      refine Ends.bind (ih a hd) ?_
      rintro ⟨s2, hs⟩ ⟨r2, ha⟩
      exact Ends.pure ⟨r2, h, hs, rfl, hh.1, ha⟩
    | forcePortable => exact ih a.forcePortable hd

theorem Reaches.absN {E : Env} {p : Params} {ops : List Op} {s : State} (hE : E.WF) (v : p.Valid)
    (h : Reaches E p ops s) : AbsN E p (rowsAfter 0 0 ops) (fed ops) s := by
  obtain ⟨s0, hs', h0, h1⟩ := h
  obtain ⟨s', e, a⟩ := AbsN.new E hE p v
  have : s' = s0 := by rw [e] at h0; cases h0; rfl
  subst this
  have hd : E.debugAssertions = true → p.keyLength ≠ 0 → rowsAfter 0 ([] : List U8).length ops = 0 := by
    intro hd hk
    rw [show ([] : List U8).length = 0 from rfl, rowsAfter_zero]
    apply Classical.byContradiction
    intro hb
    rw [run_panics hd v hk ops ⟨0, a, fun _ => rfl⟩ (by simp) hb] at h1
    cases h1
  rcases run_endsN v ops a hd with ⟨x, hx, r', _⟩ | ⟨hx, _⟩
  · rw [hx] at h1; cases h1; exact r'
  · rw [hx] at h1; cases h1

theorem not_bad' {E : Env} {p : Params} (v : p.Valid) {total : List U8}
    (h : E.overflowChecks = true → (if p.keyLength = 0 then 0 else 64) + total.length < 2 ^ 64) :
    ¬ Bad E p total := by
  rintro ⟨i, h1, h2⟩
  have h3 := h h1
  have h4 := Spec.Sp.leafInput_length_le i total
  rw [List.length_append, keyBlock_length' v] at h2
  omega

theorem rowsLeaf_keyed {p : Params} (v : p.Valid) (hk : p.keyLength ≠ 0) (n : Nat) (msg : List U8) :
    rowsLeaf p n msg = keyedLeaf p.hashLength p.keyBytes n msg := by
  funext i
  unfold rowsLeaf keyedLeaf
  rw [keyBlock_length' v, if_neg hk, v.keyLength_eq]

theorem DigestN.keyed {p : Params} (v : p.Valid) (hk : p.keyLength ≠ 0) {n : Nat} {msg : List U8} {h : Hash}
    (d : DigestN p n msg h) : h.asBytes = .ok (keyedHash p.hashLength p.keyBytes n msg) := by
  obtain ⟨h1, h2⟩ := d
  rw [asBytes_ok h (by rw [h2]; exact v.hl.2), h1, h2, digestBytes_take _ _ v.hl.2, rowsLeaf_keyed v hk]
  unfold keyedHash
  rw [v.keyLength_eq]

theorem DigestsN.keyed {p : Params} (v : p.Valid) (hk : p.keyLength ≠ 0) {ops : List Op} {n : Nat}
    {done : List U8} {hs : List Hash} (ha : DigestsN p n done ops hs) :
    hs.mapM Hash.asBytes = .ok (keyedDigests p.hashLength p.keyBytes n done ops) := by
  induction ops generalizing n done hs with
  | nil =>
    have : hs = [] := ha
    rw [this]; rfl
  | cons op ops ih =>
    cases op with
    | update i => exact ih (done := done ++ i) ha
    | write i => exact ih (done := done ++ i) ha
    | flush => exact ih (done := done) ha
    | finalize =>
      obtain ⟨x, t, rfl, hx, ht⟩ := ha
      rw [List.mapM_cons, hx.keyed v hk, ih ht]
      rfl
    | forcePortable => exact ih (done := done) ha

theorem single_digest {hs : List Hash} {b : List U8} (h : hs.mapM Hash.asBytes = .ok [b]) :
    ∃ d, hs = [d] ∧ d.asBytes = .ok b := by
  cases hs with
  | nil => cases h
  | cons d t =>
    rw [List.mapM_cons] at h
    cases h1 : d.asBytes with
    | error f => rw [h1] at h; cases h
    | ok x =>
      cases h2 : t.mapM Hash.asBytes with
      | error f => rw [h1, h2] at h; cases h
      | ok y =>
        rw [h1, h2] at h
        have h3 : x :: y = [b] := Except.ok.inj h
        cases h3
        cases t with
        | nil => exact ⟨d, rfl, h1⟩
        | cons u w =>
          rw [List.mapM_cons] at h2
          cases h4 : u.asBytes with
          | error f => rw [h4] at h2; cases h2
          | ok z =>
            cases h5 : w.mapM Hash.asBytes with
            | error f => rw [h4, h5] at h2; cases h2
            | ok q => rw [h4, h5] at h2; cases h2

end Blake2s.Sp
