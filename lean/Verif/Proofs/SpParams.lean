import Verif.Proofs.SpFinal
import Verif.Proofs.Setters
/-!
# `blake2sp::Params` and `blake2sp::State::with_params`
-/

namespace Blake2s.Sp

/-- What holds of every `blake2sp::Params` that the setters can produce. -/
structure Params.Valid (p : Params) : Prop where
  hl : 1 ≤ p.hashLength.toNat ∧ p.hashLength.toNat ≤ 32
  kl : p.keyLength.toNat ≤ 32

theorem setHashLength_eq (p : Params) (n : Nat) :
    p.setHashLength n = if 1 ≤ n ∧ n ≤ 32 then .ok { p with hashLength := BitVec.ofNat 8 n }
      else .error .assertFailed := by
  unfold Params.setHashLength
  by_cases h : 1 ≤ n ∧ n ≤ 32
  · rw [if_pos h, assert_true (by simpa using h)]; rfl
  · rw [if_neg h, assert_false (by rw [← Bool.not_eq_true]; simpa using h)]; rfl

theorem setKey_eq (p : Params) (k : List U8) :
    p.setKey k = if k.length ≤ 32 then
        .ok { p with keyLength := BitVec.ofNat 8 k.length, key := padded 32 k }
      else .error .assertFailed := by
  unfold Params.setKey
  by_cases h : k.length ≤ 32
  · rw [if_pos h, assert_true (by simpa using h), copy_padded k h]; rfl
  · rw [if_neg h, assert_false (by rw [← Bool.not_eq_true]; simpa using h)]; rfl

theorem set_valid {p q : Params} {c : Setter} (v : p.Valid) (h : p.set c = .ok q) : q.Valid := by
  cases c with
  | hashLength n =>
    simp only [Params.set, setHashLength_eq] at h
    split at h
    · rename_i hn
      cases h
      exact ⟨by simp only [toNat_ofNat8 n hn.2]; exact hn, v.kl⟩
    · cases h
  | key k =>
    simp only [Params.set, setKey_eq] at h
    split at h
    · rename_i hn
      cases h
      exact ⟨v.hl, by simp only [toNat_ofNat8 _ hn]; exact hn⟩
    · cases h

theorem setAll_valid {calls : List Setter} {p q : Params} (v : p.Valid)
    (h : p.setAll calls = .ok q) : q.Valid := by
  induction calls generalizing p with
  | nil => cases h; exact v
  | cons c cs ih =>
    unfold Params.setAll at h
    cases e : p.set c with
    | error f => rw [e] at h; cases h
    | ok p' => rw [e] at h; exact ih (set_valid v e) h

theorem default_valid : Params.default.Valid := ⟨by decide, by decide⟩

theorem Params.Accepted.valid {p : Params} (h : p.Accepted) : p.Valid := by
  obtain ⟨calls, h⟩ := h
  exact setAll_valid default_valid h

theorem Params.Valid.keyBytes_length {p : Params} (v : p.Valid) :
    p.keyBytes.length = p.keyLength.toNat := by
  have := v.kl
  simp [Params.keyBytes]; omega

/-- The parameters of one node. -/
def nodeP (p : Params) (off : U64) (depth : U8) (last : Bool) : Blake2s.Params :=
  { Blake2s.Params.default with
    hashLength := p.hashLength
    keyLength := p.keyLength
    key := padded 32 p.keyBytes
    fanout := 8
    maxDepth := 2
    maxLeafLength := 0
    innerHashLength := 32
    nodeOffset := off
    nodeDepth := depth
    lastNode := last }

theorem Params.Valid.keyLength_eq {p : Params} (v : p.Valid) :
    BitVec.ofNat 8 p.keyBytes.length = p.keyLength := by
  rw [v.keyBytes_length]; simp

theorem baseParams_ok (p : Params) (v : p.Valid) :
    State.baseParams p = .ok (nodeP p 0 0 false) := by
  have hk := v.kl
  unfold State.baseParams
  rw [Blake2s.setHashLength_eq, if_pos v.hl, sliceTo_ok _ _ (by simpa using hk)]
  simp only [bind, Except.bind]
  have hkb : p.key.toList.take p.keyLength.toNat = p.keyBytes := rfl
  rw [hkb, Blake2s.setKey_eq, if_pos (by rw [v.keyBytes_length]; exact hk)]
  simp only []
  rw [setMaxDepth_eq, if_pos (by decide)]
  simp only [setInnerHashLength_eq]
  rw [if_pos (by decide), v.keyLength_eq, BitVec.ofNat_toNat, BitVec.setWidth_eq]
  rfl

theorem nodeP_valid {p : Params} (v : p.Valid) (off : U64) (depth : U8) (last : Bool)
    (h : off.toNat < 2 ^ 48) : (nodeP p off depth last).Valid := by
  refine ⟨v.hl, v.kl, ?_, (by decide : (2 : U8) ≠ 0), h, (by decide : (32 : U8).toNat ≤ 32)⟩
  intro i hi hle
  exact padded_beyond _ i hi (by rw [v.keyBytes_length]; exact hle)

theorem nodeP_keyBytes {p : Params} (v : p.Valid) (off : U64) (depth : U8) (last : Bool) :
    (nodeP p off depth last).keyBytes = p.keyBytes := by
  have hk := v.kl
  have hl := v.keyBytes_length
  show (padded 32 p.keyBytes).toList.take p.keyLength.toNat = p.keyBytes
  apply List.ext_getElem
  · simp [hl]; omega
  · intro i h1 h2
    have : i < p.keyBytes.length := h2
    simp [padded, this]

theorem nodeP_values (p : Params) (off : U64) (depth : U8) (last : Bool) :
    (nodeP p off depth last).values =
      Spec.Sp.nodeParams p.hashLength p.keyLength (off.setWidth 48) depth := rfl

/-- The configuration of leaf `i`. -/
def leafCfg (E : Env) (p : Params) (i : Fin 8) : Cfg where
  h0 := (Spec.Sp.nodeParams p.hashLength p.keyLength (BitVec.ofNat 48 i.val) 0).init
  fn := (defaultCompressImpl E).compress
  lastNode := i.val == 7
  hashLength := 32

/-- The configuration of the root. -/
def rootCfg (E : Env) (p : Params) : Cfg where
  h0 := (Spec.Sp.nodeParams p.hashLength p.keyLength 0 1).init
  fn := (defaultCompressImpl E).compress
  lastNode := true
  hashLength := p.hashLength

theorem _root_.Blake2s.Rep.start {E : Env} {c : Cfg} {data : List U8} {s : Blake2s.State} (r : Rep E c data s)
    (h : data.length ≤ 64) : Weak E c data 0 s := by
  obtain ⟨k, w, hk⟩ := r
  have hl := w.len
  have : k = 0 := by
    apply Classical.byContradiction
    intro h0
    have := hk (by omega)
    omega
  subst this
  exact w

theorem leafState_ok (E : Env) (hE : E.WF) (p : Params) (v : p.Valid) (i : Fin 8) :
    ∃ s, State.leafState E (nodeP p 0 0 false) (BitVec.ofNat 64 i.val) = .ok s ∧
      Weak E (leafCfg E p i) (Spec.keyBlock p.keyBytes) 0 s := by
  have hi : (BitVec.ofNat 64 i.val).toNat < 2 ^ 48 := by simp; omega
  unfold State.leafState
  rw [setNodeOffset_eq, if_pos hi]
  simp only [bind, Except.bind]
  obtain ⟨s, e, r⟩ := withParams_ok E hE
    (nodeP p (BitVec.ofNat 64 i.val) 0 (decide (BitVec.ofNat 64 i.val = 7)))
    (nodeP_valid v _ _ _ hi)
  have e' : Blake2s.Params.toState E (Blake2s.Params.setLastNode (Blake2s.Params.setNodeDepth
      { nodeP p 0 0 false with nodeOffset := BitVec.ofNat 64 i.val } 0)
      (decide (BitVec.ofNat 64 i.val = 7))) = .ok s := e
  rw [e']
  refine ⟨_, rfl, ?_⟩
  rw [nodeP_keyBytes v] at r
  have w := r.start (by
    rw [keyBlock_length _ (by rw [v.keyBytes_length]; have := v.kl; omega)]
    split <;> decide)
  refine ⟨w.len, w.le, ?_, w.buf, w.count, w.fits, w.fn, w.sup, ?_, rfl⟩
  · rw [w.h]
    show Spec.chain (nodeP p _ _ _).values.init _ _ _ = _
    have hoff : (BitVec.ofNat 64 i.val).setWidth 48 = BitVec.ofNat 48 i.val := by
      apply BitVec.eq_of_toNat_eq
      simp
    rw [nodeP_values, hoff]
    rfl
  · rw [w.ln]
    have : ∀ i : Fin 8, decide (BitVec.ofNat 64 i.val = 7) = (i.val == 7) := by decide
    exact this i

theorem withParams_ok (E : Env) (hE : E.WF) (p : Params) (v : p.Valid) :
    ∃ s, State.withParams E p = .ok s ∧
      SpRep E (leafCfg E p) (rootCfg E p) (defaultCompressImpl E).compress8
        (Spec.keyBlock p.keyBytes) [] 0 s := by
  unfold State.withParams
  rw [baseParams_ok p v]
  simp only [bind, Except.bind]
  rw [setNodeOffset_eq, if_pos (by decide)]
  simp only []
  obtain ⟨root, e, r⟩ := Blake2s.withParams_ok E hE (nodeP p 0 1 true)
    (nodeP_valid v _ _ _ (by decide))
  have e' : Blake2s.Params.toState E (Blake2s.Params.setLastNode (Blake2s.Params.setNodeDepth
      { nodeP p 0 0 false with nodeOffset := 0 } 1) true) = .ok root := e
  rw [e']
  simp only []
  have hk64 : (Spec.keyBlock p.keyBytes).length ≤ 64 := by
    rw [keyBlock_length _ (by rw [v.keyBytes_length]; have := v.kl; omega)]
    split <;> decide
  rw [nodeP_keyBytes v] at r
  have w := r.start hk64
  obtain ⟨l0, e0, w0⟩ := leafState_ok E hE p v 0
  obtain ⟨l1, e1, w1⟩ := leafState_ok E hE p v 1
  obtain ⟨l2, e2, w2⟩ := leafState_ok E hE p v 2
  obtain ⟨l3, e3, w3⟩ := leafState_ok E hE p v 3
  obtain ⟨l4, e4, w4⟩ := leafState_ok E hE p v 4
  obtain ⟨l5, e5, w5⟩ := leafState_ok E hE p v 5
  obtain ⟨l6, e6, w6⟩ := leafState_ok E hE p v 6
  obtain ⟨l7, e7, w7⟩ := leafState_ok E hE p v 7
  have e0 : State.leafState E (nodeP p 0 0 false) 0 = .ok l0 := e0
  have e1 : State.leafState E (nodeP p 0 0 false) 1 = .ok l1 := e1
  have e2 : State.leafState E (nodeP p 0 0 false) 2 = .ok l2 := e2
  have e3 : State.leafState E (nodeP p 0 0 false) 3 = .ok l3 := e3
  have e4 : State.leafState E (nodeP p 0 0 false) 4 = .ok l4 := e4
  have e5 : State.leafState E (nodeP p 0 0 false) 5 = .ok l5 := e5
  have e6 : State.leafState E (nodeP p 0 0 false) 6 = .ok l6 := e6
  have e7 : State.leafState E (nodeP p 0 0 false) 7 = .ok l7 := e7
  rw [e0, e1, e2, e3, e4, e5, e6, e7]
  refine ⟨_, rfl, ⟨?_, Nat.zero_le _⟩, ⟨rfl, Nat.zero_le _, by simp, by simp⟩, by omega,
    ⟨0, ?_, by omega⟩, rfl, default_supported8 E⟩
  · apply fin8_cases
    intro i hi
    match i, hi with
    | 0, _ => exact w0.off
    | 1, _ => exact w1.off
    | 2, _ => exact w2.off
    | 3, _ => exact w3.off
    | 4, _ => exact w4.off
    | 5, _ => exact w5.off
    | 6, _ => exact w6.off
    | 7, _ => exact w7.off
  · refine ⟨rfl, Nat.zero_le _, ?_, rfl, rfl, fun _ => by decide, w.fn, w.sup, w.ln, w.hl⟩
    have h := w.h
    simp only [Spec.chain] at h
    exact h

end Blake2s.Sp
