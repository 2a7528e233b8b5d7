import Verif.Proofs.ParamsInit
/-!
# `State::with_params`, `State::finalize`, `State::set_last_node`, and the one-shot functions
-/

namespace Blake2s

theorem blockWords_congr (a b : List Spec.Byte) (h : ∀ i < 64, a.getD i 0 = b.getD i 0) :
    Spec.blockWords a = Spec.blockWords b := by
  funext i
  unfold Spec.blockWords
  rw [h _ (by omega), h _ (by omega), h _ (by omega), h _ (by omega)]

theorem zeroTail_getD (buf : Block) (n : U8) (i : Nat) (hi : i < 64) :
    (State.zeroTail buf n).toList.getD i 0 = (buf.toList.take n.toNat).getD i 0 := by
  unfold State.zeroTail
  rw [List.getD_eq_getElem?_getD, List.getD_eq_getElem?_getD, List.getElem?_take]
  by_cases h : n.toNat ≤ i
  · simp [hi, h, show ¬ i < n.toNat by omega]
  · simp [hi, h, show i < n.toNat by omega]

theorem zeroTail_take (buf : Block) (n : U8) (hn : n.toNat ≤ 64) :
    (State.zeroTail buf n).toList.take n.toNat = buf.toList.take n.toNat := by
  apply List.ext_getElem
  · simp
  · intro i h1 h2
    have hi : i < n.toNat := by simp at h1; omega
    simp [State.zeroTail, show ¬ n.toNat ≤ i by omega]

theorem stateWordsToBytes_spec (w : StateWords) :
    (stateWordsToBytes w).toList = Spec.digestBytes (toFn w) 32 := by
  have e : List.finRange 8 = [0, 1, 2, 3, 4, 5, 6, 7] := by decide
  have hw : ∀ x, (writeU32LE x).toList = Spec.bytesLE x := fun _ => rfl
  unfold stateWordsToBytes Spec.digestBytes
  simp only [Vector.toList_append, hw, e, List.flatMap_cons, List.flatMap_nil, List.append_nil]
  rw [List.take_of_length_le (by simp [Spec.bytesLE])]
  simp only [List.append_assoc]
  rfl

theorem digestBytes_take (h : Fin 8 → Spec.Word) (n : Nat) (hn : n ≤ 32) :
    (Spec.digestBytes h 32).take n = Spec.digestBytes h n := by
  unfold Spec.digestBytes
  rw [List.take_take, Nat.min_eq_left hn]

theorem digestBytes_length (h : Fin 8 → Spec.Word) (n : Nat) (hn : n ≤ 32) :
    (Spec.digestBytes h n).length = n := by
  have : (Spec.digestBytes h 32).length = 32 := by
    have e : List.finRange 8 = [0, 1, 2, 3, 4, 5, 6, 7] := by decide
    simp [Spec.digestBytes, e, Spec.bytesLE]
  rw [← digestBytes_take h n hn, List.length_take, this, Nat.min_eq_left hn]

theorem finalize_okO {E : Env} {c : Cfg} {off : Nat} {data : List U8} {s : State}
    (r : RepO E c off data s) :
    ∃ s' hash, s.finalize E = .ok (s', hash) ∧ RepO E c off data s' ∧
      hash.bytes.toList = Spec.digestBytes (Spec.absorb c.h0 off data c.lastNode) 32 ∧
      hash.len = c.hashLength ∧ s' = { s with buf := State.zeroTail s.buf s.buflen } := by
  obtain ⟨k, w, hk⟩ := r
  unfold State.finalize
  simp only []
  rw [w.fn, CompressFn.call_ok w.sup]
  refine ⟨_, _, rfl, ⟨k, ?_, hk⟩, ?_, w.hl, by rw [← w.fn]⟩
  · constructor
    · exact w.len
    · exact w.le
    · exact w.h
    · show (State.zeroTail s.buf s.buflen).toList.take s.buflen.toNat = _
      rw [zeroTail_take _ _ w.le]; exact w.buf
    · exact w.count
    · exact w.fits
    · rfl
    · exact w.sup
    · exact w.ln
    · exact w.hl
  · show (stateWordsToBytes _).toList = _
    rw [stateWordsToBytes_spec]
    congr 1
    rw [Spec.absorb_eq c.h0 off data c.lastNode k s.buflen.toNat w.len w.le hk]
    have hc := compress_spec s.h (State.zeroTail s.buf s.buflen) (off + data.length) true s.lastNode
    have ht : State.flagWord true = ~~~ 0 := rfl
    rw [ht] at hc
    rw [w.count, hc, w.h, w.ln,
      blockWords_congr (State.zeroTail s.buf s.buflen).toList (data.drop (64 * k))]
    intro i hi
    rw [zeroTail_getD _ _ _ hi, w.buf]

theorem finalize_ok {E : Env} {c : Cfg} {data : List U8} {s : State} (r : Rep E c data s) :
    ∃ s' hash, s.finalize E = .ok (s', hash) ∧ Rep E c data s' ∧
      hash.bytes.toList = Spec.digestBytes (Spec.absorb c.h0 0 data c.lastNode) 32 ∧
      hash.len = c.hashLength ∧ s' = { s with buf := State.zeroTail s.buf s.buflen } := by
  obtain ⟨s', h, e, r', q⟩ := finalize_okO r.off
  exact ⟨s', h, e, r'.rep, q⟩

theorem setLastNode_rep {E : Env} {c : Cfg} {data : List U8} {s : State} (r : Rep E c data s)
    (b : Bool) : Rep E { c with lastNode := b } data (s.setLastNode b) := by
  obtain ⟨k, w, hk⟩ := r
  exact ⟨k, ⟨w.len, w.le, w.h, w.buf, w.count, w.fits, w.fn, w.sup, rfl, w.hl⟩, hk⟩

theorem forcePortable_rep {E : Env} {c : Cfg} {data : List U8} {s : State} (r : Rep E c data s) :
    Rep E { c with fn := .portable } data s.forcePortable := by
  obtain ⟨k, w, hk⟩ := r
  exact ⟨k, ⟨w.len, w.le, w.h, w.buf, w.count, w.fits, rfl, nofun, w.ln, w.hl⟩, hk⟩

theorem default_supported (E : Env) (hE : E.WF) : (defaultCompressImpl E).compress.Supported E := by
  unfold defaultCompressImpl CompressFn.Supported
  split
  · rename_i h
    simp only [Bool.and_eq_true] at h
    exact fun _ => ⟨h.1.1, hE h.2⟩
  · nofun

/-- What holds of every `Params` that the setters can produce. -/
structure Params.Valid (p : Params) : Prop where
  hl : 1 ≤ p.hashLength.toNat ∧ p.hashLength.toNat ≤ 32
  kl : p.keyLength.toNat ≤ 32
  key : ∀ i (h : i < 32), p.keyLength.toNat ≤ i → p.key[i] = 0
  md : p.maxDepth ≠ 0
  off : p.nodeOffset.toNat < 2 ^ 48
  inner : p.innerHashLength.toNat ≤ 32

/-- The configuration of a state made from these parameters. -/
def Params.cfg (p : Params) (E : Env) : Cfg where
  h0 := p.values.init
  fn := (defaultCompressImpl E).compress
  lastNode := p.lastNode
  hashLength := p.hashLength

theorem Params.Valid.keyBytes_length {p : Params} (v : p.Valid) :
    p.keyBytes.length = p.keyLength.toNat := by
  have := v.kl
  simp [Params.keyBytes]; omega

theorem Params.Valid.key_list {p : Params} (v : p.Valid) :
    p.key.toList = p.keyBytes ++ List.replicate (32 - p.keyLength.toNat) 0 := by
  have hk := v.kl
  apply List.ext_getElem
  · simp [Params.keyBytes]; omega
  · intro i h1 h2
    have hi : i < 32 := by simpa using h1
    rw [List.getElem_append]
    split
    · simp [Params.keyBytes]
    · rename_i h
      have : p.keyLength.toNat ≤ i := by
        rw [v.keyBytes_length] at h; omega
      simp [v.key i hi this]

theorem Params.Valid.keyBlock {p : Params} (v : p.Valid) (hk : 0 < p.keyLength.toNat) :
    p.key.toList ++ List.replicate 32 0 = Spec.keyBlock p.keyBytes := by
  have hne : p.keyBytes ≠ [] := by
    intro h
    have := v.keyBytes_length
    rw [h] at this; simp at this; omega
  have h32 := v.kl
  unfold Spec.keyBlock
  rw [if_neg hne, v.key_list, List.append_assoc, List.replicate_append_replicate,
    v.keyBytes_length]
  congr 2
  omega

theorem initial_rep (E : Env) (hE : E.WF) (p : Params) (v : p.Valid) :
    Rep E (p.cfg E) []
      { h := p.makeWords
        compressFn := (defaultCompressImpl E).compress
        buf := Vector.replicate 64 0
        buflen := 0
        count := 0
        lastNode := p.lastNode
        hashLength := p.hashLength } := by
  refine ⟨0, ?_, by omega⟩
  constructor
  · rfl
  · exact (by decide : (0 : U8).toNat ≤ 64)
  · rw [makeWords_spec p v.off]; rfl
  · rfl
  · rfl
  · simp
  · rfl
  · exact default_supported E hE
  · rfl
  · rfl

theorem keyBlock_length (k : List Spec.Byte) (h : k.length ≤ 64) :
    (Spec.keyBlock k).length = if k = [] then 0 else 64 := by
  unfold Spec.keyBlock
  split <;> simp
  omega

theorem withParams_ok (E : Env) (hE : E.WF) (p : Params) (v : p.Valid) :
    ∃ s, State.withParams E p = .ok s ∧ Rep E (p.cfg E) (Spec.keyBlock p.keyBytes) s := by
  have h0 := initial_rep E hE p v
  unfold State.withParams
  by_cases hk : p.keyLength.toNat > 0
  · simp only [hk, if_true]
    obtain ⟨b, e, hb⟩ := copyFromSlice_ok (Vector.replicate 64 0) 0 KEYBYTES p.key.toList (by decide)
      (by decide) (by simp)
    rw [e]
    have hb' : b.toList = Spec.keyBlock p.keyBytes := by
      rw [hb, ← v.keyBlock hk]
      simp
    have hlen : b.toList.length = 64 := by simp
    have := (update_ends h0 b.toList).elim (by
      rintro ⟨_, h⟩
      rw [List.nil_append, hlen] at h
      exact absurd h (by decide))
    rw [hb', List.nil_append] at this
    rw [← hb'] at this
    obtain ⟨s, hs, hr⟩ := this
    refine ⟨s, hs, ?_⟩
    rw [← hb']; exact hr
  · simp only [hk, if_false]
    have : p.keyBytes = [] := by
      rw [Params.keyBytes, show p.keyLength.toNat = 0 by omega, List.take_zero]
    refine ⟨_, rfl, ?_⟩
    rw [this]
    exact h0

/-- The result of hashing `data` (key block included) under a configuration. -/
def Cfg.hashes (c : Cfg) (data : List U8) (hash : Hash) : Prop :=
  hash.bytes.toList = Spec.digestBytes (Spec.absorb c.h0 0 data c.lastNode) 32 ∧
    hash.len = c.hashLength

theorem Cfg.hashes_unique {c : Cfg} {data : List U8} {a b : Hash} (ha : c.hashes data a)
    (hb : c.hashes data b) : a = b := by
  obtain ⟨a1, a2⟩ := a
  obtain ⟨b1, b2⟩ := b
  obtain ⟨h1, h2⟩ := ha
  obtain ⟨h3, h4⟩ := hb
  simp only at h1 h2 h3 h4
  have : a1.toList = b1.toList := h1.trans h3.symm
  rw [Vector.toList_inj.mp this, h2, h4]

theorem asBytes_ok (h : Hash) (hl : h.len.toNat ≤ 32) :
    h.asBytes = .ok (h.bytes.toList.take h.len.toNat) := by
  unfold Hash.asBytes
  rw [sliceTo_ok _ _ (by simpa using hl)]

theorem Cfg.hashes_asBytes {c : Cfg} {data : List U8} {h : Hash} (hh : c.hashes data h)
    (hl : c.hashLength.toNat ≤ 32) :
    h.asBytes = .ok (Spec.digestBytes (Spec.absorb c.h0 0 data c.lastNode) c.hashLength.toNat) := by
  obtain ⟨h1, h2⟩ := hh
  rw [asBytes_ok h (by rw [h2]; exact hl), h1, h2, digestBytes_take _ _ hl]

theorem hashOne_ends (E : Env) (hE : E.WF) (p : Params) (v : p.Valid) (input : List U8) :
    Ends (hashOne E p input) (TooLong E (Spec.keyBlock p.keyBytes ++ input))
      (fun h => (p.cfg E).hashes (Spec.keyBlock p.keyBytes ++ input) h ∧
        ¬ TooLong E (Spec.keyBlock p.keyBytes ++ input)) := by
  unfold hashOne Params.toState
  obtain ⟨s, e, r⟩ := withParams_ok E hE p v
  rw [e]
  refine (update_ends r input).bind ?_
  intro s1 r1
  obtain ⟨s2, h, e2, r2, hb, hl, _⟩ := finalize_ok r1
  rw [e2]
  refine Ends.pure ⟨⟨hb, hl⟩, ?_⟩
  rintro ⟨h1, h2⟩
  obtain ⟨k, w, _⟩ := r1
  have := w.fits h1
  omega

theorem default_valid : Params.default.Valid := by
  constructor
  · decide
  · decide
  · intro i h _; simp [Params.default]
  · decide
  · decide
  · decide

end Blake2s
