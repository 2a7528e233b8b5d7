import Verif.Proofs.Prefix
import Verif.Props.Collision
/-!
# Digests that are compared only in part (C62)

As in C37 and C38, `Spec.CollideTo n` (`Verif/SpecTrace.lean`) says that two different inputs of the compression function have
the same output, or that the last two differ and have outputs that agree in the first `n` bytes.
-/

namespace Blake2s

/-- C62: if two digests, of the same length or not, agree in the first `n` bytes although parameters (the digest length among
them), key, last-node flag or message differ, then the compression function has a collision, or one in `n` bytes. -/
theorem C62_blake2s (E E' : Env) (hE : E.WF) (hE' : E'.WF) (p q : Params) (hp : p.Accepted)
    (hq : q.Accepted) (ops ops' : List Op) (s s' t t' : State) (d d' : Hash)
    (hs : Reaches E p ops s) (hd : s.finalize E = .ok (s', d))
    (ht : Reaches E' q ops' t) (hd' : t.finalize E' = .ok (t', d'))
    (hlen : (Spec.keyBlock p.keyBytes ++ fed ops).length < 2 ^ 64)
    (hlen' : (Spec.keyBlock q.keyBytes ++ fed ops').length < 2 ^ 64)
    (differ : (p.values, p.keyBytes, lastFlag p.lastNode ops, fed ops) ≠
      (q.values, q.keyBytes, lastFlag q.lastNode ops', fed ops'))
    (n : Nat) (hn : n ≤ p.hashLength.toNat) (hn' : n ≤ q.hashLength.toNat)
    (equal : d.asBytes.map (·.take n) = d'.asBytes.map (·.take n)) :
    Spec.CollideTo n
      (Spec.hashTrace p.values p.keyBytes (lastFlag p.lastNode ops) (fed ops))
      (Spec.hashTrace q.values q.keyBytes (lastFlag q.lastNode ops') (fed ops')) := by
  rw [finalize_bytes hE hp hs hd, finalize_bytes hE' hq ht hd'] at equal
  rcases Spec.hash_prefix (p := p.values) (p' := q.values) hp.valid.keyBytes_length
    hq.valid.keyBytes_length hn hn' hlen hlen' (Except.ok.inj equal) with ⟨e1, e2, e3, e4⟩ | c
  · exact absurd (by rw [e1, e2, e3, e4]) differ
  · exact c

/-- The one-byte digest of `[6]` is the first byte of the 32-byte digest of `[3]`. -/
example (E E' : Env) (hE : E.WF) (hE' : E'.WF) :
    Spec.CollideTo 1 (Spec.hashTrace byteParams.values [] false [6]) (Spec.hashTrace Params.new.values [] false [3]) := by
  have acc : Params.new.Accepted := ⟨[], rfl⟩
  obtain ⟨s, s', d, hs, hd⟩ := finalizes E hE _ byteParams_accepted [.update [6]] (by decide)
  obtain ⟨t, t', d', ht, hd'⟩ := finalizes E' hE' _ acc [.update [3]] (by decide)
  refine C62_blake2s E E' hE hE' _ _ byteParams_accepted acc _ _ s s' t t' d d' hs hd ht hd' (by decide) (by decide) ?_
    1 (by decide) (by decide) ?_
  · intro h
    injection h with _ h
    injection h with _ h
    injection h with _ h
    exact absurd h (by decide)
  · rw [byte_digest hE hs hd, finalize_bytes hE' acc ht hd',
      Fast.hash_eq 0 _ _ _ _ (by simp [Params.keyBytes, Spec.keyBlock, fed, Params.new, Params.default])]
    decide +kernel

/-- C62: in particular a short digest is not the beginning of a longer one, of the same message or of another. -/
theorem C62_not_truncation (E E' : Env) (hE : E.WF) (hE' : E'.WF) (p q : Params) (hp : p.Accepted)
    (hq : q.Accepted) (ops ops' : List Op) (s s' t t' : State) (d d' : Hash)
    (hs : Reaches E p ops s) (hd : s.finalize E = .ok (s', d))
    (ht : Reaches E' q ops' t) (hd' : t.finalize E' = .ok (t', d'))
    (hlen : (Spec.keyBlock p.keyBytes ++ fed ops).length < 2 ^ 64)
    (hlen' : (Spec.keyBlock q.keyBytes ++ fed ops').length < 2 ^ 64)
    (shorter : p.hashLength.toNat < q.hashLength.toNat)
    (b b' : List U8) (hb : d.asBytes = .ok b) (hb' : d'.asBytes = .ok b') (beginning : b <+: b') :
    Spec.CollideTo p.hashLength.toNat
      (Spec.hashTrace p.values p.keyBytes (lastFlag p.lastNode ops) (fed ops))
      (Spec.hashTrace q.values q.keyBytes (lastFlag q.lastNode ops') (fed ops')) := by
  refine C62_blake2s E E' hE hE' p q hp hq ops ops' s s' t t' d d' hs hd ht hd' hlen hlen' ?_ _ (Nat.le_refl _)
    (Nat.le_of_lt shorter) ?_
  · intro h
    have h1 : p.hashLength = q.hashLength := congrArg (fun v : Spec.Params => v.digestLength) (Prod.mk.inj h).1
    rw [h1] at shorter
    exact Nat.lt_irrefl _ shorter
  · have e := finalize_bytes hE hp hs hd
    rw [hb] at e
    have hl : b.length = p.hashLength.toNat := by
      rw [Except.ok.inj e]
      exact Spec.digestBytes_length _ _ hp.valid.hl.2
    obtain ⟨r, rfl⟩ := beginning
    rw [hb, hb']
    show Except.ok (b.take _) = Except.ok ((b ++ r).take _)
    rw [← hl, List.take_left, List.take_length]

/-- The 16-byte and the 32-byte digest of "abc", the first not the beginning of the second. -/
example : Spec.hash (Spec.sequential 16 0) [] false [0x61, 0x62, 0x63] =
      [0xaa, 0x49, 0x38, 0x11, 0x9b, 0x1d, 0xc7, 0xb8, 0x7c, 0xba, 0xd0, 0xff, 0xd2, 0x00, 0xd0, 0xae] ∧
    (Spec.hash (Spec.sequential 32 0) [] false [0x61, 0x62, 0x63]).take 16 =
      [0x50, 0x8c, 0x5e, 0x8c, 0x32, 0x7c, 0x14, 0xe2, 0xe1, 0xa7, 0x2b, 0xa3, 0x4e, 0xeb, 0x45, 0x2f] := by
  rw [Fast.hash_eq 0 _ _ _ _ (by decide), Fast.hash_eq 0 _ _ _ _ (by decide)]
  decide +kernel

/-- A one-byte digest that is the beginning of a 32-byte digest of another message. -/
example (E : Env) (hE : E.WF) : ∃ s s' t t' d d' b b', Reaches E byteParams [.update [6]] s ∧
    s.finalize E = .ok (s', d) ∧ Reaches E Params.new [.update [3]] t ∧ t.finalize E = .ok (t', d') ∧
    d.asBytes = .ok b ∧ d'.asBytes = .ok b' ∧ b <+: b' := by
  have acc : Params.new.Accepted := ⟨[], rfl⟩
  obtain ⟨s, s', d, hs, hd⟩ := finalizes E hE _ byteParams_accepted [.update [6]] (by decide)
  obtain ⟨t, t', d', ht, hd'⟩ := finalizes E hE _ acc [.update [3]] (by decide)
  refine ⟨s, s', t, t', d, d', _, _, hs, hd, ht, hd', byte_digest hE hs hd, finalize_bytes hE acc ht hd', ?_⟩
  rw [Fast.hash_eq 0 _ _ _ _ (by simp [Params.keyBytes, Spec.keyBlock, fed, Params.new, Params.default])]
  decide +kernel

namespace Sp

/-- C62 for unkeyed BLAKE2sp. -/
theorem C62_blake2sp (E E' : Env) (hE : E.WF) (hE' : E'.WF) (p q : Params) (hp : p.Accepted)
    (hq : q.Accepted) (ops ops' : List Op) (s s' t t' : State) (d d' : Hash)
    (hs : Reaches E p ops s) (hd : s.finalize E = .ok (s', d))
    (ht : Reaches E' q ops' t) (hd' : t.finalize E' = .ok (t', d'))
    (hk : p.keyLength = 0) (hk' : q.keyLength = 0)
    (hlen : (fed ops).length < 2 ^ 64) (hlen' : (fed ops').length < 2 ^ 64)
    (differ : (p.hashLength, fed ops) ≠ (q.hashLength, fed ops'))
    (n : Nat) (hn : n ≤ p.hashLength.toNat) (hn' : n ≤ q.hashLength.toNat)
    (equal : d.asBytes.map (·.take n) = d'.asBytes.map (·.take n)) :
    Spec.CollideTo n (Spec.Sp.hashTrace p.hashLength [] (fed ops)) (Spec.Sp.hashTrace q.hashLength [] (fed ops')) := by
  rw [unkeyed_bytes hE hp hs hd hk hlen, unkeyed_bytes hE' hq ht hd' hk' hlen'] at equal
  rcases Spec.Sp.hash_prefix hn hn' hp.valid.hl.2 hlen hlen' (Except.ok.inj equal) with ⟨e1, e2⟩ | c
  · exact absurd (by rw [e1, e2]) differ
  · exact c

/-- First bytes of some digests of messages of one byte. -/
theorem first_bytes : (Spec.Sp.hash 1 [] [3]).take 1 = [0xd4] ∧ (Spec.Sp.hash 32 [] [6]).take 1 = [0xd4] ∧
    (Spec.Sp.hash 1 [1] [4]).take 1 = [0x5a] ∧ (Spec.Sp.hash 32 [1] [28]).take 1 = [0x5a] ∧
    (Spec.Sp.hash 1 [1] [3]).take 1 = [0xc7] ∧ (Spec.Sp.hash 32 [] [22]).take 1 = [0xc7] := by
  refine ⟨?_, ?_, ?_, ?_, ?_, ?_⟩ <;>
    (rw [Fast.spHash_eq 1 _ _ _ (by decide +kernel)]; decide +kernel)

example (E E' : Env) (hE : E.WF) (hE' : E'.WF) :
    Spec.CollideTo 1 (Spec.Sp.hashTrace 1 [] [3]) (Spec.Sp.hashTrace 32 [] [6]) := by
  have acc : Params.new.Accepted := ⟨[], rfl⟩
  obtain ⟨s, s', d, hs, hd, h⟩ := finalizes E hE _ byteParams_accepted [.update [3]] ⟨by decide, trivial⟩ (by decide)
  obtain ⟨t, t', d', ht, hd', h'⟩ := finalizes E' hE' _ acc [.update [6]] ⟨by decide, trivial⟩ (by decide)
  exact C62_blake2sp E E' hE hE' _ _ byteParams_accepted acc _ _ s s' t t' d d' hs hd ht hd' rfl rfl
    (by decide) (by decide) (by decide) 1 (by decide) (by decide) (by
      rw [h, h']
      exact congrArg Except.ok (first_bytes.1.trans first_bytes.2.1.symm))

/-- C62 for keyed BLAKE2sp, whatever it returns (C30). -/
theorem C62_blake2sp_keyed (E E' : Env) (hE : E.WF) (hE' : E'.WF) (p q : Params) (hp : p.Accepted)
    (hq : q.Accepted) (ops ops' : List Op) (s s' t t' : State) (d d' : Hash)
    (hs : Reaches E p ops s) (hd : s.finalize E = .ok (s', d))
    (ht : Reaches E' q ops' t) (hd' : t.finalize E' = .ok (t', d'))
    (hk : p.keyLength ≠ 0) (hk' : q.keyLength ≠ 0)
    (hlen : 64 + (fed ops).length < 2 ^ 64) (hlen' : 64 + (fed ops').length < 2 ^ 64)
    (differ : (p.hashLength, p.keyBytes, rowsAfter 0 0 ops, fed ops) ≠
      (q.hashLength, q.keyBytes, rowsAfter 0 0 ops', fed ops'))
    (n : Nat) (hn : n ≤ p.hashLength.toNat) (hn' : n ≤ q.hashLength.toNat)
    (equal : d.asBytes.map (·.take n) = d'.asBytes.map (·.take n)) :
    Spec.CollideTo n (keyedTrace p.hashLength p.keyBytes (rowsAfter 0 0 ops) (fed ops))
      (keyedTrace q.hashLength q.keyBytes (rowsAfter 0 0 ops') (fed ops')) := by
  obtain ⟨b, l⟩ := keyed_bytes hE hp hk hs hd
  obtain ⟨b', l'⟩ := keyed_bytes hE' hq hk' ht hd'
  rw [b, b'] at equal
  rcases keyed_prefix hn hn' (key_ne hp hk) (key_ne hq hk')
    (by rw [hp.valid.keyBytes_length]; exact hp.valid.kl)
    (by rw [hq.valid.keyBytes_length]; exact hq.valid.kl) l l' hlen hlen' (Except.ok.inj equal) with
    ⟨e0, e1, e2, e3⟩ | c
  · exact absurd (by rw [e0, e1, e2, e3]) differ
  · exact c

example (E E' : Env) (hE : E.WF) (hE' : E'.WF) :
    Spec.CollideTo 1 (keyedTrace 1 [1] 0 [4]) (keyedTrace 32 [1] 0 [28]) := by
  obtain ⟨s, s', d, hs, hd, h⟩ := finalizes E hE _ byteKeyed_accepted [.update [4]] ⟨by decide, trivial⟩ (by decide)
  obtain ⟨t, t', d', ht, hd', h'⟩ := finalizes E' hE' _ keyed1_accepted [.update [28]] ⟨by decide, trivial⟩ (by decide)
  have kb : byteKeyed.keyBytes = [1] := by decide
  have kb' : keyed1.keyBytes = [1] := by decide
  have e : ∀ b : U8, fed [.update [b]] = [b] := fun _ => rfl
  have r : ∀ b : U8, rowsAfter 0 0 [.update [b]] = 0 := fun b =>
    (rowsAfter_zero _ 0).mpr ⟨by rw [show [b].length = 1 from rfl]; decide, trivial⟩
  have := C62_blake2sp_keyed E E' hE hE' _ _ byteKeyed_accepted keyed1_accepted _ _ s s' t t' d d' hs hd ht hd'
    (by decide) (by decide) (by decide) (by decide) (by decide) 1 (by decide) (by decide) (by
      rw [h, h', kb, kb']
      exact congrArg Except.ok (first_bytes.2.2.1.trans first_bytes.2.2.2.1.symm))
  rwa [kb, kb', e, e, r, r] at this

/-- C62 for BLAKE2sp with and without a key. -/
theorem C62_blake2sp_key_or_not (E E' : Env) (hE : E.WF) (hE' : E'.WF) (p q : Params) (hp : p.Accepted)
    (hq : q.Accepted) (ops ops' : List Op) (s s' t t' : State) (d d' : Hash)
    (hs : Reaches E p ops s) (hd : s.finalize E = .ok (s', d))
    (ht : Reaches E' q ops' t) (hd' : t.finalize E' = .ok (t', d'))
    (hk : p.keyLength ≠ 0) (hk' : q.keyLength = 0) (hlen' : (fed ops').length < 2 ^ 64)
    (n : Nat) (hn : n ≤ p.hashLength.toNat) (hn' : n ≤ q.hashLength.toNat)
    (equal : d.asBytes.map (·.take n) = d'.asBytes.map (·.take n)) :
    Spec.CollideTo n (keyedTrace p.hashLength p.keyBytes (rowsAfter 0 0 ops) (fed ops))
      (Spec.Sp.hashTrace q.hashLength [] (fed ops')) := by
  obtain ⟨b, _⟩ := keyed_bytes hE hp hk hs hd
  rw [b, unkeyed_bytes hE' hq ht hd' hk' hlen'] at equal
  exact keyed_unkeyed_prefix hn hn' (key_ne hp hk)
    (by rw [hp.valid.keyBytes_length]; exact hp.valid.kl) (Except.ok.inj equal)

example (E E' : Env) (hE : E.WF) (hE' : E'.WF) :
    Spec.CollideTo 1 (keyedTrace 1 [1] 0 [3]) (Spec.Sp.hashTrace 32 [] [22]) := by
  have acc : Params.new.Accepted := ⟨[], rfl⟩
  obtain ⟨s, s', d, hs, hd, h⟩ := finalizes E hE _ byteKeyed_accepted [.update [3]] ⟨by decide, trivial⟩ (by decide)
  obtain ⟨t, t', d', ht, hd', h'⟩ := finalizes E' hE' _ acc [.update [22]] ⟨by decide, trivial⟩ (by decide)
  have kb : byteKeyed.keyBytes = [1] := by decide
  have e : ∀ b : U8, fed [.update [b]] = [b] := fun _ => rfl
  have r : ∀ b : U8, rowsAfter 0 0 [.update [b]] = 0 := fun b =>
    (rowsAfter_zero _ 0).mpr ⟨by rw [show [b].length = 1 from rfl]; decide, trivial⟩
  have := C62_blake2sp_key_or_not E E' hE hE' _ _ byteKeyed_accepted acc _ _ s s' t t' d d' hs hd ht hd'
    (by decide) rfl (by decide) 1 (by decide) (by decide) (by
      rw [h, h', kb]
      exact congrArg Except.ok (first_bytes.2.2.2.2.1.trans first_bytes.2.2.2.2.2.symm))
  rwa [kb, e, e, r] at this

/-- C62 for a digest of BLAKE2s and one of unkeyed BLAKE2sp: if they agree in the first `n` bytes, the BLAKE2s state is the
root node of BLAKE2sp written out by hand (see C45), or the compression function has a collision, or one in `n` bytes. -/
theorem C62_separation (E E' : Env) (hE : E.WF) (hE' : E'.WF)
    (p : Blake2s.Params) (hp : p.Accepted) (ops : List Blake2s.Op) (s s' : Blake2s.State) (d : Hash)
    (hs : Blake2s.Reaches E p ops s) (hd : s.finalize E = .ok (s', d))
    (q : Params) (hq : q.Accepted) (ops' : List Op) (t t' : State) (d' : Hash)
    (ht : Reaches E' q ops' t) (hd' : t.finalize E' = .ok (t', d')) (hk' : q.keyLength = 0)
    (hlen : (Spec.keyBlock p.keyBytes ++ Blake2s.fed ops).length < 2 ^ 64) (hlen' : (fed ops').length < 2 ^ 64)
    (n : Nat) (hn : n ≤ p.hashLength.toNat) (hn' : n ≤ q.hashLength.toNat)
    (equal : d.asBytes.map (·.take n) = d'.asBytes.map (·.take n)) :
    (p.values = Spec.Sp.nodeParams q.hashLength 0 0 1 ∧ p.keyBytes = [] ∧ lastFlag p.lastNode ops = true ∧
      Blake2s.fed ops = (List.finRange 8).flatMap (Spec.Sp.leaf q.hashLength [] (fed ops'))) ∨
    Spec.CollideTo n (Spec.hashTrace p.values p.keyBytes (lastFlag p.lastNode ops) (Blake2s.fed ops))
      (Spec.Sp.hashTrace q.hashLength [] (fed ops')) := by
  rw [finalize_bytes hE hp hs hd, unkeyed_bytes hE' hq ht hd' hk' hlen'] at equal
  rcases cross_prefix (p := p.values) (key' := []) (r := 0) hn hn' hlen (Except.ok.inj equal) with ⟨e1, e2, e3⟩ | c
  · left
    have hkb : p.keyBytes = [] := by
      rw [← List.length_eq_zero_iff, hp.valid.keyBytes_length]
      exact congrArg (fun v : Spec.Params => v.keyLength.toNat) e1
    rw [hkb] at e3
    exact ⟨e1, hkb, e2, e3⟩
  · exact .inr c

/-- First bytes of some digests of 32 bytes. -/
theorem more_first_bytes : (Spec.Sp.hash 32 [] [27]).take 1 = [0xb6] ∧ (Spec.Sp.hash 32 [1] [77]).take 1 = [0xb6] := by
  refine ⟨?_, ?_⟩ <;> (rw [Fast.spHash_eq 1 _ _ _ (by decide +kernel)]; decide +kernel)

/-- The one-byte digest of `[0]` with BLAKE2s is the first byte of the digest of `[27]` with BLAKE2sp. -/
example (E E' : Env) (hE : E.WF) (hE' : E'.WF) :
    Spec.CollideTo 1 (Spec.hashTrace Blake2s.byteParams.values [] false [0]) (Spec.Sp.hashTrace 32 [] [27]) := by
  have acc : Params.new.Accepted := ⟨[], rfl⟩
  obtain ⟨s, s', d, hs, hd⟩ := Blake2s.finalizes E hE _ Blake2s.byteParams_accepted [.update [0]] (by decide)
  obtain ⟨t, t', d', ht, hd', h'⟩ := finalizes E' hE' _ acc [.update [27]] ⟨by decide, trivial⟩ (by decide)
  have h : d.asBytes = .ok [0xb6] := by rw [Blake2s.byte_digest hE hs hd]; decide +kernel
  rcases C62_separation E E' hE hE' _ Blake2s.byteParams_accepted _ s s' d hs hd _ acc _ t t' d' ht hd'
    rfl (by decide) (by decide) 1 (by decide) (by decide) (by
      rw [h, h']
      exact congrArg Except.ok more_first_bytes.1.symm) with ⟨_, _, h, _⟩ | h
  · cases h
  · exact h

/-- C62 for a digest of BLAKE2s and one of keyed BLAKE2sp, whatever it returns (C30): as in C45, unless the second leaf
gives 32 zero bytes. -/
theorem C62_separation_keyed (E E' : Env) (hE : E.WF) (hE' : E'.WF)
    (p : Blake2s.Params) (hp : p.Accepted) (ops : List Blake2s.Op) (s s' : Blake2s.State) (d : Hash)
    (hs : Blake2s.Reaches E p ops s) (hd : s.finalize E = .ok (s', d))
    (q : Params) (hq : q.Accepted) (ops' : List Op) (t t' : State) (d' : Hash)
    (ht : Reaches E' q ops' t) (hd' : t.finalize E' = .ok (t', d')) (hk' : q.keyLength ≠ 0)
    (hlen : (Spec.keyBlock p.keyBytes ++ Blake2s.fed ops).length < 2 ^ 64)
    (n : Nat) (hn : n ≤ p.hashLength.toNat) (hn' : n ≤ q.hashLength.toNat)
    (equal : d.asBytes.map (·.take n) = d'.asBytes.map (·.take n)) :
    keyedLeaf q.hashLength q.keyBytes (rowsAfter 0 0 ops') (fed ops') 1 = List.replicate 32 0 ∨
    Spec.CollideTo n (Spec.hashTrace p.values p.keyBytes (lastFlag p.lastNode ops) (Blake2s.fed ops))
      (keyedTrace q.hashLength q.keyBytes (rowsAfter 0 0 ops') (fed ops')) := by
  obtain ⟨b, _⟩ := keyed_bytes hE' hq hk' ht hd'
  rw [finalize_bytes hE hp hs hd, b] at equal
  rcases cross_prefix (p := p.values) hn hn' hlen (Except.ok.inj equal) with ⟨e1, _, e3⟩ | c
  · left
    have hkq := hq.valid.keyBytes_length
    have hkl : p.keyBytes.length = q.keyBytes.length := by
      rw [hp.valid.keyBytes_length]
      have := congrArg (fun v : Spec.Params => v.keyLength.toNat) e1
      refine this.trans ?_
      show (BitVec.ofNat 8 q.keyBytes.length).toNat = _
      rw [BitVec.toNat_ofNat, hkq, Nat.mod_eq_of_lt]
      exact q.keyLength.isLt
    have h32 : p.keyBytes.length ≤ 32 := by rw [hkl, hkq]; exact hq.valid.kl
    have h0 : p.keyBytes ≠ [] := by
      intro h
      rw [h] at hkl
      exact key_ne hq hk' (List.length_eq_zero_iff.mp hkl.symm)
    unfold Spec.keyBlock at e3
    rw [if_neg h0, Spec.Sp.leaves_eight] at e3
    exact zero_second h32 (keyedLeaf_length ..) (keyedLeaf_length ..) e3
  · exact .inr c

/-- The one-byte digest of `[0]` with BLAKE2s is the first byte of the digest of `[77]` with BLAKE2sp and the key `[1]`. -/
example (E E' : Env) (hE : E.WF) (hE' : E'.WF) :
    keyedLeaf 32 [1] 0 [77] 1 = List.replicate 32 0 ∨
    Spec.CollideTo 1 (Spec.hashTrace Blake2s.byteParams.values [] false [0]) (keyedTrace 32 [1] 0 [77]) := by
  obtain ⟨s, s', d, hs, hd⟩ := Blake2s.finalizes E hE _ Blake2s.byteParams_accepted [.update [0]] (by decide)
  obtain ⟨t, t', d', ht, hd', h'⟩ := finalizes E' hE' _ keyed1_accepted [.update [77]] ⟨by decide, trivial⟩ (by decide)
  have h : d.asBytes = .ok [0xb6] := by rw [Blake2s.byte_digest hE hs hd]; decide +kernel
  have kb : keyed1.keyBytes = [1] := by decide
  have e : fed [.update [77]] = [77] := rfl
  have r : rowsAfter 0 0 [.update [77]] = 0 :=
    (rowsAfter_zero _ 0).mpr ⟨by rw [show [(77 : U8)].length = 1 from rfl]; decide, trivial⟩
  have := C62_separation_keyed E E' hE hE' _ Blake2s.byteParams_accepted _ s s' d hs hd _ keyed1_accepted _ t t' d' ht hd'
    (by decide) (by decide) 1 (by decide) (by decide) (by
      rw [h, h', kb]
      exact congrArg Except.ok more_first_bytes.2.symm)
  rwa [kb, e, r] at this

end Sp

end Blake2s
