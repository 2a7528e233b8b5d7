import Verif.Proofs.Truncated
import Verif.Proofs.Fast
import Verif.Proofs.History
import Verif.Proofs.SpHistory
import Verif.Props.Single
import Verif.Props.Sp
/-!
# C37, C38, C45: what a collision comes down to

`Spec.hashTrace` and `Spec.Sp.hashTrace` (`Verif/SpecTrace.lean`) list the inputs of the compression
function; `Spec.Collide` says that two different ones, one from each computation, have equal outputs.
For digests of fewer than 32 bytes, `Spec.CollideTo n` also allows that the two last ones differ and have
outputs that agree in the first `n` bytes.
-/

namespace Blake2s

/-- What `finalize` returns on a reachable state. -/
theorem finalize_bytes {E : Env} (hE : E.WF) {p : Params} (hp : p.Accepted) {ops : List Op}
    {s s' : State} {d : Hash} (hs : Reaches E p ops s) (hd : s.finalize E = .ok (s', d)) :
    d.asBytes = .ok (Spec.hash p.values p.keyBytes (lastFlag p.lastNode ops) (fed ops)) := by
  have v := hp.valid
  have r := hs.rep hE v
  obtain ⟨s'', d', e, _, hb, hl, _⟩ := finalize_ok r
  rw [hd] at e
  cases e
  rw [after_hashLength] at hl
  rw [asBytes_ok d (by rw [hl]; exact v.hl.2), hb, hl, after_h0, after_lastNode]
  rw [digestBytes_take _ _ (by exact v.hl.2)]
  rfl

/-! ## C37 -/

/-- Short histories can be finalized. -/
theorem finalizes (E : Env) (hE : E.WF) (p : Params) (hp : p.Accepted) (ops : List Op)
    (h : (fed ops).length < 2 ^ 60) : ∃ s s' d, Reaches E p ops s ∧ s.finalize E = .ok (s', d) := by
  obtain ⟨s, hs⟩ := reaches E hE p hp ops h
  obtain ⟨s', d, e, -⟩ := finalize_ok (hs.rep hE hp.valid)
  exact ⟨s, s', d, hs, e⟩

/-- Digests of one byte: collisions are easy to find. -/
def byteParams : Params := { Params.new with hashLength := 1 }

theorem byteParams_accepted : byteParams.Accepted := ⟨[.hashLength 1], rfl⟩

theorem byte_digest {E : Env} (hE : E.WF) {b : U8} {s s' : State} {d : Hash}
    (hs : Reaches E byteParams [.update [b]] s) (hd : s.finalize E = .ok (s', d)) :
    d.asBytes = .ok (Fast.hash 0 (Spec.sequential 1 0) [] false [b]) := by
  rw [finalize_bytes hE byteParams_accepted hs hd, ← Fast.hash_eq 0 _ _ _ _ (by simp [Spec.keyBlock])]
  rfl

/-- C37: two computations through the API (any histories, any platforms) with 32-byte digests. If the
digests are equal although parameters, key, last-node flag or message differ, two different inputs of
the compression function with equal outputs occur in them. -/
theorem C37_collision (E E' : Env) (hE : E.WF) (hE' : E'.WF) (p q : Params) (hp : p.Accepted)
    (hq : q.Accepted) (ops ops' : List Op) (s s' t t' : State) (d d' : Hash)
    (hs : Reaches E p ops s) (hd : s.finalize E = .ok (s', d))
    (ht : Reaches E' q ops' t) (hd' : t.finalize E' = .ok (t', d'))
    (h32 : p.hashLength = 32) (h32' : q.hashLength = 32)
    (hlen : (Spec.keyBlock p.keyBytes ++ fed ops).length < 2 ^ 64)
    (hlen' : (Spec.keyBlock q.keyBytes ++ fed ops').length < 2 ^ 64)
    (differ : (p.values, p.keyBytes, lastFlag p.lastNode ops, fed ops) ≠
      (q.values, q.keyBytes, lastFlag q.lastNode ops', fed ops'))
    (equal : d.asBytes = d'.asBytes) :
    Spec.Collide (Spec.hashTrace p.values p.keyBytes (lastFlag p.lastNode ops) (fed ops))
      (Spec.hashTrace q.values q.keyBytes (lastFlag q.lastNode ops') (fed ops')) := by
  rw [finalize_bytes hE hp hs hd, finalize_bytes hE' hq ht hd'] at equal
  rcases Spec.hash_collision (p := p.values) (p' := q.values) hp.valid.keyBytes_length
    hq.valid.keyBytes_length h32 h32' hlen hlen' (Except.ok.inj equal) with ⟨e1, e2, e3, e4⟩ | c
  · exact absurd (by rw [e1, e2, e3, e4]) differ
  · exact c

/-- A message of two blocks, and the same message with the last-node flag. (Nobody knows two such computations with
equal digests.) -/
example : ∃ s s' t t' d d', Reaches releasePlain Params.new [.update bytes150] s ∧
    s.finalize releasePlain = .ok (s', d) ∧ Reaches debugAvx2 Params.new [.update bytes150, .setLastNode true] t ∧
    t.finalize debugAvx2 = .ok (t', d') ∧
    (d.asBytes = d'.asBytes → Spec.Collide (Spec.hashTrace Params.new.values [] false (fed [.update bytes150]))
      (Spec.hashTrace Params.new.values [] true (fed [.update bytes150, .setLastNode true]))) := by
  have l : (fed [.update bytes150]).length = 150 := by simp [fed, length150]
  have l' : (fed [.update bytes150, .setLastNode true]).length = 150 := by simp [fed, length150]
  have acc : Params.new.Accepted := ⟨[], rfl⟩
  have kb : Params.new.keyBytes = [] := rfl
  obtain ⟨s, s', d, hs, hd⟩ := finalizes releasePlain (by decide) Params.new acc [.update bytes150]
    (by rw [l]; decide)
  obtain ⟨t, t', d', ht, hd'⟩ := finalizes debugAvx2 (by decide) Params.new acc
    [.update bytes150, .setLastNode true] (by rw [l']; decide)
  exact ⟨s, s', t, t', d, d', hs, hd, ht, hd', C37_collision releasePlain debugAvx2 (by decide) (by decide) _ _ acc acc
    _ _ s s' t t' d d' hs hd ht hd' rfl rfl (by rw [kb, List.length_append, l]; decide)
    (by rw [kb, List.length_append, l']; decide) (fun h => by
      injection h with _ h
      injection h with _ h
      injection h with h _
      cases h)⟩

/-- C37 for digests of any length: if two digests are equal although parameters, key, last-node flag or
message differ, then two different inputs of the compression function with equal outputs occur, or the
two last ones differ and their outputs agree as far as the digests go. -/
theorem C37_any_length (E E' : Env) (hE : E.WF) (hE' : E'.WF) (p q : Params) (hp : p.Accepted)
    (hq : q.Accepted) (ops ops' : List Op) (s s' t t' : State) (d d' : Hash)
    (hs : Reaches E p ops s) (hd : s.finalize E = .ok (s', d))
    (ht : Reaches E' q ops' t) (hd' : t.finalize E' = .ok (t', d'))
    (hlen : (Spec.keyBlock p.keyBytes ++ fed ops).length < 2 ^ 64)
    (hlen' : (Spec.keyBlock q.keyBytes ++ fed ops').length < 2 ^ 64)
    (differ : (p.values, p.keyBytes, lastFlag p.lastNode ops, fed ops) ≠
      (q.values, q.keyBytes, lastFlag q.lastNode ops', fed ops'))
    (equal : d.asBytes = d'.asBytes) :
    Spec.CollideTo p.hashLength.toNat
      (Spec.hashTrace p.values p.keyBytes (lastFlag p.lastNode ops) (fed ops))
      (Spec.hashTrace q.values q.keyBytes (lastFlag q.lastNode ops') (fed ops')) := by
  rw [finalize_bytes hE hp hs hd, finalize_bytes hE' hq ht hd'] at equal
  rcases Spec.hash_near (p := p.values) (p' := q.values) hp.valid.keyBytes_length
    hq.valid.keyBytes_length hp.valid.hl.2 hq.valid.hl.2 hlen hlen' (Except.ok.inj equal) with
    ⟨e1, e2, e3, e4⟩ | c
  · exact absurd (by rw [e1, e2, e3, e4]) differ
  · exact c

/-- With one-byte digests, the messages `[7]` and `[19]` collide, on every platform. -/
example (E E' : Env) (hE : E.WF) (hE' : E'.WF) : ∃ s s' t t' d d', Reaches E byteParams [.update [7]] s ∧
    s.finalize E = .ok (s', d) ∧ Reaches E' byteParams [.update [19]] t ∧ t.finalize E' = .ok (t', d') ∧
    d.asBytes = .ok [0xb2] ∧ d'.asBytes = .ok [0xb2] ∧
    Spec.CollideTo 1 (Spec.hashTrace byteParams.values [] false [7])
      (Spec.hashTrace byteParams.values [] false [19]) := by
  obtain ⟨s, s', d, hs, hd⟩ := finalizes E hE _ byteParams_accepted [.update [7]] (by decide)
  obtain ⟨t, t', d', ht, hd'⟩ := finalizes E' hE' _ byteParams_accepted [.update [19]] (by decide)
  have h7 : d.asBytes = .ok [0xb2] := by rw [byte_digest hE hs hd]; decide +kernel
  have h19 : d'.asBytes = .ok [0xb2] := by rw [byte_digest hE' ht hd']; decide +kernel
  exact ⟨s, s', t, t', d, d', hs, hd, ht, hd', h7, h19, C37_any_length E E' hE hE' _ _ byteParams_accepted
    byteParams_accepted _ _ s s' t t' d d' hs hd ht hd' (by decide) (by decide) (by
      intro h
      injection h with _ h
      injection h with _ h
      injection h with _ h
      exact absurd h (by decide)) (by rw [h7, h19])⟩

/-- C37 for the one-shot function. -/
theorem C37_one_shot (E : Env) (hE : E.WF) (a b : List U8) (ha : a.length < 2 ^ 64)
    (hb : b.length < 2 ^ 64) (differ : a ≠ b) (equal : blake2s E a = blake2s E b) :
    Spec.Collide (Spec.hashTrace (Spec.sequential 32 0) [] false a)
      (Spec.hashTrace (Spec.sequential 32 0) [] false b) := by
  obtain ⟨d, e, hd⟩ := C01_one_shot E hE a (fun _ => ha)
  obtain ⟨d', e', hd'⟩ := C01_one_shot E hE b (fun _ => hb)
  rw [e, e'] at equal
  cases equal
  rw [hd] at hd'
  rcases Spec.hash_collision (p := Spec.sequential 32 0) (p' := Spec.sequential 32 0) (key := [])
    (key' := []) rfl rfl rfl rfl ha hb (Except.ok.inj hd') with ⟨_, _, _, e4⟩ | c
  · exact absurd e4 differ
  · exact c

example (h : blake2s debugAvx2 bytes150 = blake2s debugAvx2 bytes1500) :
    Spec.Collide (Spec.hashTrace (Spec.sequential 32 0) [] false bytes150)
      (Spec.hashTrace (Spec.sequential 32 0) [] false bytes1500) :=
  C37_one_shot debugAvx2 (by decide) _ _ (by rw [length150]; decide) (by rw [length1500]; decide)
    (fun e => by have := congrArg List.length e; rw [length150, length1500] at this; cases this) h

/-- The lists of compressions are complete: the last entry produces the digest. -/
theorem C37_trace_output (p : Spec.Params) (key : List U8) (ln : Bool) (msg : List U8) :
    ∃ x ∈ Spec.hashTrace p key ln msg,
      Spec.hash p key ln msg = Spec.digestBytes x.output p.digestLength.toNat := by
  obtain ⟨x, hx, ho, _⟩ := Spec.absorbTrace_last p.init 0 (Spec.keyBlock key ++ msg) ln
  exact ⟨x, hx, by rw [ho]; rfl⟩

example : ∃ x ∈ Spec.hashTrace keyedParams.values [1, 2, 3] true bytes150,
    Spec.hash keyedParams.values [1, 2, 3] true bytes150 = Spec.digestBytes x.output 20 :=
  C37_trace_output _ _ _ _

/-- The trace of a 100-byte message has two entries: a full block, counter 64, no flags; and the rest,
counter 100, final. -/
example : (Spec.hashTrace (Spec.sequential 32 0) [] true (List.replicate 100 7)).map
    (fun x => (x.t, x.final, x.lastNode)) = [(64, false, false), (100, true, true)] := by
  unfold Spec.hashTrace
  rw [Spec.absorbTrace.eq_def, if_neg (by simp [Spec.keyBlock])]
  simp only []
  rw [Spec.absorbTrace.eq_def, if_pos (by simp [Spec.keyBlock])]
  simp [Spec.keyBlock]

namespace Sp

/-- What `finalize` returns on an unkeyed state. -/
theorem unkeyed_bytes {E : Env} (hE : E.WF) {p : Params} (hp : p.Accepted) {ops : List Op} {s s' : State}
    {d : Hash} (hs : Reaches E p ops s) (hd : s.finalize E = .ok (s', d))
    (hk : p.keyLength = 0) (hlen : (fed ops).length < 2 ^ 64) :
    d.asBytes = .ok (Spec.Sp.hash p.hashLength [] (fed ops)) := by
  have v := hp.valid
  have hsh : Short p 0 ops := fun h => absurd hk h
  obtain ⟨⟨_, d1⟩, e, -, hd1⟩ := ((hs.abs hE v hsh).finalize v).elim (not_bad_fed v (fun _ => hlen) hsh)
  rw [hd] at e
  cases e
  have hkb : p.keyBytes = [] := by
    rw [← List.length_eq_zero_iff, v.keyBytes_length, hk]; rfl
  have := hd1.asBytes v
  rwa [hkb] at this

/-- What `blake2sp` returns. -/
theorem blake2sp_bytes (E : Env) (hE : E.WF) (m : List U8) (hm : m.length < 2 ^ 64) :
    ∃ d, blake2sp E m = .ok d ∧ d.asBytes = .ok (Spec.Sp.blake2sp m) := by
  obtain ⟨s, e, a⟩ := Abs.new E hE Params.default default_valid
  have hk : Params.default.keyLength ≠ 0 → False := fun h => h rfl
  have nb : ¬ Bad E Params.default ([] ++ m) :=
    not_bad default_valid (fun _ => hm) (fun h => (hk h).elim)
  obtain ⟨s1, e1, a1⟩ := (a.update default_valid m (fun h => (hk h).elim)).elim nb
  obtain ⟨⟨_, d⟩, e2, -, hd⟩ := (a1.finalize default_valid).elim nb
  refine ⟨d, ?_, hd.asBytes default_valid⟩
  have e' : State.new E = .ok s := e
  unfold blake2sp
  simp only [e', bind, Except.bind, e1, e2]
  rfl

/-! ## C38 -/

/-- Histories that stay in the buffer can be finalized, with the right digest. -/
theorem finalizes (E : Env) (hE : E.WF) (p : Params) (hp : p.Accepted) (ops : List Op) (hb : AllBuffered 0 ops)
    (h : (fed ops).length < 2 ^ 60) : ∃ s s' d, Reaches E p ops s ∧ s.finalize E = .ok (s', d) ∧
      d.asBytes = .ok (Spec.Sp.hash p.hashLength p.keyBytes (fed ops)) := by
  have v := hp.valid
  have fits : Fits E (fed ops).length := fun _ => by omega
  obtain ⟨s, s', hs, e, e', _⟩ := C30_partial E hE p hp ops fits (fun _ => hb)
  have hr : Reaches E p ops s' := ⟨s, hs, e, e'⟩
  obtain ⟨x, ef, -, hd⟩ := ((hr.abs hE v fun _ => hb).finalize v).elim (not_bad_fed v fits fun _ => hb)
  exact ⟨s', x.1, x.2, hr, ef, hd.asBytes v⟩

/-- Digests of one byte, without and with a key. -/
def byteParams : Params := { Params.new with hashLength := 1 }
def byteKeyed : Params := { keyed1 with hashLength := 1 }

theorem byteParams_accepted : byteParams.Accepted := ⟨[.hashLength 1], rfl⟩
theorem byteKeyed_accepted : byteKeyed.Accepted := ⟨[.key [1], .hashLength 1], by decide⟩

/-- The digests of one byte of some messages of one byte. -/
theorem byte_digests : Spec.Sp.hash 1 [] [0] = [0x3f] ∧ Spec.Sp.hash 1 [] [193] = [0x3f] ∧
    Spec.Sp.hash 1 [1] [1] = [0x8d] ∧ Spec.Sp.hash 1 [1] [187] = [0x8d] ∧ Spec.Sp.hash 1 [] [16] = [0x8d] ∧
    Spec.Sp.hash 1 [] [190] = [0xb6] ∧ Spec.Sp.hash 1 [1] [18] = [0xb6] := by
  refine ⟨?_, ?_, ?_, ?_, ?_, ?_, ?_⟩ <;>
    (rw [Fast.spHash_eq 1 _ _ _ (by decide +kernel)]; decide +kernel)

/-- C38: two different messages fed to unkeyed states with 32-byte digests, in any pieces and on any
platforms. If the digests are equal, two different inputs of the compression function with equal
outputs occur in the two computations. -/
theorem C38_collision (E E' : Env) (hE : E.WF) (hE' : E'.WF) (p q : Params) (hp : p.Accepted)
    (hq : q.Accepted) (ops ops' : List Op) (s s' t t' : State) (d d' : Hash)
    (hs : Reaches E p ops s) (hd : s.finalize E = .ok (s', d))
    (ht : Reaches E' q ops' t) (hd' : t.finalize E' = .ok (t', d'))
    (h32 : p.hashLength = 32) (h32' : q.hashLength = 32)
    (hk : p.keyLength = 0) (hk' : q.keyLength = 0)
    (hlen : (fed ops).length < 2 ^ 64) (hlen' : (fed ops').length < 2 ^ 64)
    (differ : fed ops ≠ fed ops') (equal : d.asBytes = d'.asBytes) :
    Spec.Collide (Spec.Sp.hashTrace 32 [] (fed ops)) (Spec.Sp.hashTrace 32 [] (fed ops')) := by
  rw [unkeyed_bytes hE hp hs hd hk hlen, unkeyed_bytes hE' hq ht hd' hk' hlen', h32, h32'] at equal
  rcases Spec.Sp.hash_collision (key := []) (key' := []) (by decide) (by decide) hlen hlen'
    (Except.ok.inj equal) with ⟨_, e⟩ | c
  · exact absurd e differ
  · exact c

example : ∃ s s' t t' d d', Reaches releasePlain Params.new [.update bytes150] s ∧
    s.finalize releasePlain = .ok (s', d) ∧ Reaches debugAvx2 Params.new [.update [1], .flush] t ∧
    t.finalize debugAvx2 = .ok (t', d') ∧
    (d.asBytes = d'.asBytes → Spec.Collide (Spec.Sp.hashTrace 32 [] (fed [.update bytes150]))
      (Spec.Sp.hashTrace 32 [] (fed [.update [1], .flush]))) := by
  have l : (fed [.update bytes150]).length = 150 := by simp [fed, length150]
  have acc : Params.new.Accepted := ⟨[], rfl⟩
  obtain ⟨s, s', d, hs, hd, -⟩ := finalizes releasePlain (by decide) Params.new acc [.update bytes150]
    ⟨by rw [length150]; decide, trivial⟩ (by rw [l]; decide)
  obtain ⟨t, t', d', ht, hd', -⟩ := finalizes debugAvx2 (by decide) Params.new acc [.update [1], .flush]
    ⟨by decide, trivial⟩ (by decide)
  exact ⟨s, s', t, t', d, d', hs, hd, ht, hd', C38_collision releasePlain debugAvx2 (by decide) (by decide) _ _ acc acc
    _ _ s s' t t' d d' hs hd ht hd' rfl rfl rfl rfl (by rw [l]; decide) (by decide)
    (fun e => by have := congrArg List.length e; rw [l] at this; cases this)⟩

/-- C38 for digests of any length. -/
theorem C38_any_length (E E' : Env) (hE : E.WF) (hE' : E'.WF) (p q : Params) (hp : p.Accepted)
    (hq : q.Accepted) (ops ops' : List Op) (s s' t t' : State) (d d' : Hash)
    (hs : Reaches E p ops s) (hd : s.finalize E = .ok (s', d))
    (ht : Reaches E' q ops' t) (hd' : t.finalize E' = .ok (t', d'))
    (hk : p.keyLength = 0) (hk' : q.keyLength = 0)
    (hlen : (fed ops).length < 2 ^ 64) (hlen' : (fed ops').length < 2 ^ 64)
    (differ : fed ops ≠ fed ops') (equal : d.asBytes = d'.asBytes) :
    Spec.CollideTo p.hashLength.toNat (Spec.Sp.hashTrace p.hashLength [] (fed ops))
      (Spec.Sp.hashTrace q.hashLength [] (fed ops')) := by
  rw [unkeyed_bytes hE hp hs hd hk hlen, unkeyed_bytes hE' hq ht hd' hk' hlen'] at equal
  rcases Spec.Sp.hash_near hp.valid.hl.2 hq.valid.hl.2 hlen hlen' (Except.ok.inj equal) with e | c
  · exact absurd e differ
  · exact c

/-- With one-byte digests, the messages `[0]` and `[193]` collide. -/
example (E E' : Env) (hE : E.WF) (hE' : E'.WF) : Spec.CollideTo 1 (Spec.Sp.hashTrace 1 [] [0])
    (Spec.Sp.hashTrace 1 [] [193]) := by
  obtain ⟨s, s', d, hs, hd, h⟩ := finalizes E hE _ byteParams_accepted [.update [0]] ⟨by decide, trivial⟩ (by decide)
  obtain ⟨t, t', d', ht, hd', h'⟩ := finalizes E' hE' _ byteParams_accepted [.update [193]] ⟨by decide, trivial⟩
    (by decide)
  exact C38_any_length E E' hE hE' _ _ byteParams_accepted byteParams_accepted _ _ s s' t t' d d' hs hd ht hd' rfl rfl
    (by decide) (by decide) (by decide) (by
      rw [h, h']
      exact congrArg Except.ok (byte_digests.1.trans byte_digests.2.1.symm))

/-- C38 for the one-shot function. -/
theorem C38_one_shot (E : Env) (hE : E.WF) (a b : List U8) (ha : a.length < 2 ^ 64)
    (hb : b.length < 2 ^ 64) (differ : a ≠ b) (equal : blake2sp E a = blake2sp E b) :
    Spec.Collide (Spec.Sp.hashTrace 32 [] a) (Spec.Sp.hashTrace 32 [] b) := by
  obtain ⟨d, e, hd⟩ := blake2sp_bytes E hE a ha
  obtain ⟨d', e', hd'⟩ := blake2sp_bytes E hE b hb
  rw [e, e'] at equal
  cases equal
  rw [hd] at hd'
  rcases Spec.Sp.hash_collision (key := []) (key' := []) (by decide) (by decide) ha hb
    (Except.ok.inj hd') with ⟨_, e⟩ | c
  · exact absurd e differ
  · exact c

example (h : blake2sp debugAvx2 bytes150 = blake2sp debugAvx2 bytes1500) :
    Spec.Collide (Spec.Sp.hashTrace 32 [] bytes150) (Spec.Sp.hashTrace 32 [] bytes1500) :=
  C38_one_shot debugAvx2 (by decide) _ _ (by rw [length150]; decide) (by rw [length1500]; decide)
    (fun e => by have := congrArg List.length e; rw [length150, length1500] at this; cases this) h

/-- Messages meeting the hypotheses of C38 other than the equality of digests: they differ only in the
order of two blocks, which go to different leaves. -/
example : List.replicate 64 1 ++ List.replicate 64 (2 : U8) ≠
      List.replicate 64 2 ++ List.replicate 64 1 ∧
    Spec.Sp.leafInput 0 (List.replicate 64 1 ++ List.replicate 64 2) ≠
      Spec.Sp.leafInput 0 (List.replicate 64 2 ++ List.replicate 64 1) := by decide +kernel

/-! ### Keyed states

`Sp.keyedHash`, `rowsAfter` (`Verif/Vocab.lean`) and `keyedTrace` (`Verif/KeyedTrace.lean`) describe what
keyed states really compute, right or wrong. -/

/-- What `finalize` returns on a keyed state, whatever its history. -/
theorem keyed_bytes {E : Env} (hE : E.WF) {p : Params} (hp : p.Accepted) (hk : p.keyLength ≠ 0)
    {ops : List Op} {s s' : State} {d : Hash} (hs : Reaches E p ops s) (hd : s.finalize E = .ok (s', d)) :
    d.asBytes = .ok (keyedHash p.hashLength p.keyBytes (rowsAfter 0 0 ops) (fed ops)) ∧
      512 * rowsAfter 0 0 ops ≤ (fed ops).length := by
  have a := hs.absN hE hp.valid
  refine ⟨?_, a.len⟩
  rcases a.finalize with ⟨x, hx, _, dx, _⟩ | ⟨hx, _⟩
  · rw [hd] at hx; cases hx; exact dx.keyed hp.valid hk
  · rw [hd] at hx; cases hx

theorem key_ne {p : Params} (hp : p.Accepted) (hk : p.keyLength ≠ 0) : p.keyBytes ≠ [] := by
  intro h
  apply hk
  have := hp.valid.keyBytes_length
  rw [h] at this
  exact BitVec.eq_of_toNat_eq this.symm

/-- C38 for keyed states, on any platforms and in any pieces, including those histories on which the
digest is not the BLAKE2sp digest (C30): if two 32-byte digests are equal although keys, messages or
numbers of rows passed on differ, two different inputs of the compression function with equal outputs
occur in the two computations. -/
theorem C38_keyed (E E' : Env) (hE : E.WF) (hE' : E'.WF) (p q : Params) (hp : p.Accepted)
    (hq : q.Accepted) (ops ops' : List Op) (s s' t t' : State) (d d' : Hash)
    (hs : Reaches E p ops s) (hd : s.finalize E = .ok (s', d))
    (ht : Reaches E' q ops' t) (hd' : t.finalize E' = .ok (t', d'))
    (h32 : p.hashLength = 32) (h32' : q.hashLength = 32)
    (hk : p.keyLength ≠ 0) (hk' : q.keyLength ≠ 0)
    (hlen : 64 + (fed ops).length < 2 ^ 64) (hlen' : 64 + (fed ops').length < 2 ^ 64)
    (differ : (p.keyBytes, rowsAfter 0 0 ops, fed ops) ≠ (q.keyBytes, rowsAfter 0 0 ops', fed ops'))
    (equal : d.asBytes = d'.asBytes) :
    Spec.Collide (keyedTrace 32 p.keyBytes (rowsAfter 0 0 ops) (fed ops))
      (keyedTrace 32 q.keyBytes (rowsAfter 0 0 ops') (fed ops')) := by
  obtain ⟨b, l⟩ := keyed_bytes hE hp hk hs hd
  obtain ⟨b', l'⟩ := keyed_bytes hE' hq hk' ht hd'
  rw [b, b', h32, h32'] at equal
  rcases keyed_collision (key_ne hp hk) (key_ne hq hk')
    (by rw [hp.valid.keyBytes_length]; exact hp.valid.kl)
    (by rw [hq.valid.keyBytes_length]; exact hq.valid.kl) l l' hlen hlen' (Except.ok.inj equal) with
    ⟨e1, e2, e3⟩ | c
  · exact absurd (by rw [e1, e2, e3]) differ
  · exact c

example : ∃ s s' t t' d d', Reaches releasePlain keyed1 [.update bytes150] s ∧
    s.finalize releasePlain = .ok (s', d) ∧ Reaches debugAvx2 keyed1 [.update [1], .flush] t ∧
    t.finalize debugAvx2 = .ok (t', d') ∧
    (d.asBytes = d'.asBytes → Spec.Collide
      (keyedTrace 32 keyed1.keyBytes (rowsAfter 0 0 [.update bytes150]) (fed [.update bytes150]))
      (keyedTrace 32 keyed1.keyBytes (rowsAfter 0 0 [.update [1], .flush]) (fed [.update [1], .flush]))) := by
  have l : (fed [.update bytes150]).length = 150 := by simp [fed, length150]
  obtain ⟨s, s', d, hs, hd, -⟩ := finalizes releasePlain (by decide) keyed1 keyed1_accepted [.update bytes150]
    ⟨by rw [length150]; decide, trivial⟩ (by rw [l]; decide)
  obtain ⟨t, t', d', ht, hd', -⟩ := finalizes debugAvx2 (by decide) keyed1 keyed1_accepted [.update [1], .flush]
    ⟨by decide, trivial⟩ (by decide)
  exact ⟨s, s', t, t', d, d', hs, hd, ht, hd', C38_keyed releasePlain debugAvx2 (by decide) (by decide) _ _
    keyed1_accepted keyed1_accepted _ _ s s' t t' d d' hs hd ht hd' rfl rfl (by decide) (by decide)
    (by rw [l]; decide) (by decide) (fun e => by
      injection e with _ e
      injection e with _ e
      have := congrArg List.length e; rw [l] at this; cases this)⟩

/-- C38 for a keyed and an unkeyed state: equal 32-byte digests always come from a collision of the
compression function. -/
theorem C38_key_or_not (E E' : Env) (hE : E.WF) (hE' : E'.WF) (p q : Params) (hp : p.Accepted)
    (hq : q.Accepted) (ops ops' : List Op) (s s' t t' : State) (d d' : Hash)
    (hs : Reaches E p ops s) (hd : s.finalize E = .ok (s', d))
    (ht : Reaches E' q ops' t) (hd' : t.finalize E' = .ok (t', d'))
    (h32 : p.hashLength = 32) (h32' : q.hashLength = 32)
    (hk : p.keyLength ≠ 0) (hk' : q.keyLength = 0) (hlen' : (fed ops').length < 2 ^ 64)
    (equal : d.asBytes = d'.asBytes) :
    Spec.Collide (keyedTrace 32 p.keyBytes (rowsAfter 0 0 ops) (fed ops))
      (Spec.Sp.hashTrace 32 [] (fed ops')) := by
  obtain ⟨b, _⟩ := keyed_bytes hE hp hk hs hd
  rw [b, unkeyed_bytes hE' hq ht hd' hk' hlen', h32, h32'] at equal
  exact keyed_unkeyed_collision (key_ne hp hk)
    (by rw [hp.valid.keyBytes_length]; exact hp.valid.kl) (Except.ok.inj equal)

example : ∃ s s' t t' d d', Reaches releasePlain keyed1 [.update bytes150] s ∧
    s.finalize releasePlain = .ok (s', d) ∧ Reaches debugAvx2 Params.new [.update bytes150] t ∧
    t.finalize debugAvx2 = .ok (t', d') ∧
    (d.asBytes = d'.asBytes → Spec.Collide
      (keyedTrace 32 keyed1.keyBytes (rowsAfter 0 0 [.update bytes150]) (fed [.update bytes150]))
      (Spec.Sp.hashTrace 32 [] (fed [.update bytes150]))) := by
  have l : (fed [.update bytes150]).length = 150 := by simp [fed, length150]
  obtain ⟨s, s', d, hs, hd, -⟩ := finalizes releasePlain (by decide) keyed1 keyed1_accepted [.update bytes150]
    ⟨by rw [length150]; decide, trivial⟩ (by rw [l]; decide)
  obtain ⟨t, t', d', ht, hd', -⟩ := finalizes debugAvx2 (by decide) Params.new ⟨[], rfl⟩ [.update bytes150]
    ⟨by rw [length150]; decide, trivial⟩ (by rw [l]; decide)
  exact ⟨s, s', t, t', d, d', hs, hd, ht, hd', C38_key_or_not releasePlain debugAvx2 (by decide) (by decide) _ _
    keyed1_accepted ⟨[], rfl⟩ _ _ s s' t t' d d' hs hd ht hd' rfl rfl (by decide) rfl (by rw [l]; decide)⟩

/-- C38 for keyed states and digests of any length. -/
theorem C38_keyed_any_length (E E' : Env) (hE : E.WF) (hE' : E'.WF) (p q : Params) (hp : p.Accepted)
    (hq : q.Accepted) (ops ops' : List Op) (s s' t t' : State) (d d' : Hash)
    (hs : Reaches E p ops s) (hd : s.finalize E = .ok (s', d))
    (ht : Reaches E' q ops' t) (hd' : t.finalize E' = .ok (t', d'))
    (hk : p.keyLength ≠ 0) (hk' : q.keyLength ≠ 0)
    (hlen : 64 + (fed ops).length < 2 ^ 64) (hlen' : 64 + (fed ops').length < 2 ^ 64)
    (differ : (p.keyBytes, rowsAfter 0 0 ops, fed ops) ≠ (q.keyBytes, rowsAfter 0 0 ops', fed ops'))
    (equal : d.asBytes = d'.asBytes) :
    Spec.CollideTo p.hashLength.toNat
      (keyedTrace p.hashLength p.keyBytes (rowsAfter 0 0 ops) (fed ops))
      (keyedTrace q.hashLength q.keyBytes (rowsAfter 0 0 ops') (fed ops')) := by
  obtain ⟨b, l⟩ := keyed_bytes hE hp hk hs hd
  obtain ⟨b', l'⟩ := keyed_bytes hE' hq hk' ht hd'
  rw [b, b'] at equal
  rcases keyed_near hp.valid.hl.2 hq.valid.hl.2 (key_ne hp hk) (key_ne hq hk')
    (by rw [hp.valid.keyBytes_length]; exact hp.valid.kl)
    (by rw [hq.valid.keyBytes_length]; exact hq.valid.kl) l l' hlen hlen' (Except.ok.inj equal) with
    ⟨e1, e2, e3⟩ | c
  · exact absurd (by rw [e1, e2, e3]) differ
  · exact c

/-- With the key `[1]` and one-byte digests, the messages `[1]` and `[187]` collide. -/
example (E E' : Env) (hE : E.WF) (hE' : E'.WF) :
    Spec.CollideTo 1 (keyedTrace 1 [1] 0 [1]) (keyedTrace 1 [1] 0 [187]) := by
  obtain ⟨s, s', d, hs, hd, h⟩ := finalizes E hE _ byteKeyed_accepted [.update [1]] ⟨by decide, trivial⟩ (by decide)
  obtain ⟨t, t', d', ht, hd', h'⟩ := finalizes E' hE' _ byteKeyed_accepted [.update [187]] ⟨by decide, trivial⟩
    (by decide)
  have kb : byteKeyed.keyBytes = [1] := by decide
  have e : ∀ b : U8, fed [.update [b]] = [b] := fun _ => rfl
  have r : ∀ b : U8, rowsAfter 0 0 [.update [b]] = 0 := fun b =>
    (rowsAfter_zero _ 0).mpr ⟨by rw [show [b].length = 1 from rfl]; decide, trivial⟩
  have := C38_keyed_any_length E E' hE hE' _ _ byteKeyed_accepted byteKeyed_accepted _ _ s s' t t' d d' hs hd ht hd'
    (by decide) (by decide) (by decide) (by decide) (by decide) (by
      rw [h, h', kb]
      exact congrArg Except.ok (byte_digests.2.2.1.trans byte_digests.2.2.2.1.symm))
  rwa [kb, e, e, r, r] at this

/-- C38 for a keyed and an unkeyed state and digests of any length. -/
theorem C38_key_or_not_any_length (E E' : Env) (hE : E.WF) (hE' : E'.WF) (p q : Params) (hp : p.Accepted)
    (hq : q.Accepted) (ops ops' : List Op) (s s' t t' : State) (d d' : Hash)
    (hs : Reaches E p ops s) (hd : s.finalize E = .ok (s', d))
    (ht : Reaches E' q ops' t) (hd' : t.finalize E' = .ok (t', d'))
    (hk : p.keyLength ≠ 0) (hk' : q.keyLength = 0) (hlen' : (fed ops').length < 2 ^ 64)
    (equal : d.asBytes = d'.asBytes) :
    Spec.CollideTo p.hashLength.toNat
      (keyedTrace p.hashLength p.keyBytes (rowsAfter 0 0 ops) (fed ops))
      (Spec.Sp.hashTrace q.hashLength [] (fed ops')) := by
  obtain ⟨b, _⟩ := keyed_bytes hE hp hk hs hd
  rw [b, unkeyed_bytes hE' hq ht hd' hk' hlen'] at equal
  exact keyed_unkeyed_near hp.valid.hl.2 hq.valid.hl.2 (key_ne hp hk)
    (by rw [hp.valid.keyBytes_length]; exact hp.valid.kl) (Except.ok.inj equal)

/-- One-byte digests of `[1]` with the key `[1]`, and of `[16]` without a key. -/
example (E E' : Env) (hE : E.WF) (hE' : E'.WF) :
    Spec.CollideTo 1 (keyedTrace 1 [1] 0 [1]) (Spec.Sp.hashTrace 1 [] [16]) := by
  obtain ⟨s, s', d, hs, hd, h⟩ := finalizes E hE _ byteKeyed_accepted [.update [1]] ⟨by decide, trivial⟩ (by decide)
  obtain ⟨t, t', d', ht, hd', h'⟩ := finalizes E' hE' _ byteParams_accepted [.update [16]] ⟨by decide, trivial⟩
    (by decide)
  have kb : byteKeyed.keyBytes = [1] := by decide
  have e : ∀ b : U8, fed [.update [b]] = [b] := fun _ => rfl
  have r : ∀ b : U8, rowsAfter 0 0 [.update [b]] = 0 := fun b =>
    (rowsAfter_zero _ 0).mpr ⟨by rw [show [b].length = 1 from rfl]; decide, trivial⟩
  have := C38_key_or_not_any_length E E' hE hE' _ _ byteKeyed_accepted byteParams_accepted _ _ s s' t t' d d' hs hd ht
    hd' (by decide) rfl (by decide) (by
      rw [h, h', kb]
      exact congrArg Except.ok (byte_digests.2.2.1.trans byte_digests.2.2.2.2.1.symm))
  rwa [kb, e, e, r] at this

/-- Where C30 fails, builds without debug assertions, 32-byte digests: as soon as a keyed state has
passed on a row, the digest it returns is *not* the BLAKE2sp digest, unless a collision of the
compression function occurs between the two computations. -/
theorem C30_release_differs (E : Env) (hE : E.WF) (p : Params) (hp : p.Accepted) (ops : List Op)
    (s s' : State) (d : Hash) (hs : Reaches E p ops s) (hd : s.finalize E = .ok (s', d))
    (h32 : p.hashLength = 32) (hk : p.keyLength ≠ 0) (hlen : 64 + (fed ops).length < 2 ^ 64)
    (hb : ¬ AllBuffered 0 ops) (right : d.asBytes = .ok (Spec.Sp.hash 32 p.keyBytes (fed ops))) :
    Spec.Collide (keyedTrace 32 p.keyBytes (rowsAfter 0 0 ops) (fed ops))
      (Spec.Sp.hashTrace 32 p.keyBytes (fed ops)) := by
  obtain ⟨b, l⟩ := keyed_bytes hE hp hk hs hd
  rw [b, h32] at right
  have hkl : p.keyBytes.length ≤ 32 := by rw [hp.valid.keyBytes_length]; exact hp.valid.kl
  rcases keyed_collision (n' := 0) (key_ne hp hk) (key_ne hp hk) hkl hkl l (by omega) hlen hlen
    (Except.ok.inj right) with ⟨e1, _, _⟩ | c
  · exact absurd ((rowsAfter_zero ops 0).mp e1) hb
  · exact c

/-- A keyed state of a release build, fed 1500 bytes at once. -/
example : ∃ s s' d, Reaches plain keyed1 [.update bytes1500] s ∧ s.finalize plain = .ok (s', d) ∧
    (d.asBytes = .ok (Spec.Sp.hash 32 keyed1.keyBytes (fed [.update bytes1500])) →
      Spec.Collide (keyedTrace 32 keyed1.keyBytes (rowsAfter 0 0 [.update bytes1500]) (fed [.update bytes1500]))
        (Spec.Sp.hashTrace 32 keyed1.keyBytes (fed [.update bytes1500]))) := by
  obtain ⟨s, s', hs, e, e', _⟩ := C30_release_exact plain (by decide) rfl keyed1 keyed1_accepted
    (by decide) [.update bytes1500] (by intro h; cases h)
  have l : (fed [.update bytes1500]).length = 1500 := by simp [fed, length1500]
  have hr : Reaches plain keyed1 [.update bytes1500] s' := ⟨s, hs, e, e'⟩
  rcases (hr.absN (by decide) keyed1_accepted.valid).finalize with ⟨x, hx, _⟩ | ⟨_, hx⟩
  · refine ⟨s', x.1, x.2, hr, hx, C30_release_differs plain (by decide) _ keyed1_accepted _ s' x.1 x.2 hr hx rfl
      (by decide) (by rw [l]; decide) ?_⟩
    rintro ⟨h, _⟩
    rw [length1500] at h
    revert h
    decide
  · obtain ⟨_, h, _⟩ := hx
    cases h

/-! ## C45 -/

/-- C45: a 32-byte digest of a BLAKE2s state and one of an unkeyed BLAKE2sp state. If they are equal, the
BLAKE2s state is the root node written out by hand (the same tree parameters, the last-node flag, no
key, fed the eight leaf digests), or a collision of the compression function occurs. -/
theorem C45_separation (E E' : Env) (hE : E.WF) (hE' : E'.WF)
    (p : Blake2s.Params) (hp : p.Accepted) (ops : List Blake2s.Op) (s s' : Blake2s.State) (d : Hash)
    (hs : Blake2s.Reaches E p ops s) (hd : s.finalize E = .ok (s', d))
    (q : Params) (hq : q.Accepted) (ops' : List Op) (t t' : State) (d' : Hash)
    (ht : Reaches E' q ops' t) (hd' : t.finalize E' = .ok (t', d'))
    (h32 : p.hashLength = 32) (h32' : q.hashLength = 32) (hk' : q.keyLength = 0)
    (hlen : (Spec.keyBlock p.keyBytes ++ Blake2s.fed ops).length < 2 ^ 64)
    (hlen' : (fed ops').length < 2 ^ 64) (equal : d.asBytes = d'.asBytes) :
    (p.values = Spec.Sp.nodeParams 32 0 0 1 ∧ p.keyBytes = [] ∧ lastFlag p.lastNode ops = true ∧
      Blake2s.fed ops = (List.finRange 8).flatMap (Spec.Sp.leaf 32 [] (fed ops'))) ∨
    Spec.Collide (Spec.hashTrace p.values p.keyBytes (lastFlag p.lastNode ops) (Blake2s.fed ops))
      (Spec.Sp.hashTrace 32 [] (fed ops')) := by
  rw [finalize_bytes hE hp hs hd, unkeyed_bytes hE' hq ht hd' hk' hlen', h32'] at equal
  rcases cross_collision (p := p.values) h32 hlen (Except.ok.inj equal) with ⟨e1, e2, e3⟩ | c
  · left
    have hkb : p.keyBytes = [] := by
      rw [← List.length_eq_zero_iff, hp.valid.keyBytes_length]
      exact congrArg (fun v : Spec.Params => v.keyLength.toNat) e1
    rw [hkb] at e3
    exact ⟨e1, hkb, e2, e3⟩
  · exact .inr c

example : ∃ s s' t t' d d', Blake2s.Reaches releasePlain Blake2s.Params.new [.update bytes150] s ∧
    s.finalize releasePlain = .ok (s', d) ∧ Reaches debugAvx2 Params.new [.update bytes150] t ∧
    t.finalize debugAvx2 = .ok (t', d') ∧
    (d.asBytes = d'.asBytes → Spec.Collide
      (Spec.hashTrace Blake2s.Params.new.values [] false (Blake2s.fed [.update bytes150]))
      (Spec.Sp.hashTrace 32 [] (fed [.update bytes150]))) := by
  have l : (fed [.update bytes150]).length = 150 := by simp [fed, length150]
  have l' : (Blake2s.fed [.update bytes150]).length = 150 := by simp [Blake2s.fed, length150]
  have kb : Blake2s.Params.new.keyBytes = [] := rfl
  obtain ⟨s, s', d, hs, hd⟩ := Blake2s.finalizes releasePlain (by decide) Blake2s.Params.new ⟨[], rfl⟩
    [.update bytes150] (by rw [l']; decide)
  obtain ⟨t, t', d', ht, hd', -⟩ := finalizes debugAvx2 (by decide) Params.new ⟨[], rfl⟩ [.update bytes150]
    ⟨by rw [length150]; decide, trivial⟩ (by rw [l]; decide)
  refine ⟨s, s', t, t', d, d', hs, hd, ht, hd', fun h => ?_⟩
  rcases C45_separation releasePlain debugAvx2 (by decide) (by decide) _ ⟨[], rfl⟩ _ s s' d hs hd _ ⟨[], rfl⟩ _ t t' d'
    ht hd' rfl rfl rfl (by rw [kb, List.length_append, l']; decide) (by rw [l]; decide) h with ⟨_, _, h, _⟩ | h
  · cases h
  · exact h

/-- C45 for digests of any length. -/
theorem C45_any_length (E E' : Env) (hE : E.WF) (hE' : E'.WF)
    (p : Blake2s.Params) (hp : p.Accepted) (ops : List Blake2s.Op) (s s' : Blake2s.State) (d : Hash)
    (hs : Blake2s.Reaches E p ops s) (hd : s.finalize E = .ok (s', d))
    (q : Params) (hq : q.Accepted) (ops' : List Op) (t t' : State) (d' : Hash)
    (ht : Reaches E' q ops' t) (hd' : t.finalize E' = .ok (t', d')) (hk' : q.keyLength = 0)
    (hlen : (Spec.keyBlock p.keyBytes ++ Blake2s.fed ops).length < 2 ^ 64)
    (hlen' : (fed ops').length < 2 ^ 64) (equal : d.asBytes = d'.asBytes) :
    (p.values = Spec.Sp.nodeParams q.hashLength 0 0 1 ∧ p.keyBytes = [] ∧ lastFlag p.lastNode ops = true ∧
      Blake2s.fed ops = (List.finRange 8).flatMap (Spec.Sp.leaf q.hashLength [] (fed ops'))) ∨
    Spec.CollideTo p.hashLength.toNat
      (Spec.hashTrace p.values p.keyBytes (lastFlag p.lastNode ops) (Blake2s.fed ops))
      (Spec.Sp.hashTrace q.hashLength [] (fed ops')) := by
  rw [finalize_bytes hE hp hs hd, unkeyed_bytes hE' hq ht hd' hk' hlen'] at equal
  rcases cross_near (p := p.values) (key' := []) (n := 0) hp.valid.hl.2 hq.valid.hl.2 hlen
    (Except.ok.inj equal) with ⟨e1, e2, e3⟩ | c
  · left
    have hkb : p.keyBytes = [] := by
      rw [← List.length_eq_zero_iff, hp.valid.keyBytes_length]
      exact congrArg (fun v : Spec.Params => v.keyLength.toNat) e1
    rw [hkb] at e3
    exact ⟨e1, hkb, e2, e3⟩
  · exact .inr c

/-- One-byte digests: BLAKE2s of `[0]` and BLAKE2sp of `[190]`. -/
example (E E' : Env) (hE : E.WF) (hE' : E'.WF) :
    Spec.CollideTo 1 (Spec.hashTrace Blake2s.byteParams.values [] false [0]) (Spec.Sp.hashTrace 1 [] [190]) := by
  obtain ⟨s, s', d, hs, hd⟩ := Blake2s.finalizes E hE _ Blake2s.byteParams_accepted [.update [0]] (by decide)
  obtain ⟨t, t', d', ht, hd', h'⟩ := finalizes E' hE' _ byteParams_accepted [.update [190]] ⟨by decide, trivial⟩
    (by decide)
  have h : d.asBytes = .ok [0xb6] := by rw [Blake2s.byte_digest hE hs hd]; decide +kernel
  rcases C45_any_length E E' hE hE' _ Blake2s.byteParams_accepted _ s s' d hs hd _ byteParams_accepted _ t t' d' ht hd'
    rfl (by decide) (by decide) (by
      rw [h, h']
      exact congrArg Except.ok byte_digests.2.2.2.2.2.1.symm) with ⟨_, _, h, _⟩ | h
  · cases h
  · exact h

/-- The second half of a key block is zero. -/
theorem zero_second {key msg a b rest : List U8} (hk : key.length ≤ 32) (ha : a.length = 32)
    (hb : b.length = 32) (e : key ++ List.replicate (64 - key.length) 0 ++ msg = a ++ (b ++ rest)) :
    b = List.replicate 32 0 := by
  rw [show 64 - key.length = (32 - key.length) + 32 by omega, ← List.replicate_append_replicate,
    ← List.append_assoc, List.append_assoc] at e
  obtain ⟨-, e⟩ := List.append_inj e (by rw [List.length_append, List.length_replicate, ha]; omega)
  exact (List.append_inj e (by rw [List.length_replicate, hb])).1.symm

/-- C45 for keyed BLAKE2sp states, right or wrong (C30), and digests of any length: no BLAKE2s
computation has the same digest, unless the second leaf gives 32 zero bytes or the digests come from a
collision. (The root of a keyed tree records the length of the key but is not fed the key block, which
every keyed BLAKE2s computation starts with.) -/
theorem C45_keyed (E E' : Env) (hE : E.WF) (hE' : E'.WF)
    (p : Blake2s.Params) (hp : p.Accepted) (ops : List Blake2s.Op) (s s' : Blake2s.State) (d : Hash)
    (hs : Blake2s.Reaches E p ops s) (hd : s.finalize E = .ok (s', d))
    (q : Params) (hq : q.Accepted) (ops' : List Op) (t t' : State) (d' : Hash)
    (ht : Reaches E' q ops' t) (hd' : t.finalize E' = .ok (t', d')) (hk' : q.keyLength ≠ 0)
    (hlen : (Spec.keyBlock p.keyBytes ++ Blake2s.fed ops).length < 2 ^ 64)
    (equal : d.asBytes = d'.asBytes) :
    keyedLeaf q.hashLength q.keyBytes (rowsAfter 0 0 ops') (fed ops') 1 = List.replicate 32 0 ∨
    Spec.CollideTo p.hashLength.toNat
      (Spec.hashTrace p.values p.keyBytes (lastFlag p.lastNode ops) (Blake2s.fed ops))
      (keyedTrace q.hashLength q.keyBytes (rowsAfter 0 0 ops') (fed ops')) := by
  obtain ⟨b, _⟩ := keyed_bytes hE' hq hk' ht hd'
  rw [finalize_bytes hE hp hs hd, b] at equal
  rcases cross_near (p := p.values) hp.valid.hl.2 hq.valid.hl.2 hlen (Except.ok.inj equal) with
    ⟨e1, _, e3⟩ | c
  · left
    have hkq := hq.valid.keyBytes_length
    have hkl : p.keyBytes.length = q.keyBytes.length := by
      rw [hp.valid.keyBytes_length]
      have := congrArg (fun v : Spec.Params => v.keyLength.toNat) e1
      refine this.trans ?_
      have h := hq.valid.kl
      show (BitVec.ofNat 8 q.keyBytes.length).toNat = _
      rw [BitVec.toNat_ofNat, hkq, Nat.mod_eq_of_lt]
      exact q.keyLength.isLt
    have h32 : p.keyBytes.length ≤ 32 := by rw [hkl, hkq]; exact hq.valid.kl
    have h0 : p.keyBytes ≠ [] := by
      intro h
      rw [h] at hkl
      exact key_ne hq hk' (List.length_eq_zero_iff.mp hkl.symm)
    unfold Spec.keyBlock at e3
    rw [if_neg h0, Spec.Sp.leaves_eight] at e3
    exact zero_second h32 (keyedLeaf_length ..) (keyedLeaf_length ..) e3
  · exact .inr c

/-- One-byte digests: BLAKE2s of `[0]`, and BLAKE2sp of `[18]` with the key `[1]`. -/
example (E E' : Env) (hE : E.WF) (hE' : E'.WF) :
    keyedLeaf 1 [1] 0 [18] 1 = List.replicate 32 0 ∨
    Spec.CollideTo 1 (Spec.hashTrace Blake2s.byteParams.values [] false [0]) (keyedTrace 1 [1] 0 [18]) := by
  obtain ⟨s, s', d, hs, hd⟩ := Blake2s.finalizes E hE _ Blake2s.byteParams_accepted [.update [0]] (by decide)
  obtain ⟨t, t', d', ht, hd', h'⟩ := finalizes E' hE' _ byteKeyed_accepted [.update [18]] ⟨by decide, trivial⟩
    (by decide)
  have h : d.asBytes = .ok [0xb6] := by rw [Blake2s.byte_digest hE hs hd]; decide +kernel
  have kb : byteKeyed.keyBytes = [1] := by decide
  have r : rowsAfter 0 0 [.update [18]] = 0 := rfl
  have := C45_keyed E E' hE hE' _ Blake2s.byteParams_accepted _ s s' d hs hd _ byteKeyed_accepted _ t t' d' ht hd'
    (by decide) (by decide) (by
      rw [h, h', kb]
      exact congrArg Except.ok byte_digests.2.2.2.2.2.2.symm)
  rwa [kb, r] at this

/-- C45 for the one-shot functions: `blake2s` and `blake2sp` never return the same hash, for any two
messages, unless a collision of the compression function occurs. -/
theorem C45_one_shot (E E' : Env) (hE : E.WF) (hE' : E'.WF) (a b : List U8) (ha : a.length < 2 ^ 64)
    (hb : b.length < 2 ^ 64) (equal : blake2s E a = blake2sp E' b) :
    Spec.Collide (Spec.hashTrace (Spec.sequential 32 0) [] false a) (Spec.Sp.hashTrace 32 [] b) := by
  obtain ⟨d, e, hd⟩ := C01_one_shot E hE a (fun _ => ha)
  obtain ⟨d', e', hd'⟩ := blake2sp_bytes E' hE' b hb
  rw [e, e'] at equal
  cases equal
  rw [hd] at hd'
  rcases cross_collision (p := Spec.sequential 32 0) (key := []) rfl ha (Except.ok.inj hd') with
    ⟨e1, _⟩ | c
  · exact absurd (congrArg Spec.Params.fanout e1) (by decide)
  · exact c

example (h : blake2s debugAvx2 bytes150 = blake2sp releasePlain bytes150) :
    Spec.Collide (Spec.hashTrace (Spec.sequential 32 0) [] false bytes150) (Spec.Sp.hashTrace 32 [] bytes150) :=
  C45_one_shot debugAvx2 releasePlain (by decide) (by decide) _ _ (by rw [length150]; decide)
    (by rw [length150]; decide) h

/-- A BLAKE2s state that is the root node of BLAKE2sp written out by hand: the first alternative of
`C45_separation` does occur. -/
example (E : Env) (hE : E.WF) (b : List U8) : ∃ p : Blake2s.Params, p.Accepted ∧
    p.values = Spec.Sp.nodeParams 32 0 0 1 ∧ p.lastNode = true ∧ p.keyBytes = [] ∧
    ∃ d, hashOne E p ((List.finRange 8).flatMap (Spec.Sp.leaf 32 [] b)) = .ok d ∧
      d.asBytes = .ok (Spec.Sp.blake2sp b) := by
  have v := nodeP_valid default_valid 0 1 true (by decide)
  have hkb : (nodeP Params.default 0 1 true).keyBytes = [] := nodeP_keyBytes default_valid 0 1 true
  have hv : (nodeP Params.default 0 1 true).values = Spec.Sp.nodeParams 32 0 0 1 := rfl
  have hln : (nodeP Params.default 0 1 true).lastNode = true := rfl
  refine ⟨nodeP Params.default 0 1 true, v.accepted, hv, hln, hkb, ?_⟩
  obtain ⟨d, e, hd⟩ := C02_params E hE (nodeP Params.default 0 1 true) v.accepted
    ((List.finRange 8).flatMap (Spec.Sp.leaf 32 [] b)) (fun _ => by rw [Spec.Sp.leaves_length]; decide)
  refine ⟨d, e, hd.trans ?_⟩
  rw [hkb, hv, hln]
  unfold Spec.Sp.blake2sp Spec.Sp.hash Spec.hash
  rw [show Spec.keyBlock [] = [] from rfl, List.nil_append]
  rfl

end Sp
end Blake2s
