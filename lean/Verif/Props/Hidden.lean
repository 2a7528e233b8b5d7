import Verif.Hidden
import Verif.Props.Many
import Verif.Props.Sp
import Verif.Proofs.Collision
/-!
# What a `Hash` holds and what it shows (C57)

`Spec.uncut`, `Hash.shown` and `Hash.hidden` are in Verif/Hidden.lean.
-/

namespace Blake2s

/-- C57: a digest is the beginning of the uncut one. -/
theorem C57_cut (p : Spec.Params) (hp : p.digestLength.toNat ≤ 32) (key : List U8) (lastNode : Bool) (msg : List U8) :
    Spec.hash p key lastNode msg = (Spec.uncut p key lastNode msg).take p.digestLength.toNat :=
  (digestBytes_take _ _ hp).symm

example : Spec.hash (Spec.sequential 3 0) [] false [1, 2] = (Spec.uncut (Spec.sequential 3 0) [] false [1, 2]).take 3 :=
  C57_cut _ (by decide) _ _ _

/-- C57: the uncut bytes determine the whole chaining value. -/
theorem C57_determines (h h' : Fin 8 → Spec.Word) (e : Spec.digestBytes h 32 = Spec.digestBytes h' 32) : h = h' :=
  Spec.digest32_inj e

example : (fun _ => 5 : Fin 8 → Spec.Word) = fun i => i.val.toUInt32.toBitVec * 0 + 5 :=
  C57_determines _ _ (by decide)

/-- C57: what `finalize` returns holds all bytes of the last chaining value, however short the digest; the digest is
what is shown. -/
theorem C57_finalize (E : Env) (hE : E.WF) (p : Params) (hp : p.Accepted) (ops : List Op) (s : State)
    (hs : Reaches E p ops s) (s' : State) (d : Hash) (h : s.finalize E = .ok (s', d)) :
    d.shown = Spec.hash p.values p.keyBytes (lastFlag p.lastNode ops) (fed ops) ∧
    d.shown ++ d.hidden = Spec.uncut p.values p.keyBytes (lastFlag p.lastNode ops) (fed ops) := by
  have v := hp.valid
  obtain ⟨s1, d1, e, _, hb, hl, _⟩ := finalize_ok (hs.rep hE v)
  rw [h] at e
  cases e
  rw [after_hashLength] at hl
  rw [after_h0, after_lastNode] at hb
  unfold Hash.shown Hash.hidden
  rw [List.take_append_drop, hb, hl]
  exact ⟨digestBytes_take _ _ v.hl.2, rfl⟩

/-- A digest of one byte. -/
def shortParams : Params := { Params.new with hashLength := 1 }

theorem shortParams_accepted : shortParams.Accepted := ⟨[.hashLength 1], rfl⟩

example : ∃ s s' d, Reaches debugAvx2 shortParams [.update [1]] s ∧ s.finalize debugAvx2 = .ok (s', d) ∧
    d.shown.length = 1 ∧ d.shown ++ d.hidden = Spec.uncut shortParams.values [] false [1] := by
  obtain ⟨s, h⟩ := reaches debugAvx2 (by decide) shortParams shortParams_accepted [.update [1]] (by decide)
  obtain ⟨s', d, e, _⟩ := finalize_ok (h.rep (by decide) shortParams_accepted.valid)
  obtain ⟨h1, h2⟩ := C57_finalize debugAvx2 (by decide) _ shortParams_accepted _ s h s' d e
  refine ⟨s, s', d, h, e, ?_, h2⟩
  rw [h1]
  exact digestBytes_length _ 1 (by decide)

/-- The 31 bytes that are not shown. -/
example : (hashOne releasePlain shortParams [1]).map (fun d => (d.shown, d.hidden)) = .ok ([4],
    [193, 214, 228, 1, 163, 158, 87, 26, 84, 36, 10, 253, 216, 249, 20, 13, 74, 212, 55, 188, 219, 26, 171, 197, 44,
      239, 226, 135, 201, 239, 146]) := by
  decide +kernel

/-- C57: likewise `finalize8`. -/
theorem C57_finalize8 (E : Env) (hE : E.WF) (p : Fin 8 → Params) (hp : ∀ i, (p i).Accepted)
    (before : Fin 8 → List Op) (st st' : Vector State 8) (hst : ∀ i : Fin 8, Reaches E (p i) (before i) st[i])
    (hs : Vector Hash 8) (h : finalize8 E st = .ok (st', hs)) (i : Fin 8) :
    hs[i].shown ++ hs[i].hidden =
      Spec.uncut (p i).values (p i).keyBytes (lastFlag (p i).lastNode (before i)) (fed (before i)) := by
  obtain ⟨a, b, e, k⟩ := C12_finalize8 E hE p hp before st hst
  rw [h] at e
  cases e
  obtain ⟨⟨s, hf⟩, _⟩ := k i
  exact (C57_finalize E hE (p i) (hp i) (before i) st[i] (hst i) s hs[i] hf).2

example : ∃ st st' hs, (∀ i : Fin 8, Reaches debugAvx2 (laneParams i) (laneOps i) st[i]) ∧
    finalize8 debugAvx2 st = .ok (st', hs) ∧
    hs[(5 : Fin 8)].shown ++ hs[(5 : Fin 8)].hidden = Spec.uncut (laneParams 5).values (laneParams 5).keyBytes
      (lastFlag (laneParams 5).lastNode (laneOps 5)) (fed (laneOps 5)) := by
  obtain ⟨st, hst⟩ := reaches_lanes debugAvx2 (by decide)
  obtain ⟨st', hs, e, _⟩ := C12_finalize8 debugAvx2 (by decide) laneParams laneParams_accepted laneOps st hst
  exact ⟨st, st', hs, hst, e,
    C57_finalize8 debugAvx2 (by decide) laneParams laneParams_accepted laneOps st st' hst hs e 5⟩

theorem hashOne_holds {E : Env} (hE : E.WF) {p : Params} (hp : p.Accepted) {input : List U8} {d : Hash}
    (h : hashOne E p input = .ok d) : d.shown ++ d.hidden = Spec.uncut p.values p.keyBytes p.lastNode input := by
  have v := hp.valid
  rcases (hashOne_ends E hE p v input) with ⟨a, e, hd⟩ | ⟨e, _⟩
  · rw [h] at e
    cases e
    unfold Hash.shown Hash.hidden
    rw [List.take_append_drop]
    exact hd.1.1
  · rw [h] at e
    cases e

/-- C57: likewise `hash8`. -/
theorem C57_hash8 (E : Env) (hE : E.WF) (p : Vector Params 8) (hp : ∀ i : Fin 8, p[i].Accepted)
    (input : Vector (List U8) 8) (hfit : ∀ i : Fin 8, Fits E p[i] input[i].length) (hs : Vector Hash 8)
    (h : hash8 E p input = .ok hs) (i : Fin 8) :
    hs[i].shown ++ hs[i].hidden = Spec.uncut p[i].values [] p[i].lastNode input[i] := by
  have hk : ∀ i : Fin 8, p[i].keyLength = 0 := by
    intro i
    apply Classical.byContradiction
    intro hk
    rw [C15_refuses E p input i hk] at h
    cases h
  obtain ⟨hs', e, k⟩ := C15_hash8 E hE p hp hk input hfit
  rw [h] at e
  cases e
  have := hashOne_holds hE (hp i) (k i).1
  rwa [show p[i].keyBytes = [] by unfold Params.keyBytes; rw [hk i]; rfl] at this

example : ∃ hs, hash8 debugAvx2 (.replicate 8 shortParams) (.replicate 8 [1, 2]) = .ok hs ∧
    hs[(3 : Fin 8)].shown ++ hs[(3 : Fin 8)].hidden = Spec.uncut shortParams.values [] false [1, 2] := by
  have hp : ∀ i : Fin 8, (Vector.replicate 8 shortParams)[i].Accepted := fun i => by
    simpa using shortParams_accepted
  have hf : ∀ i : Fin 8, Fits debugAvx2 (Vector.replicate 8 shortParams)[i]
      (Vector.replicate 8 ([1, 2] : List U8))[i].length := fun i => by
    simp [Fits, shortParams, Params.new, Params.default]
  obtain ⟨hs, e, _⟩ := C15_hash8 debugAvx2 (by decide) _ hp
    (fun i => by simp [shortParams, Params.new, Params.default]) _ hf
  refine ⟨hs, e, ?_⟩
  simpa [show shortParams.lastNode = false from rfl] using C57_hash8 debugAvx2 (by decide) _ hp _ hf hs e 3

/-- C57: likewise `hash4_exact` without a key. -/
theorem C57_hash4_exact (E : Env) (hE : E.WF) (p : Params) (hp : p.Accepted) (hk : p.keyLength = 0)
    (input : Vector (List U8) 4) (len : Nat) (hl : ExactLengths input len) (hfit : Fits E p len) :
    ∃ hs, hash4Exact E p input = .ok hs ∧ ∀ i : Fin 4,
      hs[i].shown ++ hs[i].hidden = Spec.uncut p.values [] p.lastNode input[i] := by
  obtain ⟨hs, e, k⟩ := C13_hash4_exact E hE p hp hk input len hl hfit
  refine ⟨hs, e, fun i => ?_⟩
  have := hashOne_holds hE hp (k i).1
  rwa [show p.keyBytes = [] by simp [Params.keyBytes, hk]] at this

example : ∃ hs, hash4Exact debugAvx2 shortParams (.replicate 4 (List.replicate 128 5)) = .ok hs ∧ ∀ i : Fin 4,
    hs[i].shown ++ hs[i].hidden =
      Spec.uncut shortParams.values [] false (Vector.replicate 4 (List.replicate 128 (5 : U8)))[i] :=
  C57_hash4_exact debugAvx2 (by decide) _ shortParams_accepted rfl _ 128 ⟨fun i => by simp, by decide, by decide⟩
    (fun _ => by decide)

/-- C57: likewise `hash8_exact` without a key. -/
theorem C57_hash8_exact (E : Env) (hE : E.WF) (p : Params) (hp : p.Accepted) (hk : p.keyLength = 0)
    (input : Vector (List U8) 8) (len : Nat) (hl : ExactLengths input len) (hfit : Fits E p len) :
    ∃ hs, hash8Exact E p input = .ok hs ∧ ∀ i : Fin 8,
      hs[i].shown ++ hs[i].hidden = Spec.uncut p.values [] p.lastNode input[i] := by
  obtain ⟨hs, e, k⟩ := C14_hash8_exact E hE p hp hk input len hl hfit
  refine ⟨hs, e, fun i => ?_⟩
  have := hashOne_holds hE hp (k i).1
  rwa [show p.keyBytes = [] by simp [Params.keyBytes, hk]] at this

example : ∃ hs, hash8Exact debugAvx2 shortParams (.replicate 8 (List.replicate 128 5)) = .ok hs ∧ ∀ i : Fin 8,
    hs[i].shown ++ hs[i].hidden =
      Spec.uncut shortParams.values [] false (Vector.replicate 8 (List.replicate 128 (5 : U8)))[i] :=
  C57_hash8_exact debugAvx2 (by decide) _ shortParams_accepted rfl _ 128 ⟨fun i => by simp, by decide, by decide⟩
    (fun _ => by decide)

/-- C57: likewise `finalize` of `blake2sp`, without a key (or with a key and short input, see C30). -/
theorem C57_sp_finalize (E : Env) (hE : E.WF) (p : Sp.Params) (hp : p.Accepted) (ops : List Sp.Op)
    (hk : p.keyLength ≠ 0 → Sp.AllBuffered 0 ops) (s s' : Sp.State) (hs : Sp.Reaches E p ops s)
    (d : Hash) (h : s.finalize E = .ok (s', d)) :
    d.shown = Spec.Sp.hash p.hashLength p.keyBytes (Sp.fed ops) ∧
    d.shown ++ d.hidden = Spec.Sp.uncut p.hashLength p.keyBytes (Sp.fed ops) := by
  have v := hp.valid
  rcases (hs.abs hE v hk).finalize v with ⟨a, e, _, hd⟩ | ⟨e, _⟩
  · rw [h] at e
    cases e
    unfold Hash.shown Hash.hidden
    have ha := hd.asBytes v
    rw [asBytes_ok d (by rw [hd.2]; exact v.hl.2)] at ha
    refine ⟨Except.ok.inj ha, ?_⟩
    rw [List.take_append_drop, hd.1]
    unfold Spec.Sp.uncut
    rw [v.keyLength_eq]
  · rw [h] at e
    cases e

example : ∃ s s' d, Sp.Reaches debugAvx2 Sp.keyedParams Sp.shortOps s ∧ s.finalize debugAvx2 = .ok (s', d) ∧
    d.shown ++ d.hidden = Spec.Sp.uncut Sp.keyedParams.hashLength [1, 2, 3] (Sp.fed Sp.shortOps) := by
  obtain ⟨s, hs⟩ := Sp.reaches_shortOps debugAvx2 (by decide)
  have v := Sp.keyedParams_accepted.valid
  obtain ⟨x, e, _⟩ := ((hs.abs (by decide) v fun _ => Sp.shortOps_buffered).finalize v).elim
    (Sp.not_bad_fed v (fun _ => by rw [Sp.length_shortOps]; decide) fun _ => Sp.shortOps_buffered)
  exact ⟨s, x.1, x.2, hs, e, (C57_sp_finalize debugAvx2 (by decide) _ Sp.keyedParams_accepted Sp.shortOps
    (fun _ => Sp.shortOps_buffered) s x.1 hs x.2 e).2⟩

/-- C57: no function on a `Hash` lets the hidden bytes be seen: results, panics and traces (branches and addresses, see
C48) are the same for two `Hash`es that show the same. -/
theorem C57_hidden_unused (h g : Hash) (hl : h.len = g.len) (hs : h.shown = g.shown) :
    h.asBytes = g.asBytes ∧ h.toHex = g.toHex ∧ h.debug = g.debug ∧
    (∀ k : Hash, h.eqHash k = g.eqHash k ∧ k.eqHash h = k.eqHash g) ∧ (∀ b, h.eqSlice b = g.eqSlice b) ∧
    h.asBytesT = g.asBytesT ∧ h.toHexT = g.toHexT ∧ h.debugT = g.debugT ∧
    (∀ k : Hash, h.eqHashT k = g.eqHashT k ∧ k.eqHashT h = k.eqHashT g) ∧ ∀ b, h.eqSliceT b = g.eqSliceT b := by
  have e0 : sliceTo h.bytes.toList h.len.toNat = sliceTo g.bytes.toList g.len.toNat := by
    unfold Hash.shown at hs
    unfold sliceTo
    rw [hs, hl]
    simp
  have e1 : h.asBytes = g.asBytes := e0
  have e2 : h.asBytesT = g.asBytesT := by
    unfold Hash.asBytesT sliceToT
    rw [e0, hl]
    simp
  refine ⟨e1, ?_, ?_, fun k => ⟨?_, ?_⟩, fun b => ?_, e2, ?_, ?_, fun k => ⟨?_, ?_⟩, fun b => ?_⟩
  all_goals
    simp only [Hash.toHex, Hash.debug, Hash.eqHash, Hash.eqSlice, Hash.toHexT, Hash.debugT, Hash.eqHashT,
      Hash.eqSliceT, e1, e2]

example (g : Hash) (hg : g = { bytes := (Vector.replicate 32 7).set 9 1, len := 4 }) :
    g.toHex = ({ bytes := Vector.replicate 32 7, len := 4 } : Hash).toHex :=
  (C57_hidden_unused g { bytes := Vector.replicate 32 7, len := 4 } (by rw [hg]) (by rw [hg]; decide)).2.1

/-- C57: two `Hash`es that hold different bytes can be equal. -/
theorem C57_equal_holding_different : ∃ a b : Hash, a ≠ b ∧ a.eqHash b = .ok true :=
  ⟨{ bytes := Vector.replicate 32 7, len := 4 }, { bytes := (Vector.replicate 32 7).set 9 1, len := 4 }, by decide,
    by decide⟩

end Blake2s
