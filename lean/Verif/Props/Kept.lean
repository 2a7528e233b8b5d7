import Verif.Proofs.KeptFacts
import Verif.Props.Cases
/-!
# What stays in memory of keys and input (C55)

`Kept.after`, `Kept.waiting`, `Kept.lastBlock` and `Kept.padded` are in Verif/Kept.lean. The bytes hashed by a `State`
are `Spec.keyBlock p.keyBytes ++ fed ops`: the key block, if there is a key, and what was fed.
-/

namespace Blake2s

/-- C55: the buffer of a `State`, every place of it, after every history: the bytes that wait and the remains of
earlier ones. -/
theorem C55_exact (E : Env) (hE : E.WF) (p : Params) (hp : p.Accepted) (ops : List Op) (s : State)
    (hs : Reaches E p ops s) (i : Fin 64) :
    s.buf[i] = Kept.after 0 0 i (.update (Spec.keyBlock p.keyBytes) :: ops) := by
  rw [← s.at_eq i]
  exact reaches_at hE hp.valid hs i i.isLt

/-- 150 bytes fed at once to a state without a key, and then three more: the second block (bytes 64 to 127) never was
in the buffer, the third (bytes 128 to 152) is. -/
example : ∃ s, Reaches debugAvx2 saltedParams [.update bytes150, .update [7, 8, 9]] s ∧
    s.buf[(0 : Fin 64)] = 128 ∧ s.buf[(21 : Fin 64)] = 149 ∧ s.buf[(24 : Fin 64)] = 9 ∧ s.buf[(25 : Fin 64)] = 0 := by
  obtain ⟨s, h⟩ := reaches debugAvx2 (by decide) saltedParams saltedParams_accepted
    [.update bytes150, .update [7, 8, 9]] (by simp [fed, length150])
  have e := C55_exact debugAvx2 (by decide) saltedParams saltedParams_accepted _ s h
  exact ⟨s, h, by rw [e 0]; decide +kernel, by rw [e 21]; decide +kernel, by rw [e 24]; decide +kernel,
    by rw [e 25]; decide +kernel⟩

/-- C55: nothing else gets into the buffer: each place is zero or holds one of the bytes that were to be hashed, one
that has this place in its block. -/
theorem C55_remains (E : Env) (hE : E.WF) (p : Params) (hp : p.Accepted) (ops : List Op) (s : State)
    (hs : Reaches E p ops s) (i : Fin 64) :
    s.buf[i] = 0 ∨ ∃ q, ∃ hq : q < (Spec.keyBlock p.keyBytes ++ fed ops).length,
      q % 64 = i ∧ s.buf[i] = (Spec.keyBlock p.keyBytes ++ fed ops)[q] := by
  have e := C55_exact E hE p hp ops s hs i
  have := Kept.Remains.after i.isLt (.update (Spec.keyBlock p.keyBytes) :: ops) (data := []) (b := 0) (.inl rfl)
  rcases this with h | ⟨q, h1, h2, h3⟩
  · exact .inl (e.trans h)
  · refine .inr ⟨q, h1, h2, e.trans ?_⟩
    rw [List.getD_eq_getElem?_getD, List.getElem?_eq_getElem h1] at h3
    exact h3

example : ∃ s, Reaches debugAvx2 keyedParams someOps s ∧ ∀ i : Fin 64, s.buf[i] = 0 ∨
    ∃ q, ∃ hq : q < (Spec.keyBlock keyedParams.keyBytes ++ fed someOps).length,
      q % 64 = i ∧ s.buf[i] = (Spec.keyBlock keyedParams.keyBytes ++ fed someOps)[q] := by
  obtain ⟨s, h⟩ := reaches_someOps debugAvx2 (by decide)
  exact ⟨s, h, C55_remains debugAvx2 (by decide) keyedParams keyedParams_accepted someOps s h⟩

/-- C55: `finalize` erases the remains: after it the buffer holds the last block of what was to be hashed, and
zeros. -/
theorem C55_finalize (E : Env) (hE : E.WF) (p : Params) (hp : p.Accepted) (ops : List Op) (s : State)
    (hs : Reaches E p (ops ++ [.finalize]) s) :
    s.buf.toList = Kept.padded (Kept.lastBlock (Spec.keyBlock p.keyBytes ++ fed ops)) := by
  obtain ⟨s0, hh, h0, h1⟩ := hs
  obtain ⟨s1, h1, h2, e1, e2⟩ := run_snoc h1
  have r := Reaches.rep hE hp.valid ⟨s0, h1, h0, e1⟩
  unfold State.run at e2
  cases e : s1.finalize E with
  | error f => rw [e] at e2; cases e2
  | ok x =>
    rw [e] at e2
    cases e2
    exact r.finalized e

/-- C55: in particular it erases the key from the buffer of a state that has been fed anything. -/
theorem C55_finalize_erases_key (E : Env) (hE : E.WF) (p : Params) (hp : p.Accepted) (hk : p.keyLength ≠ 0)
    (ops : List Op) (hf : fed ops ≠ []) (s : State) (hs : Reaches E p (ops ++ [.finalize]) s) :
    s.buf.toList = Kept.padded (Kept.lastBlock (fed ops)) := by
  rw [C55_finalize E hE p hp ops s hs, Kept.lastBlock_append ?_ hf]
  rw [keyBlock_length' hp.valid, if_neg hk]

example : ∃ s, Reaches debugAvx2 keyedParams (someOps ++ [.finalize]) s ∧
    s.buf.toList = bytes150.drop 106 ++ List.replicate 20 0 := by
  obtain ⟨s, h⟩ := reaches debugAvx2 (by decide) keyedParams keyedParams_accepted (someOps ++ [.finalize]) (by
    rw [fed_append, fed_someOps]; simp [fed, length150])
  refine ⟨s, h, (C55_finalize_erases_key debugAvx2 (by decide) keyedParams keyedParams_accepted (by decide) someOps
    (by rw [fed_someOps]; decide) s h).trans ?_⟩
  rw [fed_someOps]
  decide +kernel

/-- C55: without `finalize` the key may stay. Whatever is fed to a new keyed state in one call, however much, only
as many bytes of the key are overwritten as wait in the buffer. -/
theorem C55_key_remains (E : Env) (hE : E.WF) (p : Params) (hp : p.Accepted) (hk : p.keyLength ≠ 0)
    (input : List U8) (hi : input ≠ []) (s : State) (hs : Reaches E p [.update input] s) :
    s.buf.toList = Kept.lastBlock input ++ (Kept.padded p.keyBytes).drop (Kept.lastBlock input).length := by
  have v := hp.valid
  have hkl : p.keyBytes.length ≤ 32 := by rw [v.keyBytes_length]; exact v.kl
  have hpl := Kept.padded_length (b := p.keyBytes) (by omega)
  have hll : (Kept.lastBlock input).length ≤ 64 := by rw [Kept.lastBlock_length]; exact Kept.waiting_le _
  refine State.buf_eq (by rw [List.length_append, List.length_drop, hpl]; omega) fun i h => ?_
  rw [reaches_at hE v hs i h]
  have h64 : (Spec.keyBlock p.keyBytes).length = 64 := by rw [keyBlock_length' v, if_neg hk]
  rw [Kept.after, Kept.after, Kept.after, h64, Kept.place_zero _ (by omega), keyBlock_getD,
    show 0 + 64 = 64 from rfl, Kept.place_block hi _ h]
  split
  · rename_i hlt
    rw [Kept.append_getD_left hlt]
  · rename_i hge
    rw [Kept.append_getD_right (by omega), Kept.drop_getD, Kept.padded_getD]
    congr 1
    omega

/-- 31 of the 32 bytes of a key are still there after feeding a whole number of blocks and one byte, be it 65 bytes or
gigabytes. -/
example (E : Env) (hE : E.WF) (key : List U8) (hkey : key.length = 32) (p : Params)
    (hp : Params.new.setAll [.key key] = .ok p) (m : Nat) (input : List U8) (hl : input.length = 64 * m + 1)
    (s : State) (hs : Reaches E p [.update input] s) :
    (s.buf.toList.drop 1).take 31 = key.drop 1 := by
  have hp' : p.keyBytes = key ∧ p.keyLength ≠ 0 := by
    have e : Params.new.set (.key key) = .ok p := by
      cases h : Params.new.set (.key key) with
      | error f => rw [Params.setAll, h] at hp; cases hp
      | ok q => rw [Params.setAll, h] at hp; exact hp
    have e' : Params.new.setKey key = .ok p := e
    rw [setKey_eq, if_pos (by omega)] at e'
    cases e'
    refine ⟨?_, ?_⟩
    · show (padded 32 key).toList.take (BitVec.ofNat 8 key.length).toNat = key
      rw [hkey]
      apply List.ext_getElem
      · simp [hkey]
      · intro i h1 h2
        simp [padded, h2]
    · show BitVec.ofNat 8 key.length ≠ 0
      rw [hkey]; decide
  have hw : (Kept.lastBlock input).length = 1 := by
    rw [Kept.lastBlock_length, hl, Kept.waiting, if_neg (by omega)]; omega
  rw [C55_key_remains E hE p ⟨_, hp⟩ hp'.2 input (by rintro rfl; simp at hl) s hs, hw, hp'.1,
    List.drop_append, hw, List.drop_eq_nil_of_le (by omega), List.nil_append, List.drop_zero, Kept.padded,
    List.drop_append_of_le_length (by omega), List.take_append_of_le_length (by simp; omega),
    List.take_of_length_le (by simp; omega)]

/-- C55: small pieces all go through the buffer. If none is longer than a block, the buffer holds the last 64 bytes
(if there are so many), each at its place; so a key is gone after 64 bytes. -/
theorem C55_small_pieces (E : Env) (hE : E.WF) (p : Params) (hp : p.Accepted) (pieces : List (List U8))
    (hl : ∀ x ∈ pieces, x.length ≤ 64) (s : State) (hs : Reaches E p (pieces.map .update) s) (q : Nat)
    (h1 : q < (Spec.keyBlock p.keyBytes ++ pieces.flatten).length)
    (h2 : (Spec.keyBlock p.keyBytes ++ pieces.flatten).length ≤ q + 64) :
    s.buf[(⟨q % 64, by omega⟩ : Fin 64)] = (Spec.keyBlock p.keyBytes ++ pieces.flatten)[q] := by
  rw [C55_exact E hE p hp _ s hs]
  have hk : (Spec.keyBlock p.keyBytes).length ≤ 64 := by
    rw [keyBlock_length' hp.valid]; split <;> omega
  have := Kept.after_small (i := q % 64) (by omega) (Spec.keyBlock p.keyBytes :: pieces)
    (by intro x hx; rcases List.mem_cons.mp hx with rfl | h
        · exact hk
        · exact hl x h) (data := []) (b := 0) (by simp) q (by simpa using h1) (by simpa using h2) rfl
  rw [List.nil_append, List.getD_eq_getElem?_getD, List.getElem?_eq_getElem (by simpa using h1)] at this
  exact this

example : ∃ s, Reaches debugAvx2 keyedParams ([bytes150.take 40, bytes150.take 60].map .update) s ∧
    s.buf[(0 : Fin 64)] = 24 ∧ s.buf[(35 : Fin 64)] = 59 ∧ s.buf[(36 : Fin 64)] = 36 ∧ s.buf[(40 : Fin 64)] = 0 := by
  have hf : [bytes150.take 40, bytes150.take 60].flatten.length = 100 := by
    simp [length150]
  obtain ⟨s, h⟩ := reaches debugAvx2 (by decide) keyedParams keyedParams_accepted
    ([bytes150.take 40, bytes150.take 60].map .update) (by rw [fed_chunks, hf]; decide)
  have hn : (Spec.keyBlock keyedParams.keyBytes ++ [bytes150.take 40, bytes150.take 60].flatten).length = 164 := by
    rw [List.length_append, hf, show (Spec.keyBlock keyedParams.keyBytes).length = 64 by decide]
  have e := fun q (h1 : q < 164) (h2 : 164 ≤ q + 64) =>
    (C55_small_pieces debugAvx2 (by decide) keyedParams keyedParams_accepted
      [bytes150.take 40, bytes150.take 60] (by simp [length150]) s h q (by omega) (by omega)).trans
      (Option.some.inj ((List.getElem?_eq_getElem (by omega)).symm.trans
        (show _ = some ((Spec.keyBlock keyedParams.keyBytes ++
          [bytes150.take 40, bytes150.take 60].flatten)[q]?.getD 0) by
          rw [List.getElem?_eq_getElem (by omega)]; rfl)))
  exact ⟨s, h, (e 128 (by decide) (by decide)).trans (by decide +kernel),
    (e 163 (by decide) (by decide)).trans (by decide +kernel),
    (e 100 (by decide) (by decide)).trans (by decide +kernel),
    (e 104 (by decide) (by decide)).trans (by decide +kernel)⟩

/-- C55: `update8` leaves eight states exactly as eight separate `update`s do, remains in the buffers included. -/
theorem C55_update8 (E : Env) (hE : E.WF) (p : Fin 8 → Params) (hp : ∀ i, (p i).Accepted)
    (before : Fin 8 → List Op) (st st' : Vector State 8) (hst : ∀ i : Fin 8, Reaches E (p i) (before i) st[i])
    (input : Vector (List U8) 8) (h : update8 E st input = .ok st') (i : Fin 8) :
    st[i].update E input[i] = .ok st'[i] := by
  have rep := fun i => (hst i).rep hE (hp i).valid
  rcases update8_ends _ _ st input rep with ⟨a, e, ra⟩ | ⟨e, _⟩
  · rw [h] at e
    cases e
    obtain ⟨s, es, rs⟩ := (update_ends (rep i) input[i]).elim (by
      obtain ⟨k, w, _⟩ := ra i
      rintro ⟨h1, h2⟩
      have := w.fits h1
      omega)
    rw [es]
    refine congrArg _ (rs.ext (ra i) ?_)
    refine Vector.toList_inj.mp ?_
    rw [update_gives E _ (rep i).le _ s es, update8_gives E st (fun i => (rep i).le) input st' h i]
  · rw [h] at e; cases e

/-- C55: and `finalize8` as eight separate `finalize`s. -/
theorem C55_finalize8 (E : Env) (hE : E.WF) (p : Fin 8 → Params) (hp : ∀ i, (p i).Accepted)
    (before : Fin 8 → List Op) (st st' : Vector State 8) (hst : ∀ i : Fin 8, Reaches E (p i) (before i) st[i])
    (hs : Vector Hash 8) (h : finalize8 E st = .ok (st', hs)) (i : Fin 8) :
    st[i].finalize E = .ok (st'[i], hs[i]) := by
  obtain ⟨a, b, e, k⟩ := finalize8_ok (E := E) st (fun i => by
    obtain ⟨k, w, _⟩ := (hst i).rep hE (hp i).valid
    rw [w.fn]; exact w.sup)
  rw [h] at e
  cases e
  exact k i

example : ∃ st st', (∀ i : Fin 8, Reaches debugAvx2 (laneParams i) (laneOps i) st[i]) ∧
    update8 debugAvx2 st laneInput = .ok st' ∧ ∀ i : Fin 8, st[i].update debugAvx2 laneInput[i] = .ok st'[i] := by
  obtain ⟨st, h⟩ := reaches_lanes debugAvx2 (by decide)
  obtain ⟨st', e, _⟩ := (update8_ends _ _ st laneInput
    (fun i => (h i).rep (by decide) (laneParams_accepted i).valid)).elim (by
      rintro ⟨i, h1, h2⟩
      rw [List.length_append, List.length_append, keyBlock_length' (laneParams_accepted i).valid] at h2
      have := length_laneOps i
      have := length_laneInput i
      split at h2 <;> omega)
  exact ⟨st, st', h, e, C55_update8 debugAvx2 (by decide) laneParams laneParams_accepted laneOps st st' h laneInput e⟩

example : ∃ st st' hs, (∀ i : Fin 8, Reaches debugAvx2 (laneParams i) (laneOps i) st[i]) ∧
    finalize8 debugAvx2 st = .ok (st', hs) ∧
    ∀ i : Fin 8, st[i].finalize debugAvx2 = .ok (st'[i], hs[i]) := by
  obtain ⟨st, h⟩ := reaches_lanes debugAvx2 (by decide)
  obtain ⟨st', hs, e, _⟩ := finalize8_ok (E := debugAvx2) st (fun i => by
    obtain ⟨k, w, _⟩ := (h i).rep (by decide) (laneParams_accepted i).valid
    rw [w.fn]; exact w.sup)
  exact ⟨st, st', hs, h, e,
    C55_finalize8 debugAvx2 (by decide) laneParams laneParams_accepted laneOps st st' h hs e⟩

namespace Sp

/-- C55: a `blake2sp::State` has nine copies of its key, in the buffers of the leaves and of the root, as long as it
lives: no call overwrites or erases them, `finalize` included. -/
theorem C55_sp_key_stays (E : Env) (hE : E.WF) (p : Params) (hp : p.Accepted) (ops : List Op) (s : State)
    (hs : Reaches E p ops s) :
    (∀ i : Fin 8, s.leaves[i].buf.toList = Kept.padded p.keyBytes) ∧ s.root.buf.toList = Kept.padded p.keyBytes := by
  obtain ⟨s0, hh, h0, h1⟩ := hs
  obtain ⟨hl, hr, _⟩ := withParams_bufs hE hp.valid s0 h0
  have u := run_untouched ops h1
  exact ⟨fun i => by rw [u.leaves i]; exact hl i, by rw [u.root]; exact hr⟩

example : ∃ s, Reaches debugAvx2 keyedParams (shortOps ++ [.finalize]) s ∧
    (∀ i : Fin 8, s.leaves[i].buf.toList.take 3 = [1, 2, 3]) ∧ s.root.buf.toList.take 3 = [1, 2, 3] := by
  have v := keyedParams_accepted.valid
  have hs : Short keyedParams 0 (shortOps ++ [.finalize]) := fun _ => by
    simp only [AllBuffered, shortOps, List.cons_append, List.nil_append, length150]
    decide
  obtain ⟨s, e, a⟩ := Abs.new debugAvx2 (by decide) keyedParams v
  obtain ⟨x, hx, _⟩ := (run_ends v (shortOps ++ [.finalize]) a hs).elim (by
    simpa using not_bad_fed v (fun _ => by rw [fed_append, List.length_append, length_shortOps]; decide) hs)
  have h : Reaches debugAvx2 keyedParams (shortOps ++ [.finalize]) x.1 := ⟨s, x.2, e, hx⟩
  obtain ⟨h1, h2⟩ := C55_sp_key_stays debugAvx2 (by decide) keyedParams keyedParams_accepted _ x.1 h
  have hk : (Kept.padded keyedParams.keyBytes).take 3 = [1, 2, 3] := by decide
  exact ⟨x.1, h, fun i => by rw [h1 i]; exact hk, by rw [h2]; exact hk⟩

/-- C55: its own buffer holds zeros and bytes that were fed, each at its place of a row of 512 bytes. -/
theorem C55_sp_remains (E : Env) (hE : E.WF) (p : Params) (hp : p.Accepted) (ops : List Op) (s : State)
    (hs : Reaches E p ops s) (i : Fin 1024) :
    s.buf[i] = 0 ∨ ∃ q, ∃ hq : q < (fed ops).length, q % 512 = i % 512 ∧ s.buf[i] = (fed ops)[q] := by
  obtain ⟨s0, hh, h0, h1⟩ := hs
  obtain ⟨_, _, hb, hl⟩ := withParams_bufs hE hp.valid s0 h0
  have h2 : Partly [] s0 [] := by
    refine ⟨by rw [hl]; decide, 0, rfl, Nat.le_refl _, by rw [hl]; rfl, fun j => .inl ?_⟩
    rw [hb]
    exact zeros_getD 1024 j
  obtain ⟨_, m, _, hm, _, hf⟩ := run_partly ops h2 h1
  rw [List.nil_append] at hm hf
  have hg : s.buf.toList.getD i 0 = s.buf[i] := by
    rw [List.getD_eq_getElem?_getD, List.getElem?_eq_getElem (by simp)]
    simp
  have := hf i
  rw [hg] at this
  rcases this with h | ⟨q, h1, h2, h3⟩
  · exact .inl h
  · refine .inr ⟨q, by omega, h2, ?_⟩
    rw [List.getD_eq_getElem?_getD, List.getElem?_eq_getElem (by omega)] at h3
    exact h3

example : ∃ s, Reaches releasePlain shortParams longOps s ∧ ∀ i : Fin 1024, s.buf[i] = 0 ∨
    ∃ q, ∃ hq : q < (fed longOps).length, q % 512 = i % 512 ∧ s.buf[i] = (fed longOps)[q] := by
  obtain ⟨s, h⟩ := reaches_longOps releasePlain (by decide)
  exact ⟨s, h, C55_sp_remains releasePlain (by decide) shortParams shortParams_accepted longOps s h⟩

/-- C55: `finalize` of a `blake2sp::State` changes nothing of it, so it erases nothing. -/
theorem C55_sp_finalize_keeps (E : Env) (s s' : State) (d : Hash) (h : s.finalize E = .ok (s', d)) :
    s'.buf = s.buf ∧ s'.leaves = s.leaves ∧ s'.root = s.root := by
  rw [finalize_keeps h]
  exact ⟨rfl, rfl, rfl⟩

example : ∃ s s' d, Reaches debugAvx2 keyedParams shortOps s ∧ s.finalize debugAvx2 = .ok (s', d) ∧ s'.buf = s.buf := by
  obtain ⟨s, h⟩ := reaches_shortOps debugAvx2 (by decide)
  obtain ⟨⟨s', d⟩, e, _⟩ := (Abs.finalize keyedParams_accepted.valid
    (h.abs (by decide) keyedParams_accepted.valid (fun _ => shortOps_buffered))).elim (by
      exact not_bad_fed keyedParams_accepted.valid (fun _ => by rw [length_shortOps]; decide)
        (fun _ => shortOps_buffered))
  exact ⟨s, s', d, h, e, (C55_sp_finalize_keeps debugAvx2 s s' d e).1⟩

end Sp

end Blake2s
