import Verif.Proofs.ManyLemmas
import Verif.Proofs.Batch
import Verif.Props.Single
/-!
# Properties of the many-way functions: C11 - C16, C19
-/

namespace Blake2s

/-! ## C11 -/

/-- C11: `update8` on eight reachable states (any parameters, any histories) and eight inputs of any
lengths leaves each state behaving, for all further calls, as if its own input had been passed to
`update`. -/
theorem C11_update8 (E : Env) (hE : E.WF) (p : Fin 8 → Params) (hp : ∀ i, (p i).Accepted)
    (before : Fin 8 → List Op) (st : Vector State 8) (hst : ∀ i : Fin 8, Reaches E (p i) (before i) st[i])
    (input : Vector (List U8) 8)
    (hfit : ∀ i : Fin 8, Fits E (p i) ((fed (before i)).length + input[i].length)) :
    ∃ st', update8 E st input = .ok st' ∧
      ∀ i : Fin 8, ∃ s, st[i].update E input[i] = .ok s ∧
        ∀ after, seen (st'[i].run E after) = seen (s.run E after) := by
  have rep := fun i => (hst i).rep hE (hp i).valid
  have hn : ∀ i : Fin 8, ¬ TooLong E ((Spec.keyBlock (p i).keyBytes ++ fed (before i)) ++ input[i]) := by
    intro i
    rw [List.append_assoc, tooLong_iff_fits (hp i).valid, List.length_append]
    exact fun h => h (hfit i)
  obtain ⟨st', e, h⟩ := (update8_ends _ _ st input rep).elim (fun ⟨i, hi⟩ => hn i hi)
  refine ⟨st', e, fun i => ?_⟩
  obtain ⟨s, es, r⟩ := (update_ends (rep i) input[i]).elim (hn i)
  exact ⟨s, es, run_same rfl (h i) r rfl rfl rfl⟩

example : ∃ st st', (∀ i : Fin 8, Reaches debugAvx2 (laneParams i) (laneOps i) st[i]) ∧
    update8 debugAvx2 st laneInput = .ok st' ∧
    ∀ i : Fin 8, ∃ s, st[i].update debugAvx2 laneInput[i] = .ok s ∧
      ∀ after, seen (st'[i].run debugAvx2 after) = seen (s.run debugAvx2 after) := by
  obtain ⟨st, h⟩ := reaches_lanes debugAvx2 (by decide)
  obtain ⟨st', h'⟩ := C11_update8 debugAvx2 (by decide) laneParams laneParams_accepted laneOps st h laneInput
    fun i => fits_short _ _ (by have := length_laneOps i; have := length_laneInput i; omega)
  exact ⟨st, st', h, h'⟩

/-- C11, panics: `update8` panics (with an arithmetic overflow) exactly when one of the eight separate
updates would. -/
theorem C11_update8_panics (E : Env) (hE : E.WF) (p : Fin 8 → Params) (hp : ∀ i, (p i).Accepted)
    (before : Fin 8 → List Op) (st : Vector State 8) (hst : ∀ i : Fin 8, Reaches E (p i) (before i) st[i])
    (input : Vector (List U8) 8) (i : Fin 8)
    (hfit : ¬ Fits E (p i) ((fed (before i)).length + input[i].length)) :
    update8 E st input = .error .overflow ∧ st[i].update E input[i] = .error .overflow := by
  have rep := fun i => (hst i).rep hE (hp i).valid
  refine ⟨?_, (C35_update E hE (p i) (hp i) (before i) st[i] (hst i) input[i]).2 hfit⟩
  rcases update8_ends _ _ st input rep with ⟨st', _, h⟩ | ⟨e, _⟩
  · have := (h i).notTooLong
    rw [List.append_assoc, tooLong_iff_fits (hp i).valid, List.length_append] at this
    exact absurd hfit this
  · exact e

example (long : List U8) (hl : long.length = 2 ^ 64) :
    ∃ st, (∀ i : Fin 8, Reaches debugAvx2 (laneParams i) (laneOps i) st[i]) ∧
      update8 debugAvx2 st (laneInput.set 6 long) = .error .overflow := by
  obtain ⟨st, h⟩ := reaches_lanes debugAvx2 (by decide)
  refine ⟨st, h, (C11_update8_panics debugAvx2 (by decide) laneParams laneParams_accepted laneOps st h
    (laneInput.set 6 long) 6 ?_).1⟩
  intro hf
  have := hf rfl
  rw [set6, hl] at this
  omega

/-- Eight states with different parameters and histories. -/
example : ∃ st : Vector State 8, ∀ i : Fin 8,
    Reaches releasePlain (Params.new.setFanout (BitVec.ofNat 8 i.val))
      [.update (List.replicate (40 * i.val) 7)] st[i] := by
  have acc : ∀ n : U8, (Params.new.setFanout n).Accepted := fun n => ⟨[.fanout n], rfl⟩
  have h : ∀ i : Fin 8, ∃ s, Reaches releasePlain (Params.new.setFanout (BitVec.ofNat 8 i.val))
      [.update (List.replicate (40 * i.val) 7)] s := by
    intro i
    obtain ⟨s, s', hs, e, e', _⟩ := C04_finalize releasePlain (by decide) _ (acc (BitVec.ofNat 8 i.val))
      [.update (List.replicate (40 * i.val) 7)] (by simp [Fits, releasePlain])
    exact ⟨s', s, hs, e, e'⟩
  exact ⟨Vector.ofFn fun i => (h i).choose, fun i => by simpa using (h i).choose_spec⟩

/-! ## C12 -/

/-- C12: `finalize8` returns the eight hashes that `finalize` would return, in order, and the states
behave afterwards as if it had not been called. -/
theorem C12_finalize8 (E : Env) (hE : E.WF) (p : Fin 8 → Params) (hp : ∀ i, (p i).Accepted)
    (before : Fin 8 → List Op) (st : Vector State 8)
    (hst : ∀ i : Fin 8, Reaches E (p i) (before i) st[i]) :
    ∃ st' hs, finalize8 E st = .ok (st', hs) ∧
      ∀ i : Fin 8, (∃ s, st[i].finalize E = .ok (s, hs[i])) ∧
        hs[i].asBytes = .ok (Spec.hash (p i).values (p i).keyBytes
          (lastFlag (p i).lastNode (before i)) (fed (before i))) ∧
        ∀ after, seen (st'[i].run E after) = seen (st[i].run E after) := by
  have rep := fun i => (hst i).rep hE (hp i).valid
  obtain ⟨st', hs, e, h⟩ := finalize8_ok (E := E) st (fun i => by
    obtain ⟨k, w, _⟩ := rep i
    rw [w.fn]; exact w.sup)
  refine ⟨st', hs, e, fun i => ⟨⟨_, h i⟩, ?_, ?_⟩⟩
  · obtain ⟨s', d, e', _, hb, hl, _⟩ := finalize_ok (rep i)
    rw [h i] at e'
    obtain ⟨rfl, rfl⟩ := Prod.mk.inj (Except.ok.inj e')
    rw [Cfg.hashes_asBytes (c := ((p i).cfg E).after (before i)) ⟨hb, hl⟩
      (by rw [after_hashLength]; exact (hp i).valid.hl.2)]
    rw [after_h0, after_lastNode, after_hashLength]
    rfl
  · obtain ⟨s', d, e', r', _⟩ := finalize_ok (rep i)
    rw [h i] at e'
    obtain ⟨rfl, _⟩ := Prod.mk.inj (Except.ok.inj e')
    exact run_same rfl r' (rep i) rfl rfl rfl

example : ∃ st st' hs, (∀ i : Fin 8, Reaches debugAvx2 (laneParams i) (laneOps i) st[i]) ∧
    finalize8 debugAvx2 st = .ok (st', hs) ∧
    hs[5].asBytes = .ok (Spec.hash saltedParams.values [] true (bytes150.take 100)) ∧
    hs[6].asBytes = .ok (Spec.hash keyedParams.values [1, 2, 3] false (bytes150.take 120)) := by
  obtain ⟨st, h⟩ := reaches_lanes debugAvx2 (by decide)
  obtain ⟨st', hs, e, h'⟩ := C12_finalize8 debugAvx2 (by decide) laneParams laneParams_accepted laneOps st h
  have f : ∀ i : Fin 8, fed (laneOps i) = bytes150.take (20 * i.val) := fun i => by simp [fed, laneOps]
  have h5 := (h' 5).2.1
  have h6 := (h' 6).2.1
  rw [f] at h5 h6
  exact ⟨st, st', hs, h, e, h5, h6⟩

/-! ## C36 (the part about batches) -/

/-- C36 for eight states at a time: if each of eight states agrees with its counterpart on parameters, last-node
flag and bytes fed, no further calls, on single states or on all eight together, can tell the two rows of states
apart. -/
theorem C36_batch (E : Env) (hE : E.WF) (p : Fin 8 → Params) (hp : ∀ i, (p i).Accepted)
    (a b : Fin 8 → List Op) (s t : Vector State 8)
    (hs : ∀ i : Fin 8, Reaches E (p i) (a i) s[i]) (ht : ∀ i : Fin 8, Reaches E (p i) (b i) t[i])
    (hfed : ∀ i, fed (a i) = fed (b i))
    (hflag : ∀ i, lastFlag (p i).lastNode (a i) = lastFlag (p i).lastNode (b i)) (after : List Op8) :
    seen8 (run8 E s after) = seen8 (run8 E t after) :=
  run8_same after fun i => by
    have rs := (hs i).rep hE (hp i).valid
    have rt := (ht i).rep hE (hp i).valid
    rw [← hfed i] at rt
    refine ⟨_, _, _, rs, rt, ?_, ?_, ?_⟩
    · rw [after_h0, after_h0]
    · rw [after_lastNode, after_lastNode]; exact hflag i
    · rw [after_hashLength, after_hashLength]

/-- Such rows of states, made with and without `finalize` calls in between, and a non-trivial continuation. -/
example : ∃ s t : Vector State 8, (∀ i : Fin 8, Reaches debugAvx2 (laneParams i) (laneOps i) s[i]) ∧
    (∀ i : Fin 8, Reaches debugAvx2 (laneParams i)
      [.setLastNode (i.val == 5), .write [], .update (bytes150.take (20 * i.val))] t[i]) ∧
    seen8 (run8 debugAvx2 s [.finalize8, .update8 laneInput, .one 3 .finalize, .finalize8]) =
      seen8 (run8 debugAvx2 t [.finalize8, .update8 laneInput, .one 3 .finalize, .finalize8]) := by
  obtain ⟨s, hs⟩ := reaches_lanes debugAvx2 (by decide)
  have h := fun i : Fin 8 => reaches debugAvx2 (by decide) _ (laneParams_accepted i)
    [.setLastNode (i.val == 5), .write [], .update (bytes150.take (20 * i.val))] (by
      have := length_laneOps i
      simp only [fed, laneOps, List.append_nil, List.nil_append] at this ⊢
      omega)
  refine ⟨s, Vector.ofFn fun i => (h i).choose, hs, fun i => by simpa using (h i).choose_spec, ?_⟩
  exact C36_batch debugAvx2 (by decide) laneParams laneParams_accepted laneOps
    (fun i => [.setLastNode (i.val == 5), .write [], .update (bytes150.take (20 * i.val))]) s _ hs
    (fun i => by simpa using (h i).choose_spec) (fun i => by simp [fed, laneOps]) (fun _ => rfl) _

/-! ## C13, C14 -/

/-- C13: with unkeyed parameters and admissible lengths, `hash4_exact` returns the four hashes that
separate hashing returns, in order, and they are the specified digests. -/
theorem C13_hash4_exact (E : Env) (hE : E.WF) (p : Params) (hp : p.Accepted) (hk : p.keyLength = 0)
    (input : Vector (List U8) 4) (len : Nat) (hl : ExactLengths input len) (hfit : Fits E p len) :
    ∃ hs, hash4Exact E p input = .ok hs ∧ ∀ i : Fin 4,
      hashOne E p input[i] = .ok hs[i] ∧
      hs[i].asBytes = .ok (Spec.hash p.values [] p.lastNode input[i]) := by
  have hkb : p.keyBytes = [] := by simp [Params.keyBytes, hk]
  have one : ∀ hs : Vector Hash 4, (∀ i : Fin 4, hashOne E p input[i] = .ok hs[i]) →
      ∀ i : Fin 4, hashOne E p input[i] = .ok hs[i] ∧
      hs[i].asBytes = .ok (Spec.hash p.values [] p.lastNode input[i]) := by
    intro hs h i
    refine ⟨h i, ?_⟩
    obtain ⟨d, e, hd⟩ := hashOne_spec E hE p hp input[i] (by rw [hl.1 i]; exact hfit)
    rw [h i] at e
    rw [Except.ok.inj e, hd, hkb]
  cases hx : (E.x86 && E.std && E.avx2)
  · obtain ⟨hs, e, h⟩ := hash4_portable E hE hx p hp input len hl hfit
    exact ⟨hs, e, one hs h⟩
  · obtain ⟨hs, e, h⟩ := hash4_simd E hE hx p hp input len hl
    exact ⟨hs, e, one hs fun i => lane_is_hashOne E hE p hp hk input[i]
      (by rw [hl.1 i]; exact hfit) hs[i] (h i).1 (h i).2⟩

example : ∃ hs, hash4Exact debugAvx2 saltedParams (exactInput 4) = .ok hs ∧ ∀ i : Fin 4,
    hashOne debugAvx2 saltedParams (exactInput 4)[i] = .ok hs[i] ∧
    hs[i].asBytes = .ok (Spec.hash saltedParams.values [] true (exactInput 4)[i]) :=
  C13_hash4_exact debugAvx2 (by decide) _ saltedParams_accepted (by decide) _ 128
    (exactInput_lengths (by decide)) (fits_short _ _ (by decide))

/-- C13: any other lengths are refused before anything else happens, whatever the parameters and
platform. -/
theorem C13_refuses (E : Env) (p : Params) (input : Vector (List U8) 4)
    (h : ¬ ∃ len, ExactLengths input len) : hash4Exact E p input = .error .assertFailed := by
  unfold hash4Exact
  simp only []
  rw [show (input[1].length == input[0].length && input[2].length == input[0].length &&
      input[3].length == input[0].length && input[0].length % BLOCKBYTES == 0 &&
      input[0].length != 0) = false from ?_]
  · rfl
  · apply Bool.eq_false_iff.mpr
    intro hc
    simp only [Bool.and_eq_true, beq_iff_eq, bne_iff_ne, ne_eq] at hc
    obtain ⟨⟨⟨⟨h1, h2⟩, h3⟩, h4⟩, h5⟩ := hc
    refine h ⟨input[0].length, ?_, h4, h5⟩
    intro i
    match i with
    | 0 => rfl
    | 1 => exact h1
    | 2 => exact h2
    | 3 => exact h3

example : hash4Exact debugAvx2 saltedParams (wrongInput 4) = .error .assertFailed :=
  C13_refuses _ _ _ (wrongInput_lengths (by decide))

/-- C14: with unkeyed parameters and admissible lengths, `hash8_exact` returns the eight hashes that
separate hashing returns, in order, and they are the specified digests. -/
theorem C14_hash8_exact (E : Env) (hE : E.WF) (p : Params) (hp : p.Accepted) (hk : p.keyLength = 0)
    (input : Vector (List U8) 8) (len : Nat) (hl : ExactLengths input len) (hfit : Fits E p len) :
    ∃ hs, hash8Exact E p input = .ok hs ∧ ∀ i : Fin 8,
      hashOne E p input[i] = .ok hs[i] ∧
      hs[i].asBytes = .ok (Spec.hash p.values [] p.lastNode input[i]) := by
  have hkb : p.keyBytes = [] := by simp [Params.keyBytes, hk]
  have one : ∀ hs : Vector Hash 8, (∀ i : Fin 8, hashOne E p input[i] = .ok hs[i]) →
      ∀ i : Fin 8, hashOne E p input[i] = .ok hs[i] ∧
      hs[i].asBytes = .ok (Spec.hash p.values [] p.lastNode input[i]) := by
    intro hs h i
    refine ⟨h i, ?_⟩
    obtain ⟨d, e, hd⟩ := hashOne_spec E hE p hp input[i] (by rw [hl.1 i]; exact hfit)
    rw [h i] at e
    rw [Except.ok.inj e, hd, hkb]
  cases hx : (E.x86 && E.std && E.avx2)
  · obtain ⟨hs, e, h⟩ := hash8_portable E hE hx p hp input len hl hfit
    exact ⟨hs, e, one hs h⟩
  · obtain ⟨hs, e, h⟩ := hash8_simd E hx p hp input len hl
    exact ⟨hs, e, one hs fun i => lane_is_hashOne E hE p hp hk input[i]
      (by rw [hl.1 i]; exact hfit) hs[i] (h i).1 (h i).2⟩

example : ∃ hs, hash8Exact debugAvx2 saltedParams (exactInput 8) = .ok hs ∧ ∀ i : Fin 8,
    hashOne debugAvx2 saltedParams (exactInput 8)[i] = .ok hs[i] ∧
    hs[i].asBytes = .ok (Spec.hash saltedParams.values [] true (exactInput 8)[i]) :=
  C14_hash8_exact debugAvx2 (by decide) _ saltedParams_accepted (by decide) _ 128
    (exactInput_lengths (by decide)) (fits_short _ _ (by decide))

/-- C14: any other lengths are refused before anything else happens. -/
theorem C14_refuses (E : Env) (p : Params) (input : Vector (List U8) 8)
    (h : ¬ ∃ len, ExactLengths input len) : hash8Exact E p input = .error .assertFailed := by
  unfold hash8Exact
  simp only []
  rw [show (input[1].length == input[0].length && input[2].length == input[0].length &&
      input[3].length == input[0].length && input[4].length == input[0].length &&
      input[5].length == input[0].length && input[6].length == input[0].length &&
      input[7].length == input[0].length && input[0].length % BLOCKBYTES == 0 &&
      input[0].length != 0) = false from ?_]
  · rfl
  · apply Bool.eq_false_iff.mpr
    intro hc
    simp only [Bool.and_eq_true, beq_iff_eq, bne_iff_ne, ne_eq] at hc
    obtain ⟨⟨⟨⟨⟨⟨⟨⟨h1, h2⟩, h3⟩, h4⟩, h5⟩, h6⟩, h7⟩, h8⟩, h9⟩ := hc
    refine h ⟨input[0].length, ?_, h8, h9⟩
    intro i
    match i with
    | 0 => rfl
    | 1 => exact h1
    | 2 => exact h2
    | 3 => exact h3
    | 4 => exact h4
    | 5 => exact h5
    | 6 => exact h6
    | 7 => exact h7

example : hash8Exact debugAvx2 saltedParams (wrongInput 8) = .error .assertFailed :=
  C14_refuses _ _ _ (wrongInput_lengths (by decide))

/-- Admissible and inadmissible lengths exist. -/
example : ExactLengths (n := 4) (#v[List.replicate 128 1, List.replicate 128 2, List.replicate 128 3,
    List.replicate 128 4]) 128 ∧
    ¬ ∃ len, ExactLengths (n := 4) (#v[List.replicate 128 1, [], [], []]) len := by
  refine ⟨⟨?_, by decide, by decide⟩, ?_⟩
  · intro i
    match i with
    | 0 | 1 | 2 | 3 => exact List.length_replicate
  · rintro ⟨len, h, _, h0⟩
    exact h0 (h 1).symm

/-! ## C15 -/

/-- C15: with unkeyed parameters in every lane (different ones if desired) and inputs of any lengths,
`hash8` returns the eight hashes that separate hashing returns, in order. -/
theorem C15_hash8 (E : Env) (hE : E.WF) (p : Vector Params 8) (hp : ∀ i : Fin 8, p[i].Accepted)
    (hk : ∀ i : Fin 8, p[i].keyLength = 0) (input : Vector (List U8) 8)
    (hfit : ∀ i : Fin 8, Fits E p[i] input[i].length) :
    ∃ hs, hash8 E p input = .ok hs ∧ ∀ i : Fin 8,
      hashOne E p[i] input[i] = .ok hs[i] ∧
      hs[i].asBytes = .ok (Spec.hash p[i].values [] p[i].lastNode input[i]) := by
  have hn : ∀ i : Fin 8, ¬ TooLong E input[i] := by
    rintro i ⟨h1, h2⟩
    have := hfit i h1
    rw [if_pos (hk i)] at this
    omega
  obtain ⟨hs, e, h⟩ := hash8_ok E hE p input hk (fun i => (hp i).valid.off) hn
  refine ⟨hs, e, fun i => ?_⟩
  have h1 := lane_is_hashOne E hE p[i] (hp i) (hk i) input[i] (hfit i) hs[i] (h i).1 (h i).2
  refine ⟨h1, ?_⟩
  have hkb : p[i].keyBytes = [] := by rw [Params.keyBytes, hk i]; rfl
  rw [lane_asBytes (hp i).valid (h i).1 (h i).2, laneDigest_unkeyed (hk i), hkb]

example : ∃ hs, hash8 debugAvx2 ((Vector.replicate 8 Params.new).set 2 saltedParams) laneInput = .ok hs ∧
    hashOne debugAvx2 Params.new bytes150 = .ok hs[0] ∧
    hashOne debugAvx2 saltedParams (bytes150.drop 22) = .ok hs[2] := by
  obtain ⟨hs, e, h⟩ := C15_hash8 debugAvx2 (by decide) ((Vector.replicate 8 Params.new).set 2 saltedParams)
    (fun i => by match i with
      | 2 => exact saltedParams_accepted
      | 0 | 1 | 3 | 4 | 5 | 6 | 7 => exact ⟨[], rfl⟩)
    (by decide) laneInput (fun i => fits_short _ _ (by have := length_laneInput i; omega))
  have h0 := (h 0).1
  have h2 := (h 2).1
  exact ⟨hs, e, by simpa [laneInput] using h0, by simpa [laneInput] using h2⟩

/-- C15: a key in any lane is refused, whatever the rest. -/
theorem C15_refuses (E : Env) (p : Vector Params 8) (input : Vector (List U8) 8) (i : Fin 8)
    (hk : p[i].keyLength ≠ 0) : hash8 E p input = .error .assertFailed :=
  hash8_keyed E p input i hk

example : hash8 debugAvx2 ((Vector.replicate 8 Params.new).set 6 keyedParams) laneInput = .error .assertFailed :=
  C15_refuses _ _ _ 6 (by decide)

/-- Accepted unkeyed and keyed parameters exist. -/
example : (∃ p : Params, p.Accepted ∧ p.keyLength = 0 ∧ p.salt[0] = 9) ∧
    (∃ p : Params, p.Accepted ∧ p.keyLength ≠ 0) :=
  ⟨⟨_, ⟨[.salt [9]], rfl⟩, rfl, rfl⟩, ⟨_, ⟨[.key [9]], rfl⟩, by decide⟩⟩

/-! ## C16 -/

/-- The only ways `hash4_exact` can end: normally, by its own length assertion, or by the byte counter's
overflow check. -/
theorem C16_hash4_exact (E : Env) (hE : E.WF) (p : Params) (hp : p.Accepted)
    (input : Vector (List U8) 4) :
    hash4Exact E p input ≠ .error .outOfBoundsRead ∧
    ((∃ hs, hash4Exact E p input = .ok hs) ∨ hash4Exact E p input = .error .assertFailed ∨
      hash4Exact E p input = .error .overflow) := by
  suffices h : (∃ hs, hash4Exact E p input = .ok hs) ∨ hash4Exact E p input = .error .assertFailed ∨
      hash4Exact E p input = .error .overflow by
    refine ⟨?_, h⟩
    rcases h with ⟨hs, h⟩ | h | h <;> rw [h] <;> nofun
  by_cases hl : ∃ len, ExactLengths input len
  · obtain ⟨len, hl⟩ := hl
    cases hx : (E.x86 && E.std && E.avx2)
    · rw [hash4_guard hl]
      rcases impl_cases E with ⟨hf, _⟩ | ⟨_, h4, _⟩
      · rw [hx] at hf; cases hf
      · rw [h4]
        simp only [Hash4ExactFn.call, Portable.hash4Exact]
        have one := fun i => hashOne_ends E hE p hp.valid i
        have := ((one input[0]).mono (fun _ => trivial) (fun _ _ => trivial)).bind (bad := True)
          (post' := fun _ => True) (fun d0 _ =>
          ((one input[1]).mono (fun _ => trivial) (fun _ _ => trivial)).bind (bad := True) (fun d1 _ =>
          ((one input[2]).mono (fun _ => trivial) (fun _ _ => trivial)).bind (bad := True) (fun d2 _ =>
          ((one input[3]).mono (fun _ => trivial) (fun _ _ => trivial)).bind (bad := True) (fun d3 _ =>
            (Ends.pure trivial : Ends (pure #v[d0, d1, d2, d3] : R (Vector Hash 4)) True
              (fun _ => True))))))
        rcases this with ⟨hs, h, _⟩ | ⟨h, _⟩
        · exact .inl ⟨hs, h⟩
        · exact .inr (.inr h)
    · obtain ⟨hs, e, _⟩ := hash4_simd E hE hx p hp input len hl
      exact .inl ⟨hs, e⟩
  · exact .inr (.inl (C13_refuses E p input hl))

example : hash4Exact debugAvx2 keyedParams (wrongInput 4) ≠ .error .outOfBoundsRead :=
  (C16_hash4_exact debugAvx2 (by decide) _ keyedParams_accepted _).1

/-- The same for `hash8_exact`. -/
theorem C16_hash8_exact (E : Env) (hE : E.WF) (p : Params) (hp : p.Accepted)
    (input : Vector (List U8) 8) :
    hash8Exact E p input ≠ .error .outOfBoundsRead ∧
    ((∃ hs, hash8Exact E p input = .ok hs) ∨ hash8Exact E p input = .error .assertFailed ∨
      hash8Exact E p input = .error .overflow) := by
  suffices h : (∃ hs, hash8Exact E p input = .ok hs) ∨ hash8Exact E p input = .error .assertFailed ∨
      hash8Exact E p input = .error .overflow by
    refine ⟨?_, h⟩
    rcases h with ⟨hs, h⟩ | h | h <;> rw [h] <;> nofun
  by_cases hl : ∃ len, ExactLengths input len
  · obtain ⟨len, hl⟩ := hl
    cases hx : (E.x86 && E.std && E.avx2)
    · rw [hash8_guard hl]
      rcases impl_cases E with ⟨hf, _⟩ | ⟨_, _, h8⟩
      · rw [hx] at hf; cases hf
      · rw [h8]
        simp only [Hash8ExactFn.call, Portable.hash8Exact]
        have one := fun i => (hashOne_ends E hE p hp.valid i).mono (bad' := True)
          (post' := fun _ => True) (fun _ => trivial) (fun _ _ => trivial)
        have := (one input[0]).bind (post' := fun _ => True) (fun d0 _ =>
          (one input[1]).bind (fun d1 _ => (one input[2]).bind (fun d2 _ =>
          (one input[3]).bind (fun d3 _ => (one input[4]).bind (fun d4 _ =>
          (one input[5]).bind (fun d5 _ => (one input[6]).bind (fun d6 _ =>
          (one input[7]).bind (fun d7 _ =>
            (Ends.pure trivial : Ends (pure #v[d0, d1, d2, d3, d4, d5, d6, d7] : R (Vector Hash 8))
              True (fun _ => True))))))))))
        rcases this with ⟨hs, h, _⟩ | ⟨h, _⟩
        · exact .inl ⟨hs, h⟩
        · exact .inr (.inr h)
    · obtain ⟨hs, e, _⟩ := hash8_simd E hx p hp input len hl
      exact .inl ⟨hs, e⟩
  · exact .inr (.inl (C14_refuses E p input hl))

example : hash8Exact debugAvx2 keyedParams (wrongInput 8) ≠ .error .outOfBoundsRead :=
  (C16_hash8_exact debugAvx2 (by decide) _ keyedParams_accepted _).1

/-- The property is not vacuous: called without the length assertion, the unsafe routine does read
outside the slices. -/
example : Sse41.hash4Exact Params.new #v[List.replicate 64 0, [], [], []] = .error .outOfBoundsRead :=
  rfl

/-! ## C19 -/

/-- C19, what the portable back end does: it honours the key. -/
theorem C19_portable (E : Env) (hE : E.WF) (hx : (E.x86 && E.std && E.avx2) = false) (p : Params)
    (hp : p.Accepted) (input : Vector (List U8) 4) (len : Nat) (hl : ExactLengths input len)
    (hfit : Fits E p len) :
    ∃ hs, hash4Exact E p input = .ok hs ∧ ∀ i : Fin 4, hashOne E p input[i] = .ok hs[i] :=
  hash4_portable E hE hx p hp input len hl hfit

example : ∃ hs, hash4Exact releasePlain keyedParams (exactInput 4) = .ok hs ∧
    ∀ i : Fin 4, hashOne releasePlain keyedParams (exactInput 4)[i] = .ok hs[i] :=
  C19_portable releasePlain (by decide) rfl _ keyedParams_accepted _ 128 (exactInput_lengths (by decide))
    (fits_short _ _ (by decide))

/-- C19, the same for `hash8_exact`. -/
theorem C19_portable8 (E : Env) (hE : E.WF) (hx : (E.x86 && E.std && E.avx2) = false) (p : Params)
    (hp : p.Accepted) (input : Vector (List U8) 8) (len : Nat) (hl : ExactLengths input len)
    (hfit : Fits E p len) :
    ∃ hs, hash8Exact E p input = .ok hs ∧ ∀ i : Fin 8, hashOne E p input[i] = .ok hs[i] :=
  hash8_portable E hE hx p hp input len hl hfit

example : ∃ hs, hash8Exact releasePlain keyedParams (exactInput 8) = .ok hs ∧
    ∀ i : Fin 8, hashOne releasePlain keyedParams (exactInput 8)[i] = .ok hs[i] :=
  C19_portable8 releasePlain (by decide) rfl _ keyedParams_accepted _ 128 (exactInput_lengths (by decide))
    (fits_short _ _ (by decide))

/-- C19, what holds on every platform: the key is honoured if it is empty. Missing: non-empty keys on
AVX2 machines, where the property is false, see `C19_false`. -/
theorem C19_partial (E : Env) (hE : E.WF) (p : Params) (hp : p.Accepted)
    (hk : p.keyLength = 0 ∨ (E.x86 && E.std && E.avx2) = false)
    (input : Vector (List U8) 4) (input8 : Vector (List U8) 8) (len : Nat)
    (hl : ExactLengths input len) (hl8 : ExactLengths input8 len) (hfit : Fits E p len) :
    (∃ hs, hash4Exact E p input = .ok hs ∧ ∀ i : Fin 4, hashOne E p input[i] = .ok hs[i]) ∧
    (∃ hs, hash8Exact E p input8 = .ok hs ∧ ∀ i : Fin 8, hashOne E p input8[i] = .ok hs[i]) := by
  rcases hk with hk | hx
  · obtain ⟨hs, e, h⟩ := C13_hash4_exact E hE p hp hk input len hl hfit
    obtain ⟨hs8, e8, h8⟩ := C14_hash8_exact E hE p hp hk input8 len hl8 hfit
    exact ⟨⟨hs, e, fun i => (h i).1⟩, ⟨hs8, e8, fun i => (h8 i).1⟩⟩
  · exact ⟨hash4_portable E hE hx p hp input len hl hfit, hash8_portable E hE hx p hp input8 len hl8 hfit⟩

example : (∃ hs, hash4Exact debugAvx2 saltedParams (exactInput 4) = .ok hs ∧
      ∀ i : Fin 4, hashOne debugAvx2 saltedParams (exactInput 4)[i] = .ok hs[i]) ∧
    (∃ hs, hash8Exact debugAvx2 saltedParams (exactInput 8) = .ok hs ∧
      ∀ i : Fin 8, hashOne debugAvx2 saltedParams (exactInput 8)[i] = .ok hs[i]) :=
  C19_partial debugAvx2 (by decide) _ saltedParams_accepted (.inl (by decide)) _ _ 128
    (exactInput_lengths (by decide)) (exactInput_lengths (by decide)) (fits_short _ _ (by decide))

/-- C19, what the SIMD back ends do: the key bytes are ignored; only the key length enters (through the
parameter block). Two different keys of one length give the same hashes on every input. -/
theorem C19_simd_ignores_key (E : Env) (hE : E.WF) (hx : (E.x86 && E.std && E.avx2) = true)
    (p q : Params) (hp : p.Accepted) (hq : q.Accepted) (hv : p.values = q.values)
    (hln : p.lastNode = q.lastNode) (input : Vector (List U8) 4) (input8 : Vector (List U8) 8) :
    hash4Exact E p input = hash4Exact E q input ∧ hash8Exact E p input8 = hash8Exact E q input8 := by
  have hhl : p.hashLength = q.hashLength := congrArg Spec.Params.digestLength hv
  have eqH : ∀ a b : Hash, a.bytes.toList = b.bytes.toList → a.len = b.len → a = b := by
    rintro ⟨a, la⟩ ⟨b, lb⟩ h1 h2
    have h1' : a = b := Vector.toList_inj.mp h1
    have h2' : la = lb := h2
    rw [h1', h2']
  constructor
  · by_cases hl : ∃ len, ExactLengths input len
    · obtain ⟨len, hl⟩ := hl
      obtain ⟨a, ea, ha⟩ := hash4_simd E hE hx p hp input len hl
      obtain ⟨b, eb, hb⟩ := hash4_simd E hE hx q hq input len hl
      rw [ea, eb]
      congr 1
      apply Vector.ext
      intro i hi
      refine eqH _ _ ?_ ?_
      · have h1 := (ha ⟨i, hi⟩).1
        have h2 := (hb ⟨i, hi⟩).1
        rw [hv, hln] at h1
        exact h1.trans h2.symm
      · exact ((ha ⟨i, hi⟩).2.trans hhl).trans (hb ⟨i, hi⟩).2.symm
    · rw [C13_refuses E p input hl, C13_refuses E q input hl]
  · by_cases hl : ∃ len, ExactLengths input8 len
    · obtain ⟨len, hl⟩ := hl
      obtain ⟨a, ea, ha⟩ := hash8_simd E hx p hp input8 len hl
      obtain ⟨b, eb, hb⟩ := hash8_simd E hx q hq input8 len hl
      rw [ea, eb]
      congr 1
      apply Vector.ext
      intro i hi
      refine eqH _ _ ?_ ?_
      · have h1 := (ha ⟨i, hi⟩).1
        have h2 := (hb ⟨i, hi⟩).1
        rw [hv, hln] at h1
        exact h1.trans h2.symm
      · exact ((ha ⟨i, hi⟩).2.trans hhl).trans (hb ⟨i, hi⟩).2.symm
    · rw [C14_refuses E p input8 hl, C14_refuses E q input8 hl]

/-- Parameters with the one-byte key 1 / 2. -/
def keyed1 : Params := { Params.new with key := Vector.ofFn fun i => if i.val = 0 then 1 else 0, keyLength := 1 }
def keyed2 : Params := { Params.new with key := Vector.ofFn fun i => if i.val = 0 then 2 else 0, keyLength := 1 }

example : keyed1.Accepted ∧ keyed2.Accepted ∧ keyed1.values = keyed2.values ∧
    keyed1.keyBytes ≠ keyed2.keyBytes :=
  ⟨⟨[.key [1]], by decide +kernel⟩, ⟨[.key [2]], by decide +kernel⟩, rfl, by decide +kernel⟩

example : hash4Exact debugAvx2 keyed1 (exactInput 4) = hash4Exact debugAvx2 keyed2 (exactInput 4) ∧
    hash8Exact debugAvx2 keyed1 (exactInput 8) = hash8Exact debugAvx2 keyed2 (exactInput 8) :=
  C19_simd_ignores_key debugAvx2 (by decide) rfl keyed1 keyed2 ⟨[.key [1]], by decide +kernel⟩
    ⟨[.key [2]], by decide +kernel⟩ rfl rfl (exactInput 4) (exactInput 8)

/-- C19, exactly what the SIMD back ends return for parameters with a key: BLAKE2s with the key length in the parameter
block, but without the key block. It takes inputs of any length, in every build profile. -/
theorem C19_simd_exact (E : Env) (hE : E.WF) (hx : (E.x86 && E.std && E.avx2) = true) (p : Params) (hp : p.Accepted)
    (len : Nat) :
    (∀ input : Vector (List U8) 4, ExactLengths input len → ∃ hs, hash4Exact E p input = .ok hs ∧
      ∀ i : Fin 4, hs[i].asBytes = .ok (Spec.hash p.values [] p.lastNode input[i])) ∧
    (∀ input : Vector (List U8) 8, ExactLengths input len → ∃ hs, hash8Exact E p input = .ok hs ∧
      ∀ i : Fin 8, hs[i].asBytes = .ok (Spec.hash p.values [] p.lastNode input[i])) := by
  refine ⟨fun input hl => ?_, fun input hl => ?_⟩
  · obtain ⟨hs, e, h⟩ := hash4_simd E hE hx p hp input len hl
    exact ⟨hs, e, fun i => lane_asBytes hp.valid (h i).1 (h i).2⟩
  · obtain ⟨hs, e, h⟩ := hash8_simd E hx p hp input len hl
    exact ⟨hs, e, fun i => lane_asBytes hp.valid (h i).1 (h i).2⟩

example : ∃ hs, hash4Exact debugAvx2 keyed1 (exactInput 4) = .ok hs ∧
    ∀ i : Fin 4, hs[i].asBytes = .ok (Spec.hash (Spec.sequential 32 1) [] false (exactInput 4)[i]) :=
  (C19_simd_exact debugAvx2 (by decide) rfl keyed1 ⟨[.key [1]], by decide +kernel⟩ 128).1 _
    (exactInput_lengths (by decide))

/-- C19 is false on an AVX2 machine: the key is accepted, nothing panics, and the hashes are not the
keyed ones. -/
theorem C19_false : ∃ (p : Params) (input : Vector (List U8) 4) (input8 : Vector (List U8) 8)
    (hs : Vector Hash 4) (hs8 : Vector Hash 8) (d : Hash),
    p.Accepted ∧ ExactLengths input 64 ∧ ExactLengths input8 64 ∧
    hash4Exact debugAvx2 p input = .ok hs ∧ hash8Exact debugAvx2 p input8 = .ok hs8 ∧
    hashOne debugAvx2 p input[0] = .ok d ∧ hashOne debugAvx2 p input8[0] = .ok d ∧
    hs[0] ≠ d ∧ hs8[0] ≠ d := by
  have hp : keyed1.Accepted := ⟨[.key [1]], by decide +kernel⟩
  have hl4 : ExactLengths (Vector.replicate 4 (List.replicate 64 (0 : U8))) 64 :=
    ⟨by intro i; simp, by decide, by decide⟩
  have hl8 : ExactLengths (Vector.replicate 8 (List.replicate 64 (0 : U8))) 64 :=
    ⟨by intro i; simp, by decide, by decide⟩
  obtain ⟨hs, e, h⟩ := hash4_simd debugAvx2 (by decide) rfl keyed1 hp _ 64 hl4
  obtain ⟨hs8, e8, h8⟩ := hash8_simd debugAvx2 rfl keyed1 hp _ 64 hl8
  have hn : ¬ TooLong debugAvx2 (Spec.keyBlock keyed1.keyBytes ++ List.replicate 64 0) := by
    rw [tooLong_iff_fits hp.valid]
    simp [Fits, keyed1]
  obtain ⟨d, ed, hd, _⟩ := (hashOne_ends debugAvx2 (by decide) keyed1 hp.valid _).elim hn
  have hne : (hash4Exact debugAvx2 keyed1 (Vector.replicate 4 (List.replicate 64 0))).toOption.map
      (fun v => v[0]) ≠ (hashOne debugAvx2 keyed1 (List.replicate 64 0)).toOption := by decide +kernel
  rw [e, ed] at hne
  have hne4 : hs[0] ≠ d := fun h => hne (congrArg some h)
  have h48 : hs8[0] = hs[0] := by
    have a := h8 0
    have b := h 0
    have h1 : (hs8[0]).bytes = (hs[0]).bytes := by
      apply Vector.toList_inj.mp
      refine a.1.trans (Eq.trans ?_ b.1.symm)
      simp
    have h2 : (hs8[0]).len = (hs[0]).len := a.2.trans b.2.symm
    cases hx : hs8[0]
    cases hy : hs[0]
    rw [hx, hy] at h1 h2
    simp only at h1 h2
    rw [h1, h2]
  refine ⟨keyed1, _, _, hs, hs8, d, hp, hl4, hl8, e, e8, ?_, ?_, hne4, by rw [h48]; exact hne4⟩
  · simpa using ed
  · simpa using ed

end Blake2s
