import Verif.Props.Cases
import Verif.Proofs.HashLemmas
/-!
# Properties of one hashing object: C01 - C06, C31, C32, C35, C36, C39 (the parts about `State`)
-/

namespace Blake2s

/-! ## C01 -/

/-- C01: the one-shot function returns the RFC 7693 BLAKE2s-256 digest. The length bound is only needed
when overflow checks are on. -/
theorem C01_one_shot (E : Env) (hE : E.WF) (input : List U8)
    (h : E.overflowChecks = true → input.length < 2 ^ 64) :
    ∃ d, blake2s E input = .ok d ∧ d.asBytes = .ok (Spec.blake2s input) := by
  have := hashOne_spec E hE Params.default ⟨[], rfl⟩ input (by
    intro ho; have := h ho; simpa [Params.default] using this)
  exact this

example : ∃ d, blake2s debugAvx2 bytes150 = .ok d ∧ d.asBytes = .ok (Spec.blake2s bytes150) :=
  C01_one_shot debugAvx2 (by decide) bytes150 (by rw [length150]; decide)

/-- C01, exactness: with overflow checks on, an input of 2^64 bytes or more panics. -/
theorem C01_too_long (E : Env) (hE : E.WF) (input : List U8) (ho : E.overflowChecks = true)
    (h : 2 ^ 64 ≤ input.length) : blake2s E input = .error .overflow := by
  have := hashOne_ends E hE Params.default default_valid input
  rcases this with ⟨d, _, _, hn⟩ | ⟨e, _⟩
  · exact absurd ⟨ho, by rw [List.length_append]; omega⟩ hn
  · exact e

example (long : List U8) (h : long.length = 2 ^ 64) : blake2s debugAvx2 long = .error .overflow :=
  C01_too_long debugAvx2 (by decide) long rfl (Nat.le_of_eq h.symm)

example : ∃ long : List U8, long.length = 2 ^ 64 := ⟨List.replicate (2 ^ 64) 0, List.length_replicate⟩

/-! ## C02 -/

/-- C02: for every sequence of setter calls with arguments in range, hashing with the resulting
parameters gives the BLAKE2s digest under exactly the values last set. -/
theorem C02_parameterised (E : Env) (hE : E.WF) (calls : List Setter) (hc : ∀ c ∈ calls, c.InRange)
    (input : List U8) (v : View)
    (hv : v = calls.foldl Setter.effect ⟨Spec.sequential 32 0, [], false⟩)
    (hfit : E.overflowChecks = true → (Spec.keyBlock v.key ++ input).length < 2 ^ 64) :
    ∃ p d, Params.new.setAll calls = .ok p ∧ hashOne E p input = .ok d ∧
      d.asBytes = .ok (Spec.hash v.values v.key v.lastNode input) := by
  obtain ⟨p, e, hview⟩ := setAll_view calls hc Params.new
  have hp : p.Accepted := ⟨calls, e⟩
  have hvp : p.view = v := by rw [hview, hv]; rfl
  obtain ⟨d, hd, hb⟩ := hashOne_spec E hE p hp input (by
    apply Classical.byContradiction
    intro hn
    rw [← tooLong_iff_fits hp.valid] at hn
    obtain ⟨h1, h2⟩ := hn
    have := hfit h1
    rw [← hvp] at this
    exact absurd this (by simpa [Params.view] using h2))
  refine ⟨p, d, e, hd, ?_⟩
  rw [hb, ← hvp]
  rfl

/-- The values that `someCalls` sets, with the defaults for the others. -/
def someView : View where
  values := {
    digestLength := 20, keyLength := 3, fanout := 1, maxDepth := 1, leafLength := 0, nodeOffset := 77,
    nodeDepth := 0, innerLength := 0, salt := #v[5, 0, 0, 0, 0, 0, 0, 0], personal := #v[0, 0, 0, 0, 0, 0, 0, 0] }
  key := [1, 2, 3]
  lastNode := true

example : ∃ p d, Params.new.setAll someCalls = .ok p ∧ hashOne releasePlain p bytes150 = .ok d ∧
    d.asBytes = .ok (Spec.hash someView.values [1, 2, 3] true bytes150) :=
  C02_parameterised releasePlain (by decide) someCalls (by decide) bytes150 someView rfl nofun

/-- C02 for a given parameter object. -/
theorem C02_params (E : Env) (hE : E.WF) (p : Params) (hp : p.Accepted) (input : List U8)
    (h : Fits E p input.length) :
    ∃ d, hashOne E p input = .ok d ∧
      d.asBytes = .ok (Spec.hash p.values p.keyBytes p.lastNode input) :=
  hashOne_spec E hE p hp input h

example : ∃ d, hashOne debugAvx2 keyedParams bytes150 = .ok d ∧
    d.asBytes = .ok (Spec.hash keyedParams.values [1, 2, 3] true bytes150) :=
  C02_params debugAvx2 (by decide) keyedParams keyedParams_accepted bytes150
    (fits_short _ _ (by rw [length150]; decide))

example : (∀ c ∈ [Setter.key [1, 2], .hashLength 20, .salt [5], .nodeOffset 77, .lastNode true],
    c.InRange) ∧
    ((([Setter.key [1, 2], .hashLength 20, .salt [5], .nodeOffset 77, .lastNode true]).foldl
      Setter.effect ⟨Spec.sequential 32 0, [], false⟩).values.digestLength = 20) := by
  constructor
  · simp [Setter.InRange]
  · rfl

/-! ## C03 -/

/-- C03: any way of cutting a piece of input into `update` calls is equivalent to one call, for the
counter, the debug text and every digest returned by any further calls. Panics agree, too. -/
theorem C03_split (E : Env) (hE : E.WF) (p : Params) (hp : p.Accepted) (before : List Op) (s : State)
    (hs : Reaches E p before s) (chunks : List (List U8)) (after : List Op) :
    (s.run E (chunks.map Op.update ++ after)).map (fun x => (x.1.getCount, x.1.debug, x.2)) =
      (s.run E (.update chunks.flatten :: after)).map (fun x => (x.1.getCount, x.1.debug, x.2)) := by
  have r := hs.rep hE hp.valid
  exact split_run r chunks after

example : ∃ s, Reaches debugAvx2 keyedParams someOps s ∧
    (s.run debugAvx2 [.update [1], .update bytes150, .update [], .update [2], .finalize]).map
        (fun x => (x.1.getCount, x.1.debug, x.2)) =
      (s.run debugAvx2 [.update ([1] ++ bytes150 ++ [2]), .finalize]).map
        (fun x => (x.1.getCount, x.1.debug, x.2)) := by
  obtain ⟨s, hs⟩ := reaches_someOps debugAvx2 (by decide)
  have h := C03_split debugAvx2 (by decide) _ keyedParams_accepted _ s hs [[1], bytes150, [], [2]] [.finalize]
  exact ⟨s, hs, by simpa using h⟩

/-- C03 for a complete message: the digest is that of the concatenation. -/
theorem C03_digest (E : Env) (hE : E.WF) (p : Params) (hp : p.Accepted) (chunks : List (List U8))
    (h : Fits E p chunks.flatten.length) :
    ∃ s s1 d, p.toState E = .ok s ∧ s.run E (chunks.map Op.update ++ [.finalize]) = .ok (s1, [d]) ∧
      hashOne E p chunks.flatten = .ok d ∧
      d.asBytes = .ok (Spec.hash p.values p.keyBytes p.lastNode chunks.flatten) := by
  have v := hp.valid
  obtain ⟨s, e, r⟩ := withParams_ok E hE p v
  have hn : ¬ TooLong E (Spec.keyBlock p.keyBytes ++ chunks.flatten) := by
    rw [tooLong_iff_fits v]; simpa using h
  have hf := fed_chunks chunks
  obtain ⟨x, hx, rx, ax⟩ := (run_ends (chunks.map Op.update ++ [.finalize]) r).elim (by
    rw [fed_append, hf]; simpa [fed] using hn)
  rw [all_chunks] at ax
  obtain ⟨d, t, hd, hh, ht⟩ := ax
  have ht' : t = [] := ht
  subst ht'
  obtain ⟨d', e', hd', _⟩ := (hashOne_ends E hE p v chunks.flatten).elim hn
  refine ⟨s, x.1, d, e, ?_, ?_, Cfg.hashes_asBytes hh v.hl.2⟩
  · rw [hx, ← hd]
  · rw [e', Cfg.hashes_unique hd' hh]

example : ∃ s s1 d, keyedParams.toState debugAvx2 = .ok s ∧
    s.run debugAvx2 [.update bytes150, .update [7], .finalize] = .ok (s1, [d]) ∧
    hashOne debugAvx2 keyedParams (bytes150 ++ [7]) = .ok d ∧
    d.asBytes = .ok (Spec.hash keyedParams.values keyedParams.keyBytes keyedParams.lastNode
      (bytes150 ++ [7])) := by
  have h := C03_digest debugAvx2 (by decide) _ keyedParams_accepted [bytes150, [7]]
    (fits_short _ _ (by simp [length150]))
  simpa using h

example : Fits debugAvx2 Params.new ([[1], [], [2, 3]] : List (List U8)).flatten.length := by
  simp [Fits, Params.new, Params.default]

/-! ## C04 -/

/-- C04: over any history of calls, every `finalize` returns the digest of exactly the bytes fed before
it (with the last-node flag as last set); in particular earlier `finalize` calls have no influence. -/
theorem C04_finalize (E : Env) (hE : E.WF) (p : Params) (hp : p.Accepted) (ops : List Op)
    (h : Fits E p (fed ops).length) :
    ∃ s s' hs, p.toState E = .ok s ∧ s.run E ops = .ok (s', hs) ∧
      hs.mapM Hash.asBytes = .ok (digests p.values p.keyBytes p.lastNode [] ops) := by
  have v := hp.valid
  obtain ⟨s, e, r⟩ := withParams_ok E hE p v
  obtain ⟨x, hx, rx, ax⟩ := (run_ends ops r).elim (by rw [tooLong_iff_fits v]; simpa using h)
  refine ⟨s, x.1, x.2, e, hx, ?_⟩
  exact Cfg.all_digests (c := p.cfg E) (done := []) rfl rfl v.hl.2 (by simpa using ax)

example : ∃ s s' hs, keyedParams.toState debugAvx2 = .ok s ∧ s.run debugAvx2 (someOps ++ [.finalize]) = .ok (s', hs) ∧
    hs.mapM Hash.asBytes = .ok [Spec.hash keyedParams.values keyedParams.keyBytes true bytes150,
      Spec.hash keyedParams.values keyedParams.keyBytes true (bytes150 ++ bytes150)] :=
  C04_finalize debugAvx2 (by decide) _ keyedParams_accepted (someOps ++ [.finalize])
    (fits_short _ _ (by rw [fed_append, fed_someOps]; simp [fed, length150]))

/-- C04: removing a `finalize` call changes nothing for the calls after it. -/
theorem C04_no_disturbance (E : Env) (hE : E.WF) (p : Params) (hp : p.Accepted) (before : List Op)
    (s : State) (hs : Reaches E p before s) (after : List Op) :
    ∃ s' d, s.finalize E = .ok (s', d) ∧
      (s'.run E after).map (fun x => (x.1.getCount, x.1.debug, x.2)) =
        (s.run E after).map (fun x => (x.1.getCount, x.1.debug, x.2)) := by
  have r := hs.rep hE hp.valid
  obtain ⟨s', d, e, r', _⟩ := finalize_ok r
  exact ⟨s', d, e, run_same rfl r' r rfl rfl rfl after⟩

example : ∃ s s' d, Reaches debugAvx2 keyedParams someOps s ∧ s.finalize debugAvx2 = .ok (s', d) ∧
    (s'.run debugAvx2 [.update [9], .finalize]).map (fun x => (x.1.getCount, x.1.debug, x.2)) =
      (s.run debugAvx2 [.update [9], .finalize]).map (fun x => (x.1.getCount, x.1.debug, x.2)) := by
  obtain ⟨s, hs⟩ := reaches_someOps debugAvx2 (by decide)
  obtain ⟨s', d, h⟩ := C04_no_disturbance debugAvx2 (by decide) _ keyedParams_accepted _ s hs
    [.update [9], .finalize]
  exact ⟨s, s', d, hs, h⟩

/-- C04: an immediate second `finalize` returns the same hash. -/
theorem C04_repeatable (E : Env) (hE : E.WF) (p : Params) (hp : p.Accepted) (before : List Op)
    (s : State) (hs : Reaches E p before s) :
    ∃ s' s'' d, s.finalize E = .ok (s', d) ∧ s'.finalize E = .ok (s'', d) := by
  have r := hs.rep hE hp.valid
  obtain ⟨s', d, e, r', hb, hl, _⟩ := finalize_ok r
  obtain ⟨s'', d', e', r'', hb', hl', _⟩ := finalize_ok r'
  refine ⟨s', s'', d, e, ?_⟩
  rw [e', Cfg.hashes_unique (c := (p.cfg E).after before) ⟨hb, hl⟩ ⟨hb', hl'⟩]

example : ∃ s s' s'' d, Reaches releasePlain keyedParams someOps s ∧ s.finalize releasePlain = .ok (s', d) ∧
    s'.finalize releasePlain = .ok (s'', d) := by
  obtain ⟨s, hs⟩ := reaches_someOps releasePlain (by decide)
  obtain ⟨s', s'', d, h⟩ := C04_repeatable releasePlain (by decide) _ keyedParams_accepted _ s hs
  exact ⟨s, s', s'', d, hs, h⟩

example : digests (Spec.sequential 32 0) [] false []
    [.update [1], .finalize, .setLastNode true, .update [2], .finalize] =
    [Spec.hash (Spec.sequential 32 0) [] false [1], Spec.hash (Spec.sequential 32 0) [] true [1, 2]] :=
  rfl

/-! ## C05 -/

/-- C05, what the counter really holds: the bytes fed plus 64 for a key block, modulo 2^64. -/
theorem C05_count_exact (E : Env) (hE : E.WF) (p : Params) (hp : p.Accepted) (ops : List Op)
    (s : State) (hs : Reaches E p ops s) :
    s.getCount = BitVec.ofNat 64 ((if p.keyLength = 0 then 0 else 64) + (fed ops).length) := by
  have v := hp.valid
  rw [(hs.rep hE v).count, List.length_append, keyBlock_length' v]

example : ∃ s, Reaches debugAvx2 keyedParams someOps s ∧ s.getCount = 364 := by
  obtain ⟨s, hs⟩ := reaches_someOps debugAvx2 (by decide)
  have h := C05_count_exact debugAvx2 (by decide) _ keyedParams_accepted _ s hs
  rw [fed_someOps, List.length_append, length150] at h
  exact ⟨s, hs, h⟩

/-- C05 for unkeyed states. Missing from the full property: with a key it is false, see
`C05_keyed_false`. -/
theorem C05_count_partial (E : Env) (hE : E.WF) (p : Params) (hp : p.Accepted)
    (hk : p.keyLength = 0) (ops : List Op) (s : State) (hs : Reaches E p ops s)
    (hlen : (fed ops).length < 2 ^ 64) : s.getCount.toNat = (fed ops).length := by
  rw [C05_count_exact E hE p hp ops s hs, if_pos hk, Nat.zero_add, BitVec.toNat_ofNat,
    Nat.mod_eq_of_lt hlen]

example : ∃ s, Reaches debugAvx2 saltedParams someOps s ∧ s.getCount.toNat = 300 := by
  obtain ⟨s, hs⟩ := reaches debugAvx2 (by decide) _ saltedParams_accepted someOps (by
    rw [fed_someOps, List.length_append, length150]; decide)
  have h := C05_count_partial debugAvx2 (by decide) _ saltedParams_accepted (by decide) _ s hs (by
    rw [fed_someOps, List.length_append, length150]; decide)
  rw [fed_someOps, List.length_append, length150] at h
  exact ⟨s, hs, h⟩

/-- C05 is false with a key: a freshly created keyed state, to which nothing has been fed, reports 64
bytes. -/
theorem C05_keyed_false : ∃ p : Params, p.Accepted ∧ ∀ E : Env, E.WF →
    ∃ s, Reaches E p [] s ∧ fed [] = [] ∧ s.getCount.toNat = 64 := by
  obtain ⟨p, e, hview⟩ := setAll_view [.key [1]] (by simp [Setter.InRange]) Params.new
  have hp : p.Accepted := ⟨_, e⟩
  refine ⟨p, hp, ?_⟩
  intro E hE
  obtain ⟨s, hs, _⟩ := withParams_ok E hE p hp.valid
  have hr : Reaches E p [] s := ⟨s, [], hs, rfl⟩
  refine ⟨s, hr, rfl, ?_⟩
  have hk : p.keyLength = 1 := by
    have := congrArg (fun v => v.values.keyLength) hview
    exact this
  rw [C05_count_exact E hE p hp [] s hr, hk]
  rfl

example : ∃ s, Reaches releasePlain Params.new [.update [1, 2, 3]] s := by
  obtain ⟨s, s', hs, e, e', _⟩ := C04_finalize releasePlain (by decide) Params.new ⟨[], rfl⟩
    [.update [1, 2, 3]] (by simp [Fits, releasePlain])
  exact ⟨s', s, hs, e, e'⟩

/-! ## C06 -/

/-- C06: whatever the history, `finalize` returns what a one-shot hash of the bytes fed would return
with the last-node flag set in the parameters to the last value given. -/
theorem C06_last_node (E : Env) (hE : E.WF) (p : Params) (hp : p.Accepted) (ops : List Op)
    (s : State) (hs : Reaches E p ops s) :
    ∃ s' d, s.finalize E = .ok (s', d) ∧
      hashOne E (p.setLastNode (lastFlag p.lastNode ops)) (fed ops) = .ok d := by
  have v := hp.valid
  have r := hs.rep hE v
  obtain ⟨s', d, e, _, hb, hl, _⟩ := finalize_ok r
  refine ⟨s', d, e, ?_⟩
  have v' : (p.setLastNode (lastFlag p.lastNode ops)).Valid :=
    ⟨v.hl, v.kl, v.key, v.md, v.off, v.inner⟩
  obtain ⟨d', e', hd', _⟩ := (hashOne_ends E hE _ v' (fed ops)).elim r.notTooLong
  rw [e']
  congr 1
  refine Cfg.hashes_unique hd' ⟨?_, ?_⟩
  · rw [hb, after_h0, after_lastNode]; rfl
  · rw [hl, after_hashLength]; rfl

example : ∃ s s' d, Reaches debugAvx2 keyedParams (someOps ++ [.setLastNode false]) s ∧
    s.finalize debugAvx2 = .ok (s', d) ∧
    hashOne debugAvx2 (keyedParams.setLastNode false) (bytes150 ++ bytes150) = .ok d := by
  have hf : fed (someOps ++ [.setLastNode false]) = bytes150 ++ bytes150 := by
    rw [fed_append, fed_someOps]; simp [fed]
  obtain ⟨s, hs⟩ := reaches debugAvx2 (by decide) _ keyedParams_accepted (someOps ++ [.setLastNode false]) (by
    rw [hf, List.length_append, length150]; decide)
  obtain ⟨s', d, h1, h2⟩ := C06_last_node debugAvx2 (by decide) _ keyedParams_accepted _ s hs
  rw [hf] at h2
  exact ⟨s, s', d, hs, h1, h2⟩

/-- C06: `set_last_node` does not touch the counter or the bytes fed: two opposite settings followed by
the original value leave no trace. -/
theorem C06_only_flag (E : Env) (hE : E.WF) (p : Params) (hp : p.Accepted) (ops : List Op)
    (s : State) (hs : Reaches E p ops s) (b : Bool) (after : List Op) :
    ((s.setLastNode b).setLastNode (lastFlag p.lastNode ops)).run E after = s.run E after := by
  have r := hs.rep hE hp.valid
  obtain ⟨_, w, _⟩ := r
  have : (s.setLastNode b).setLastNode (lastFlag p.lastNode ops) = s := by
    have h1 := w.ln
    rw [after_lastNode] at h1
    have h2 : (p.cfg E).lastNode = p.lastNode := rfl
    rw [h2] at h1
    unfold State.setLastNode
    rw [← h1]
  rw [this]

example : ∃ s, Reaches debugAvx2 keyedParams someOps s ∧
    ((s.setLastNode false).setLastNode true).run debugAvx2 [.update [1], .finalize] =
      s.run debugAvx2 [.update [1], .finalize] := by
  obtain ⟨s, hs⟩ := reaches_someOps debugAvx2 (by decide)
  exact ⟨s, hs, C06_only_flag debugAvx2 (by decide) _ keyedParams_accepted _ s hs false [.update [1], .finalize]⟩

example : lastFlag false [.update [1], .setLastNode true, .update [2], .finalize] = true := rfl

/-! ## C31 (the part about `State`) -/

/-- C31: `write` consumes everything, reports the length, and is `update`; panics agree. -/
theorem C31_write (E : Env) (s : State) (buf : List U8) :
    s.write E buf = (s.update E buf).map (fun s' => (s', buf.length)) := by
  unfold State.write
  cases s.update E buf <;> rfl

example : ∃ s, Reaches debugAvx2 keyedParams someOps s ∧
    s.write debugAvx2 bytes150 = (s.update debugAvx2 bytes150).map (fun s' => (s', 150)) := by
  obtain ⟨s, hs⟩ := reaches_someOps debugAvx2 (by decide)
  have h := C31_write debugAvx2 s bytes150
  rw [length150] at h
  exact ⟨s, hs, h⟩

/-- C31: `flush` changes nothing. -/
theorem C31_flush (s : State) : s.flush = s := rfl

/-- C31: writing the pieces of a message (with flushes anywhere) gives its hash. -/
theorem C31_pieces (E : Env) (hE : E.WF) (p : Params) (hp : p.Accepted) (ops : List Op)
    (hops : ∀ op ∈ ops, op = .flush ∨ ∃ b, op = .write b ∨ op = .update b)
    (h : Fits E p (fed ops).length) :
    ∃ s s' d, p.toState E = .ok s ∧ s.run E (ops ++ [.finalize]) = .ok (s', [d]) ∧
      d.asBytes = .ok (Spec.hash p.values p.keyBytes p.lastNode (fed ops)) := by
  obtain ⟨s, s', hs, e, e', hd⟩ := C04_finalize E hE p hp (ops ++ [.finalize]) (by
    rw [fed_append]; simpa [fed] using h)
  have key : ∀ (ops : List Op) (done : List U8),
      (∀ op ∈ ops, op = .flush ∨ ∃ b, op = .write b ∨ op = .update b) →
      digests p.values p.keyBytes p.lastNode done (ops ++ [.finalize]) =
        [Spec.hash p.values p.keyBytes p.lastNode (done ++ fed ops)] := by
    intro ops
    induction ops with
    | nil => intro done _; simp [digests, fed]
    | cons op ops ih =>
      intro done h
      have h2 := ih
      have hrest : ∀ op ∈ ops, op = .flush ∨ ∃ b, op = .write b ∨ op = .update b :=
        fun o ho => h o (List.mem_cons_of_mem _ ho)
      rcases h op List.mem_cons_self with rfl | ⟨b, rfl | rfl⟩
      · exact ih done hrest
      · simp only [List.cons_append, digests, fed, ih (done ++ b) hrest, List.append_assoc]
      · simp only [List.cons_append, digests, fed, ih (done ++ b) hrest, List.append_assoc]
  rw [key ops [] hops, List.nil_append] at hd
  match hs, hd with
  | [], hd => cases hd
  | d :: t, hd =>
    rw [List.mapM_cons] at hd
    cases h1 : d.asBytes with
    | error f => rw [h1] at hd; cases hd
    | ok x =>
      rw [h1] at hd
      cases h2 : t.mapM Hash.asBytes with
      | error f => rw [h2] at hd; cases hd
      | ok y =>
        rw [h2] at hd
        have hd' : x :: y = [_] := Except.ok.inj hd
        cases hd'
        have ht : t = [] := by
          cases t with
          | nil => rfl
          | cons a l =>
            rw [List.mapM_cons] at h2
            cases h3 : a.asBytes with
            | error f => rw [h3] at h2; cases h2
            | ok z =>
              rw [h3] at h2
              cases h4 : l.mapM Hash.asBytes with
              | error f => rw [h4] at h2; cases h2
              | ok w => rw [h4] at h2; cases h2
        subst ht
        exact ⟨s, s', d, e, e', h1⟩

example : ∃ s s' d, keyedParams.toState debugAvx2 = .ok s ∧
    s.run debugAvx2 [.write bytes150, .flush, .update [3], .write bytes150, .finalize] = .ok (s', [d]) ∧
    d.asBytes = .ok (Spec.hash keyedParams.values keyedParams.keyBytes keyedParams.lastNode
      (bytes150 ++ ([3] ++ (bytes150 ++ [])))) :=
  C31_pieces debugAvx2 (by decide) _ keyedParams_accepted [.write bytes150, .flush, .update [3], .write bytes150]
    (by simp) (fits_short _ _ (by simp [fed, length150]))

example : ∀ op ∈ [Op.write [1, 2], .flush, .update [3]],
    op = .flush ∨ ∃ b, op = .write b ∨ op = .update b := by simp

/-! ## C35 (the part about `State`) -/

/-- C35: `update` on any reachable state succeeds exactly as long as the bytes fed fit; otherwise it
panics with an arithmetic overflow. No index error, no non-termination, no illegal instruction. -/
theorem C35_update (E : Env) (hE : E.WF) (p : Params) (hp : p.Accepted) (ops : List Op) (s : State)
    (hs : Reaches E p ops s) (input : List U8) :
    (Fits E p ((fed ops).length + input.length) → ∃ s', s.update E input = .ok s') ∧
    (¬ Fits E p ((fed ops).length + input.length) → s.update E input = .error .overflow) := by
  have v := hp.valid
  have r := hs.rep hE v
  have ht := tooLong_iff_fits (E := E) v (fed ops ++ input)
  rw [List.length_append, ← List.append_assoc] at ht
  constructor
  · intro hf
    obtain ⟨s', e, _⟩ := (update_ends r input).elim (by rw [ht]; simpa using hf)
    exact ⟨s', e⟩
  · intro hf
    rcases update_ends r input with ⟨s', _, r'⟩ | ⟨e, _⟩
    · exact absurd (ht.mpr hf) r'.notTooLong
    · exact e

example : ∃ s s', Reaches debugAvx2 keyedParams someOps s ∧ s.update debugAvx2 bytes150 = .ok s' := by
  obtain ⟨s, hs⟩ := reaches_someOps debugAvx2 (by decide)
  obtain ⟨s', h⟩ := (C35_update debugAvx2 (by decide) _ keyedParams_accepted _ s hs bytes150).1
    (fits_short _ _ (by rw [fed_someOps, List.length_append, length150]; decide))
  exact ⟨s, s', hs, h⟩

example (long : List U8) (hl : long.length = 2 ^ 64 - 364) :
    ∃ s, Reaches debugAvx2 keyedParams someOps s ∧ s.update debugAvx2 long = .error .overflow := by
  obtain ⟨s, hs⟩ := reaches_someOps debugAvx2 (by decide)
  refine ⟨s, hs, (C35_update debugAvx2 (by decide) _ keyedParams_accepted _ s hs long).2 ?_⟩
  rw [fed_someOps, List.length_append, length150, hl]
  intro h
  exact absurd (h rfl) (by decide)

/-- C35: `finalize` on any reachable state succeeds. -/
theorem C35_finalize (E : Env) (hE : E.WF) (p : Params) (hp : p.Accepted) (ops : List Op) (s : State)
    (hs : Reaches E p ops s) : ∃ s' d, s.finalize E = .ok (s', d) := by
  obtain ⟨s', d, e, _⟩ := finalize_ok (hs.rep hE hp.valid)
  exact ⟨s', d, e⟩

example : ∃ s s' d, Reaches debugAvx2 keyedParams someOps s ∧ s.finalize debugAvx2 = .ok (s', d) := by
  obtain ⟨s, hs⟩ := reaches_someOps debugAvx2 (by decide)
  obtain ⟨s', d, h⟩ := C35_finalize debugAvx2 (by decide) _ keyedParams_accepted _ s hs
  exact ⟨s, s', d, hs, h⟩

/-- C35: creating a state from accepted parameters succeeds. -/
theorem C35_to_state (E : Env) (hE : E.WF) (p : Params) (hp : p.Accepted) :
    ∃ s, p.toState E = .ok s := by
  obtain ⟨s, e, _⟩ := withParams_ok E hE p hp.valid
  exact ⟨s, e⟩

example : ∃ s, keyedParams.toState debugAvx2 = .ok s :=
  C35_to_state debugAvx2 (by decide) _ keyedParams_accepted

/-- Both sides of C35 occur: with overflow checks on, 2^64 bytes do not fit; without, they do. -/
example : ¬ Fits debugAvx2 Params.new (2 ^ 64) ∧ Fits releasePlain Params.new (2 ^ 64) ∧
    Fits debugAvx2 Params.new (2 ^ 64 - 1) := by
  simp [Fits, debugAvx2, releasePlain, Params.new, Params.default]

/-! ## C36 -/

/-- C36: two histories over the same parameters that feed the same bytes and leave the same last-node
flag lead to states that no further calls can tell apart. -/
theorem C36_indistinguishable (E : Env) (hE : E.WF) (p : Params) (hp : p.Accepted)
    (a b : List Op) (s t : State) (hs : Reaches E p a s) (ht : Reaches E p b t)
    (hfed : fed a = fed b) (hflag : lastFlag p.lastNode a = lastFlag p.lastNode b)
    (after : List Op) :
    (s.run E after).map (fun x => (x.1.getCount, x.1.debug, x.2)) =
      (t.run E after).map (fun x => (x.1.getCount, x.1.debug, x.2)) := by
  have rs := hs.rep hE hp.valid
  have rt := ht.rep hE hp.valid
  rw [← hfed] at rt
  refine run_same rfl rs rt ?_ ?_ ?_ after
  · rw [after_h0, after_h0]
  · rw [after_lastNode, after_lastNode]; exact hflag
  · rw [after_hashLength, after_hashLength]

example : ∃ s t, Reaches debugAvx2 keyedParams someOps s ∧
    Reaches debugAvx2 keyedParams [.forcePortable, .update (bytes150 ++ bytes150)] t ∧
    (s.run debugAvx2 [.update [1], .finalize]).map (fun x => (x.1.getCount, x.1.debug, x.2)) =
      (t.run debugAvx2 [.update [1], .finalize]).map (fun x => (x.1.getCount, x.1.debug, x.2)) := by
  have hf : fed [.forcePortable, .update (bytes150 ++ bytes150)] = bytes150 ++ bytes150 := by simp [fed]
  obtain ⟨s, hs⟩ := reaches_someOps debugAvx2 (by decide)
  obtain ⟨t, ht⟩ := reaches debugAvx2 (by decide) _ keyedParams_accepted
    [.forcePortable, .update (bytes150 ++ bytes150)] (by rw [hf, List.length_append, length150]; decide)
  exact ⟨s, t, hs, ht, C36_indistinguishable debugAvx2 (by decide) _ keyedParams_accepted _ _ s t hs ht
    (by rw [fed_someOps, hf]) rfl [.update [1], .finalize]⟩

example : fed [.update [1, 2], .finalize, .update [3]] = fed [.update [1], .write [2, 3]] ∧
    lastFlag false [.update [1, 2], .finalize, .update [3]] =
      lastFlag false [.update [1], .write [2, 3]] := ⟨rfl, rfl⟩

/-! ## C39 (the part about `State`) -/

/-- C39: the four ways of making a default state are the same. -/
theorem C39_constructors (E : Env) :
    State.new E = State.default E ∧ State.new E = Params.new.toState E ∧
      State.new E = Params.default.toState E := ⟨rfl, rfl, rfl⟩

/-- C39: the defaults are 32-byte output, no key, fanout 1, depth 1, everything else zero. -/
theorem C39_defaults : Params.default.view = ⟨Spec.sequential 32 0, [], false⟩ ∧
    Params.new = Params.default := ⟨rfl, rfl⟩

end Blake2s
