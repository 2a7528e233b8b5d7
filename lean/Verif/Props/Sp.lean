import Verif.Proofs.SpWitness
import Verif.Proofs.SpHistory
import Verif.Props.Single
/-!
# Properties of BLAKE2sp: C26 - C30 and the BLAKE2sp parts of C31, C35, C39
-/

namespace Blake2s.Sp

/-! ## C26 -/

/-- C26: the one-shot function returns the BLAKE2sp digest. The length bound is only needed when
overflow checks are on. -/
theorem C26_one_shot (E : Env) (hE : E.WF) (input : List U8)
    (h : E.overflowChecks = true → input.length < 2 ^ 64) :
    ∃ d, blake2sp E input = .ok d ∧ d.asBytes = .ok (Spec.Sp.blake2sp input) := by
  have v := default_valid
  obtain ⟨s, e, a⟩ := Abs.new E hE Params.default v
  have hk : Params.default.keyLength ≠ 0 → False := fun h => h rfl
  have nb : ¬ Bad E Params.default ([] ++ input) := not_bad v h (fun h => (hk h).elim)
  obtain ⟨s1, e1, a1⟩ := (a.update v input (fun h => (hk h).elim)).elim nb
  obtain ⟨⟨_, d⟩, e2, -, hd⟩ := (a1.finalize v).elim nb
  refine ⟨d, ?_, hd.asBytes v⟩
  have e' : State.new E = .ok s := e
  unfold blake2sp
  simp only [e', bind, Except.bind, e1, e2]
  rfl

example : ∃ d, blake2sp debugAvx2 bytes1500 = .ok d ∧ d.asBytes = .ok (Spec.Sp.blake2sp bytes1500) :=
  C26_one_shot debugAvx2 (by decide) bytes1500 (by rw [length1500]; decide)

/-- The specification deals block number 8 back to leaf 0. -/
example : Spec.Sp.leafInput 0 (List.replicate 64 1 ++ List.replicate 448 2 ++ [3, 4]) =
    List.replicate 64 1 ++ [3, 4] := by decide +kernel

/-! ## C28: every history -/

/-- C28: over any history of calls on an unkeyed state, nothing panics and every `finalize` returns the
BLAKE2sp digest of exactly the bytes fed before it; in particular earlier `finalize` calls have no
influence. -/
theorem C28_finalize (E : Env) (hE : E.WF) (p : Params) (hp : p.Accepted) (hk : p.keyLength = 0)
    (ops : List Op) (h : Fits E (fed ops).length) :
    ∃ s s' hs, p.toState E = .ok s ∧ s.run E ops = .ok (s', hs) ∧
      hs.mapM Hash.asBytes = .ok (digests p.hashLength [] [] ops) := by
  have v := hp.valid
  have hs : Short p 0 ops := fun h => absurd hk h
  obtain ⟨s, e, a⟩ := Abs.new E hE p v
  obtain ⟨x, hx, ax, dx⟩ := (run_ends v ops a hs).elim (by
    simpa using not_bad_fed v h hs)
  refine ⟨s, x.1, x.2, e, hx, ?_⟩
  have hkb : p.keyBytes = [] := by
    rw [← List.length_eq_zero_iff, v.keyBytes_length, hk]; rfl
  have := dx.asBytes v
  rwa [hkb] at this

example : ∃ s s' hs, shortParams.toState debugAvx2 = .ok s ∧
    s.run debugAvx2 (longOps ++ [.finalize]) = .ok (s', hs) ∧
    hs.mapM Hash.asBytes = .ok [Spec.Sp.hash 20 [] bytes1500, Spec.Sp.hash 20 [] (bytes1500 ++ bytes150)] := by
  have h := C28_finalize debugAvx2 (by decide) _ shortParams_accepted (by decide) (longOps ++ [.finalize]) (by
    intro _; rw [fed_append, List.length_append, length_longOps]; decide)
  have e : digests shortParams.hashLength [] [] (longOps ++ [.finalize]) =
      [Spec.Sp.hash 20 [] bytes1500, Spec.Sp.hash 20 [] (bytes1500 ++ bytes150)] := by
    simp only [longOps, digests, List.cons_append, List.nil_append]
    rfl
  rwa [e] at h

/-- C28: `finalize` leaves the state it is called on exactly as it was. This holds for every state, keyed
or not. -/
theorem C28_unchanged (E : Env) (s s' : State) (d : Hash) (h : s.finalize E = .ok (s', d)) : s' = s :=
  finalize_keeps h

example : ∃ s s' d, Reaches debugAvx2 keyedParams shortOps s ∧ s.finalize debugAvx2 = .ok (s', d) ∧ s' = s := by
  obtain ⟨s, hs⟩ := reaches_shortOps debugAvx2 (by decide)
  have v := keyedParams_accepted.valid
  obtain ⟨x, e, _⟩ := ((hs.abs (by decide) v fun _ => shortOps_buffered).finalize v).elim
    (not_bad_fed v (fun _ => by rw [length_shortOps]; decide) fun _ => shortOps_buffered)
  exact ⟨s, x.1, x.2, hs, e, C28_unchanged debugAvx2 s x.1 x.2 e⟩

/-- C28: hence removing a `finalize` call that returns changes nothing for the calls after it. -/
theorem C28_removable (E : Env) (s s' : State) (d : Hash) (h : s.finalize E = .ok (s', d))
    (after : List Op) :
    s.run E (.finalize :: after) = (s.run E after).map fun x => (x.1, d :: x.2) := by
  show (s.finalize E >>= fun x => x.1.run E after >>= fun y => pure (y.1, x.2 :: y.2)) = _
  rw [h, finalize_keeps h]
  show (s.run E after >>= fun y => pure (y.1, d :: y.2)) = _
  cases s.run E after <;> rfl

example : ∃ s s' d, Reaches debugAvx2 keyedParams shortOps s ∧ s.finalize debugAvx2 = .ok (s', d) ∧
    s.run debugAvx2 [.finalize, .update [1], .finalize] =
      (s.run debugAvx2 [.update [1], .finalize]).map fun x => (x.1, d :: x.2) := by
  obtain ⟨s, hs⟩ := reaches_shortOps debugAvx2 (by decide)
  have v := keyedParams_accepted.valid
  obtain ⟨x, e, _⟩ := ((hs.abs (by decide) v fun _ => shortOps_buffered).finalize v).elim
    (not_bad_fed v (fun _ => by rw [length_shortOps]; decide) fun _ => shortOps_buffered)
  exact ⟨s, x.1, x.2, hs, e, C28_removable debugAvx2 s x.1 x.2 e [.update [1], .finalize]⟩

/-- C28: any number of `finalize` calls in a row, on any unkeyed state a caller can reach, return the same
hash, the BLAKE2sp digest of the bytes fed. -/
theorem C28_repeatable (E : Env) (hE : E.WF) (p : Params) (hp : p.Accepted) (hk : p.keyLength = 0)
    (before : List Op) (s : State) (hs : Reaches E p before s) (h : Fits E (fed before).length)
    (n : Nat) :
    ∃ d, s.run E (List.replicate n .finalize) = .ok (s, List.replicate n d) ∧
      d.asBytes = .ok (Spec.Sp.hash p.hashLength [] (fed before)) := by
  have v := hp.valid
  have hsh : Short p 0 before := fun h => absurd hk h
  have a := hs.abs hE v hsh
  obtain ⟨⟨s', d⟩, e, rfl, hd⟩ := (a.finalize v).elim (not_bad_fed v h hsh)
  have hkb : p.keyBytes = [] := by
    rw [← List.length_eq_zero_iff, v.keyBytes_length, hk]; rfl
  refine ⟨d, ?_, by rw [← hkb]; exact hd.asBytes v⟩
  induction n with
  | zero => rfl
  | succ n ih =>
    rw [List.replicate_succ, List.replicate_succ]
    unfold State.run
    rw [e]
    show (State.run E s' (List.replicate n .finalize) >>= _) = _
    rw [ih]
    rfl

example : ∃ s d, Reaches debugAvx2 shortParams longOps s ∧
    s.run debugAvx2 [.finalize, .finalize, .finalize] = .ok (s, [d, d, d]) ∧
    d.asBytes = .ok (Spec.Sp.hash 20 [] (bytes1500 ++ bytes150)) := by
  obtain ⟨s, hs⟩ := reaches_longOps debugAvx2 (by decide)
  obtain ⟨d, h1, h2⟩ := C28_repeatable debugAvx2 (by decide) _ shortParams_accepted (by decide) _ s hs
    (fun _ => by rw [length_longOps]; decide) 3
  rw [fed_longOps] at h2
  exact ⟨s, d, hs, h1, h2⟩

example : digests 32 [] [] [.update [1], .finalize, .finalize, .write [2], .finalize] =
    [Spec.Sp.hash 32 [] [1], Spec.Sp.hash 32 [] [1], Spec.Sp.hash 32 [] [1, 2]] := rfl

/-! ## C27 -/

/-- C27: for unkeyed parameters of any hash length, feeding the pieces of a message gives the BLAKE2sp
digest of the concatenation. -/
theorem C27_digest (E : Env) (hE : E.WF) (p : Params) (hp : p.Accepted) (hk : p.keyLength = 0)
    (chunks : List (List U8)) (h : Fits E chunks.flatten.length) :
    ∃ s s' d, p.toState E = .ok s ∧ s.run E (chunks.map Op.update ++ [.finalize]) = .ok (s', [d]) ∧
      d.asBytes = .ok (Spec.Sp.hash p.hashLength [] chunks.flatten) := by
  have v := hp.valid
  have hs : Short p 0 (chunks.map Op.update ++ [.finalize]) := fun h => absurd hk h
  obtain ⟨s, e, a⟩ := Abs.new E hE p v
  have hf : fed (chunks.map Op.update ++ [.finalize]) = chunks.flatten := by
    rw [fed_append, fed_chunks]; simp [fed]
  obtain ⟨x, hx, ax, dx⟩ := (run_ends v _ a hs).elim (by
    simpa using not_bad_fed v (by rw [hf]; exact h) hs)
  rw [digests_chunks] at dx
  obtain ⟨d, t, hd, hh, ht⟩ := dx
  have ht' : t = [] := ht
  subst ht'
  have hkb : p.keyBytes = [] := by
    rw [← List.length_eq_zero_iff, v.keyBytes_length, hk]; rfl
  refine ⟨s, x.1, d, e, by rw [hx, ← hd], ?_⟩
  rw [← hkb]
  exact hh.asBytes v

example : ∃ s s' d, shortParams.toState debugAvx2 = .ok s ∧
    s.run debugAvx2 [.update bytes150, .update bytes1500, .update [], .finalize] = .ok (s', [d]) ∧
    d.asBytes = .ok (Spec.Sp.hash 20 [] (bytes150 ++ (bytes1500 ++ ([] ++ [])))) :=
  C27_digest debugAvx2 (by decide) _ shortParams_accepted (by decide) [bytes150, bytes1500, []] (by
    intro _
    simp only [List.flatten_cons, List.flatten_nil, List.length_append, length150, length1500, List.length_nil]
    decide)

/-- C27 in the middle of a history: cutting a piece of input differently changes neither the final
count nor any later digest. -/
theorem C27_split (E : Env) (hE : E.WF) (p : Params) (hp : p.Accepted) (hk : p.keyLength = 0)
    (before : List Op) (s : State) (hs : Reaches E p before s) (chunks : List (List U8))
    (after : List Op)
    (h : Fits E (fed before ++ chunks.flatten ++ fed after).length) :
    seen E (s.run E (chunks.map Op.update ++ after)) =
      seen E (s.run E (.update chunks.flatten :: after)) := by
  have v := hp.valid
  have hsh : ∀ n ops, Short p n ops := fun _ _ h => absurd hk h
  have a := hs.abs hE v (hsh _ _)
  have nb : ¬ Bad E p (fed before ++ chunks.flatten ++ fed after) :=
    not_bad v h (fun h => absurd hk h)
  have e1 : fed (chunks.map Op.update ++ after) = chunks.flatten ++ fed after := by
    rw [fed_append, fed_chunks]
  have e2 : fed (.update chunks.flatten :: after) = chunks.flatten ++ fed after := rfl
  obtain ⟨x, hx, ax, dx⟩ := (run_ends v (chunks.map Op.update ++ after) a (hsh _ _)).elim (by
    rw [e1, ← List.append_assoc]; exact nb)
  obtain ⟨y, hy, ay, dy⟩ := (run_ends v (.update chunks.flatten :: after) a (hsh _ _)).elim (by
    rw [e2, ← List.append_assoc]; exact nb)
  rw [digests_chunks] at dx
  have hxy : x.2 = y.2 := dx.unique dy
  rw [e1, ← List.append_assoc] at ax
  rw [e2, ← List.append_assoc] at ay
  have nc : ¬ (E.overflowChecks = true ∧ 2 ^ 64 ≤ (if p.keyLength = 0 then 0 else 512) +
      (fed before ++ chunks.flatten ++ fed after).length) := by
    rintro ⟨ho, hl⟩
    have := h ho
    rw [if_pos hk] at hl
    omega
  obtain ⟨kx, ex, hkx, _⟩ := (ax.count v).elim nc
  obtain ⟨ky, ey, hky, _⟩ := (ay.count v).elim nc
  unfold seen
  rw [hx, hy]
  simp only [bind, Except.bind, ex, ey, hkx, hky, hxy]

example : ∃ s, Reaches debugAvx2 shortParams longOps s ∧
    seen debugAvx2 (s.run debugAvx2 [.update bytes150, .update bytes1500, .update [7], .finalize]) =
      seen debugAvx2 (s.run debugAvx2 [.update (bytes150 ++ (bytes1500 ++ [])), .update [7], .finalize]) := by
  obtain ⟨s, hs⟩ := reaches_longOps debugAvx2 (by decide)
  exact ⟨s, hs, C27_split debugAvx2 (by decide) _ shortParams_accepted (by decide) _ s hs [bytes150, bytes1500]
    [.update [7], .finalize] (by
      intro _
      simp only [List.flatten_cons, List.flatten_nil, List.length_append, length150, length1500, length_longOps,
        List.length_nil, fed, List.length_cons]
      decide)⟩

example : (Params.new.setHashLength 20).isOk ∧
    Fits debugAvx2 ([List.replicate 700 1, [], List.replicate 900 2] : List (List U8)).flatten.length := by
  constructor
  · rfl
  · intro _
    simp only [List.flatten_cons, List.flatten_nil, List.length_append, List.length_replicate,
      List.length_nil]
    decide

/-! ## C29 -/

/-- C29, what `count` really returns: the bytes fed, plus 512 (eight key blocks) with a key. With
overflow checks on it panics exactly when that sum does not fit into 64 bits. This holds after every
history, with a key or without, also where the digests are wrong (C30). -/
theorem C29_count_exact (E : Env) (hE : E.WF) (p : Params) (hp : p.Accepted) (ops : List Op)
    (s : State) (hr : Reaches E p ops s) (n : Nat)
    (hn : n = (if p.keyLength = 0 then 0 else 512) + (fed ops).length) :
    s.getCount E = if E.overflowChecks = true ∧ 2 ^ 64 ≤ n then .error .overflow
      else .ok (BitVec.ofNat 64 n) := by
  have v := hp.valid
  have a := hr.absN hE v
  subst hn
  rcases a.count v with ⟨k, e, hk, hn⟩ | ⟨e, hc⟩
  · rw [if_neg (fun h => by have := hn h.1; omega), e, hk]
  · rw [if_pos hc, e]

example : ∃ s, Reaches debugAvx2 keyedParams shortOps s ∧ s.getCount debugAvx2 = .ok 812 := by
  obtain ⟨s, hs⟩ := reaches_shortOps debugAvx2 (by decide)
  have h := C29_count_exact debugAvx2 (by decide) _ keyedParams_accepted _ s hs 812 (by
    rw [length_shortOps]; decide)
  rw [if_neg (by omega)] at h
  exact ⟨s, hs, h⟩

/-- C29 for unkeyed states. Missing from the full property: with a key it is false, see
`C29_keyed_false`. -/
theorem C29_count_partial (E : Env) (hE : E.WF) (p : Params) (hp : p.Accepted)
    (hk : p.keyLength = 0) (ops : List Op) (s : State) (hs : Reaches E p ops s)
    (hlen : (fed ops).length < 2 ^ 64) :
    ∃ k, s.getCount E = .ok k ∧ k.toNat = (fed ops).length := by
  refine ⟨BitVec.ofNat 64 (fed ops).length, ?_, ?_⟩
  · rw [C29_count_exact E hE p hp ops s hs _ rfl, if_pos hk, Nat.zero_add,
      if_neg (by omega)]
  · rw [BitVec.toNat_ofNat, Nat.mod_eq_of_lt hlen]

example : ∃ s k, Reaches debugAvx2 shortParams longOps s ∧ s.getCount debugAvx2 = .ok k ∧ k.toNat = 1650 := by
  obtain ⟨s, hs⟩ := reaches_longOps debugAvx2 (by decide)
  obtain ⟨k, h1, h2⟩ := C29_count_partial debugAvx2 (by decide) _ shortParams_accepted (by decide) _ s hs (by
    rw [length_longOps]; decide)
  rw [length_longOps] at h2
  exact ⟨s, k, hs, h1, h2⟩

/-- C29 is false with a key: a freshly created keyed state, to which nothing has been fed, reports 512
bytes. -/
theorem C29_keyed_false : ∃ p : Params, p.Accepted ∧ ∀ E : Env, E.WF →
    ∃ s, Reaches E p [] s ∧ fed [] = [] ∧ s.getCount E = .ok 512 := by
  refine ⟨keyed1, keyed1_accepted, ?_⟩
  intro E hE
  obtain ⟨s, hs, _⟩ := Abs.new E hE keyed1 keyed1_accepted.valid
  have hr : Reaches E keyed1 [] s := ⟨s, [], hs, rfl⟩
  refine ⟨s, hr, rfl, ?_⟩
  rw [C29_count_exact E hE keyed1 keyed1_accepted [] s hr _ rfl]
  rw [show (if keyed1.keyLength = 0 then 0 else 512) + (fed []).length = 512 from rfl,
    if_neg (by omega)]
  rfl

example : ∃ s, Reaches debugAvx2 Params.new [.update (List.replicate 2000 1), .write [2]] s := by
  obtain ⟨s, s', hs, e, e', _⟩ := C28_finalize debugAvx2 (by decide) Params.new ⟨[], rfl⟩ rfl
    [.update (List.replicate 2000 1), .write [2]] (by
      intro _
      simp only [fed, List.length_append, List.length_replicate, List.length_nil,
        List.length_cons]
      decide)
  exact ⟨s', s, hs, e, e'⟩

/-! ## C30 -/

/-- The full property C30: every history on a state with a key behaves according to the
specification. It is false of the code; see `C30_false`, `C30_debug_panics`. -/
def C30 : Prop :=
  ∀ (E : Env) (_ : E.WF) (p : Params) (_ : p.Accepted) (ops : List Op)
    (_ : (fed ops).length < 2 ^ 60),
    ∃ s s' hs, p.toState E = .ok s ∧ s.run E ops = .ok (s', hs) ∧
      hs.mapM Hash.asBytes = .ok (digests p.hashLength p.keyBytes [] ops)

/-- C30 as far as it is true: without a key for every history, with a key for the histories that never
leave the buffer (at most 960 bytes in the first non-empty call, at most 1024 in all). Missing: every
longer history with a key, where it is false. -/
theorem C30_partial (E : Env) (hE : E.WF) (p : Params) (hp : p.Accepted) (ops : List Op)
    (hfit : Fits E (fed ops).length) (hs : p.keyLength ≠ 0 → AllBuffered 0 ops) :
    ∃ s s' hs, p.toState E = .ok s ∧ s.run E ops = .ok (s', hs) ∧
      hs.mapM Hash.asBytes = .ok (digests p.hashLength p.keyBytes [] ops) := by
  have v := hp.valid
  obtain ⟨s, e, a⟩ := Abs.new E hE p v
  obtain ⟨x, hx, ax, dx⟩ := (run_ends v ops a hs).elim (by
    simpa using not_bad_fed v hfit hs)
  exact ⟨s, x.1, x.2, e, hx, dx.asBytes v⟩

example : ∃ s s' hs, keyedParams.toState debugAvx2 = .ok s ∧
    s.run debugAvx2 (shortOps ++ [.finalize]) = .ok (s', hs) ∧
    hs.mapM Hash.asBytes = .ok [Spec.Sp.hash 20 [1, 2, 3] bytes150,
      Spec.Sp.hash 20 [1, 2, 3] (bytes150 ++ bytes150)] :=
  C30_partial debugAvx2 (by decide) _ keyedParams_accepted (shortOps ++ [.finalize])
    (by intro _; rw [fed_append, List.length_append, length_shortOps]; decide)
    (fun _ => by
      simp only [AllBuffered, shortOps, List.cons_append, List.nil_append, length150]
      decide)

/-- Where C30 fails, debug builds: *every* history on *every* keyed state that leaves the buffer
panics, on every platform. -/
theorem C30_debug_panics (E : Env) (hE : E.WF) (hd : E.debugAssertions = true) (p : Params)
    (hp : p.Accepted) (hk : p.keyLength ≠ 0) (ops : List Op) (hb : ¬ AllBuffered 0 ops) :
    ∃ s, p.toState E = .ok s ∧ s.run E ops = .error .debugAssertFailed := by
  have v := hp.valid
  obtain ⟨s, e, a⟩ := Abs.new E hE p v
  exact ⟨s, e, run_panics hd v hk ops a (by simp) hb⟩

example : ∃ s, keyedParams.toState debugAvx2 = .ok s ∧ s.run debugAvx2 longOps = .error .debugAssertFailed :=
  C30_debug_panics debugAvx2 (by decide) rfl _ keyedParams_accepted (by decide) longOps longOps_not_buffered

/-- Where C30 fails, builds without debug assertions: what *every* history on *every* keyed state returns,
on every platform. The digests depend on the number of rows passed on, hence on how the input was cut. -/
theorem C30_release_exact (E : Env) (hE : E.WF) (hd : E.debugAssertions = false) (p : Params)
    (hp : p.Accepted) (hk : p.keyLength ≠ 0) (ops : List Op)
    (hfit : E.overflowChecks = true → 64 + (fed ops).length < 2 ^ 64) :
    ∃ s s' hs, p.toState E = .ok s ∧ s.run E ops = .ok (s', hs) ∧
      hs.mapM Hash.asBytes = .ok (keyedDigests p.hashLength p.keyBytes 0 [] ops) := by
  have v := hp.valid
  obtain ⟨s, e, a⟩ := AbsN.new E hE p v
  obtain ⟨x, hx, ax, dx⟩ := (run_endsN v ops a (fun h => by rw [hd] at h; cases h)).elim
    (not_bad' v (by rw [if_neg hk]; exact hfit))
  exact ⟨s, x.1, x.2, e, hx, dx.keyed v hk⟩

example : ∃ s s' hs, keyedParams.toState releasePlain = .ok s ∧ s.run releasePlain longOps = .ok (s', hs) ∧
    hs.mapM Hash.asBytes = .ok [keyedHash 20 [1, 2, 3] 2 bytes1500] := by
  have h := C30_release_exact releasePlain (by decide) rfl _ keyedParams_accepted (by decide) longOps nofun
  have e : keyedDigests keyedParams.hashLength keyedParams.keyBytes 0 [] longOps =
      [keyedHash 20 [1, 2, 3] 2 bytes1500] := by
    simp only [longOps, keyedDigests, rowsTaken, List.length_nil, length1500, List.nil_append]
    rfl
  rwa [e] at h

/-- A history that passes two rows on, finalizing in between. -/
example : keyedDigests 32 [1] 0 []
      [.update (List.replicate 961 0), .finalize, .write (List.replicate 600 2), .finalize] =
    [keyedHash 32 [1] 1 (List.replicate 961 0),
      keyedHash 32 [1] 2 (List.replicate 961 0 ++ List.replicate 600 2)] := by
  simp only [keyedDigests, rowsTaken, List.length_nil, List.length_append, List.length_replicate]
  rfl

/-- The two ways of feeding the same 961 zero bytes under the key `[1]`. -/
def oneUpdate : List Op := [.update (List.replicate 961 0), .finalize]
def twoUpdates : List Op := [.update [0], .update (List.replicate 960 0), .finalize]

/-- Where C30 fails, release builds: a wrong digest, and one that depends on how the input was cut. -/
theorem C30_release_wrong :
    ∃ s s1 s2 d1 d2, keyed1.toState plain = .ok s ∧
      s.run plain oneUpdate = .ok (s1, [d1]) ∧ s.run plain twoUpdates = .ok (s2, [d2]) ∧
      d2.asBytes = .ok (Spec.Sp.hash 32 [1] (List.replicate 961 0)) ∧
      d1.asBytes ≠ .ok (Spec.Sp.hash 32 [1] (List.replicate 961 0)) := by
  obtain ⟨s, s2, hs2, e, e2, hd2⟩ := C30_partial plain (by decide) keyed1 keyed1_accepted twoUpdates
    (by simp [Fits, plain]) (fun _ => by
      simp only [AllBuffered, Buffered, twoUpdates, List.length_replicate,
        List.length_cons, List.length_nil]
      decide)
  obtain ⟨s', s1, hs1, e', e1, hd1⟩ := C30_release_exact plain (by decide) rfl keyed1 keyed1_accepted
    (by decide) oneUpdate (by simp [plain])
  rw [e] at e'
  cases e'
  rw [keyed1_keyBytes] at hd1 hd2
  obtain ⟨d2, rfl, h2⟩ := single_digest (b := Spec.Sp.hash 32 [1] (List.replicate 961 0)) hd2
  have ek : keyedDigests keyed1.hashLength [1] 0 [] oneUpdate =
      [keyedHash 32 [1] 1 (List.replicate 961 0)] := by
    unfold oneUpdate
    simp only [keyedDigests, rowsTaken, List.length_nil, List.length_replicate]
    rfl
  rw [ek] at hd1
  obtain ⟨d1, rfl, h1⟩ := single_digest hd1
  refine ⟨s, s1, s2, d1, d2, e, e1, e2, h2, ?_⟩
  rw [h1]
  exact fun h => witness (Except.ok.inj h)

/-- C30 is false. -/
theorem C30_false : ¬ C30 := by
  intro h
  obtain ⟨s, s1, s2, d1, d2, e, h1, h2, hd2, hd1⟩ := C30_release_wrong
  obtain ⟨s', x, hs, e', hr, hd⟩ := h plain (by decide) keyed1 keyed1_accepted oneUpdate (by
    simp only [oneUpdate, fed, List.length_append, List.length_replicate, List.length_nil]
    decide)
  rw [e] at e'
  cases e'
  rw [h1] at hr
  cases hr
  have e3 : digests keyed1.hashLength keyed1.keyBytes [] oneUpdate =
      [Spec.Sp.hash 32 [1] (List.replicate 961 0)] := by
    rw [keyed1_keyBytes]; rfl
  rw [e3, List.mapM_cons] at hd
  cases ht : d1.asBytes with
  | error f => rw [ht] at hd; cases hd
  | ok b =>
    rw [ht] at hd
    have : [b] = [Spec.Sp.hash 32 [1] (List.replicate 961 0)] := Except.ok.inj hd
    cases this
    exact hd1 ht

/-- Both sides occur: a keyed history within the buffer, and ones outside it. -/
example : AllBuffered 0 [.update (List.replicate 960 0), .finalize, .write (List.replicate 64 0)] ∧
    ¬ AllBuffered 0 [.update (List.replicate 961 0)] ∧
    ¬ AllBuffered 0 [.update [1], .update (List.replicate 1024 0)] := by
  simp only [AllBuffered, Buffered, List.length_replicate, List.length_cons, List.length_nil]
  decide

/-! ## C31 (the part about BLAKE2sp) -/

/-- C31: `write` consumes everything, reports the length, and is `update`; panics agree. -/
theorem C31_sp_write (E : Env) (s : State) (buf : List U8) :
    s.write E buf = (s.update E buf).map (fun s' => (s', buf.length)) := by
  unfold State.write
  cases s.update E buf <;> rfl

example : ∃ s, Reaches debugAvx2 keyedParams shortOps s ∧
    s.write debugAvx2 bytes150 = (s.update debugAvx2 bytes150).map (fun s' => (s', 150)) := by
  obtain ⟨s, hs⟩ := reaches_shortOps debugAvx2 (by decide)
  have h := C31_sp_write debugAvx2 s bytes150
  rw [length150] at h
  exact ⟨s, hs, h⟩

/-- C31: `flush` changes nothing. -/
theorem C31_sp_flush (s : State) : s.flush = s := rfl

/-- C31: writing the pieces of a message (with flushes anywhere) gives its hash; with a key, as long as
everything stays in the buffer (see C30). -/
theorem C31_sp_pieces (E : Env) (hE : E.WF) (p : Params) (hp : p.Accepted) (ops : List Op)
    (hops : ∀ op ∈ ops, op = .flush ∨ ∃ b, op = .write b ∨ op = .update b)
    (h : Fits E (fed ops).length) (hb : p.keyLength ≠ 0 → AllBuffered 0 ops) :
    ∃ s s' s'' d, p.toState E = .ok s ∧ s.run E ops = .ok (s', []) ∧ s'.finalize E = .ok (s'', d) ∧
      d.asBytes = .ok (Spec.Sp.hash p.hashLength p.keyBytes (fed ops)) := by
  have v := hp.valid
  obtain ⟨s, e, a⟩ := Abs.new E hE p v
  have nb := not_bad_fed v h hb
  obtain ⟨x, hx, ax, dx⟩ := (run_ends v ops a hb).elim (by simpa using nb)
  obtain ⟨⟨s'', d⟩, ed, -, hd⟩ := (ax.finalize v).elim (by simpa using nb)
  refine ⟨s, x.1, s'', d, e, ?_, ed, by simpa using hd.asBytes v⟩
  rw [hx]
  have key : ∀ (ops : List Op) (done : List U8) (hs : List Hash),
      (∀ op ∈ ops, op = .flush ∨ ∃ b, op = .write b ∨ op = .update b) →
      Digests p done ops hs → hs = [] := by
    intro ops
    induction ops with
    | nil => intro _ _ _ h; exact h
    | cons op ops ih =>
      intro done hs ho h
      have hrest : ∀ op ∈ ops, op = .flush ∨ ∃ b, op = .write b ∨ op = .update b :=
        fun o hm => ho o (List.mem_cons_of_mem _ hm)
      rcases ho op List.mem_cons_self with rfl | ⟨b, rfl | rfl⟩
      · exact ih done hs hrest h
      · exact ih (done ++ b) hs hrest h
      · exact ih (done ++ b) hs hrest h
  rw [← key ops [] x.2 hops dx]

example : ∃ s s' s'' d, shortParams.toState debugAvx2 = .ok s ∧
    s.run debugAvx2 [.write bytes1500, .flush, .update bytes150] = .ok (s', []) ∧
    s'.finalize debugAvx2 = .ok (s'', d) ∧
    d.asBytes = .ok (Spec.Sp.hash 20 [] (bytes1500 ++ (bytes150 ++ []))) :=
  C31_sp_pieces debugAvx2 (by decide) _ shortParams_accepted [.write bytes1500, .flush, .update bytes150]
    (by simp)
    (by
      intro _
      simp only [fed, List.length_append, length150, length1500, List.length_nil]
      decide)
    (fun h => absurd (by decide) h)

example : ∀ op ∈ [Op.write [1, 2], .flush, .update [3]],
    op = .flush ∨ ∃ b, op = .write b ∨ op = .update b := by simp

/-! ## C35 (the part about BLAKE2sp) -/

/-- C35: on every state reachable without a key, `update`, `finalize` and `count` succeed as long as
fewer than 2^64 bytes are fed. -/
theorem C35_sp (E : Env) (hE : E.WF) (p : Params) (hp : p.Accepted) (hk : p.keyLength = 0)
    (ops : List Op) (s : State) (hs : Reaches E p ops s) (input : List U8)
    (h : Fits E ((fed ops).length + input.length)) :
    (∃ s', s.update E input = .ok s') ∧ (∃ s' d, s.finalize E = .ok (s', d)) ∧
      (∃ k, s.getCount E = .ok k) ∧ (∃ t, s.debug E = .ok t) := by
  have v := hp.valid
  have hsh : Short p 0 ops := fun h => absurd hk h
  have a := hs.abs hE v hsh
  have hf : Fits E (fed ops).length := fun ho => by have := h ho; omega
  obtain ⟨s', e, _⟩ := (a.update v input (fun h => absurd hk h)).elim (not_bad v (by
    rw [List.length_append]; exact h) (fun h => absurd hk h))
  obtain ⟨d, ed, _⟩ := (a.finalize v).elim (not_bad_fed v hf hsh)
  obtain ⟨k, ek, _⟩ := (a.count v).elim (by
    rintro ⟨ho, hl⟩
    have := hf ho
    rw [if_pos hk] at hl
    omega)
  refine ⟨⟨s', e⟩, ⟨d.1, d.2, ed⟩, ⟨k, ek⟩, ?_⟩
  unfold State.debug
  rw [ek]
  exact ⟨_, rfl⟩

example : ∃ s, Reaches debugAvx2 shortParams longOps s ∧ (∃ s', s.update debugAvx2 bytes1500 = .ok s') ∧
    (∃ s' d, s.finalize debugAvx2 = .ok (s', d)) ∧ (∃ k, s.getCount debugAvx2 = .ok k) ∧
    (∃ t, s.debug debugAvx2 = .ok t) := by
  obtain ⟨s, hs⟩ := reaches_longOps debugAvx2 (by decide)
  exact ⟨s, hs, C35_sp debugAvx2 (by decide) _ shortParams_accepted (by decide) _ s hs bytes1500 (by
    intro _; rw [length_longOps, length1500]; decide)⟩

/-- C35: creating a state from accepted parameters succeeds, keyed or not. -/
theorem C35_sp_to_state (E : Env) (hE : E.WF) (p : Params) (hp : p.Accepted) :
    ∃ s, p.toState E = .ok s := by
  obtain ⟨s, e, _⟩ := Abs.new E hE p hp.valid
  exact ⟨s, e⟩

example : ∃ s, keyedParams.toState debugAvx2 = .ok s :=
  C35_sp_to_state debugAvx2 (by decide) _ keyedParams_accepted

/-! ## C39 (the part about BLAKE2sp) -/

/-- C39: the four ways of making a default BLAKE2sp state are the same. -/
theorem C39_sp_constructors (E : Env) :
    State.new E = State.default E ∧ State.new E = Params.new.toState E ∧
      State.new E = Params.default.toState E := ⟨rfl, rfl, rfl⟩

/-- C39: the defaults are 32-byte output and no key. -/
theorem C39_sp_defaults : Params.default.view = ⟨32, []⟩ ∧ Params.new = Params.default :=
  ⟨rfl, rfl⟩

end Blake2s.Sp
