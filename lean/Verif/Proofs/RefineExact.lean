import Verif.Exact
import Verif.Proofs.Refine
/-!
# The program model is the exact machine
-/

namespace Blake2s.Exact

open Abstract (AState toState newParams newSpParams debugSpParams StateSim HashSim toState_sim
  update_sim finalize_sim overflows_iff rep_update hashOne_sim blake2s_sim counted_eq debug_eq
  sp_keyed sp_set_pos sp_set_neg keyBytes_nil exact_first assign_self assignAll_same)

/-- A `blake2sp::State` and what the exact machine says about it. -/
def SpSim (E : Env) (s : Sp.State) (x : SpState) : Prop :=
  ∃ p : Sp.Params, p.Valid ∧ p.view = ⟨x.hashLength, x.key⟩ ∧ Sp.AbsN E p x.rows x.fed s ∧
    (E.debugAssertions = true → x.key ≠ [] → x.rows = 0)

/-- All variables. -/
structure Sim (E : Env) (w : World) (a : XWorld) : Prop where
  params : ∀ j, (w.params j).Valid ∧ (w.params j).view = a.params j
  state : ∀ j, StateSim E (w.state j) (a.state j)
  hash : ∀ j, HashSim (w.hash j) (some (a.hash j))
  spParams : ∀ j, (w.spParams j).Valid ∧ (w.spParams j).view = a.spParams j
  spState : ∀ j, SpSim E (w.spState j) (a.spState j)

/-- The result of a call and what the exact machine says about it. -/
def Step (E : Env) (r : R (World × Out)) : R (XWorld × Out) → Prop
  | .error f => r = .error f
  | .ok (a, o) => ∃ w, r = .ok (w, o) ∧ Sim E w a

/-! ## BLAKE2sp -/

theorem sp_toState_sim {E : Env} (hE : E.WF) {p : Sp.Params} (v : p.Valid) :
    ∃ s, p.toState E = .ok s ∧ SpSim E s (toSpState p.view) := by
  obtain ⟨s, e, a⟩ := Sp.AbsN.new E hE p v
  exact ⟨s, e, p, v, rfl, a, fun _ _ => rfl⟩

theorem sp_update_sim {E : Env} {s : Sp.State} {x : SpState} (h : SpSim E s x) (input : List U8) :
    match x.update (buildOf E) input with
    | .error f => s.update E input = .error f
    | .ok x' => ∃ s', s.update E input = .ok s' ∧ SpSim E s' x' := by
  obtain ⟨p, v, pv, a, hr⟩ := h
  have ek : p.keyBytes = x.key := congrArg Sp.View.key pv
  have kk : p.keyLength ≠ 0 ↔ x.key ≠ [] := by rw [sp_keyed v, ek]
  unfold SpState.update
  by_cases c1 : (buildOf E).debugAssertions = true ∧ x.key ≠ [] ∧ x.rows < x.rowsWith input
  · rw [if_pos c1]
    obtain ⟨hd, hk, hlt⟩ := c1
    have h0 := hr hd hk
    refine Sp.Abs.update_panics hd v (kk.mpr hk) ⟨x.rows, a, fun _ => h0⟩ input ?_
    rw [← Sp.rowsTaken_zero]
    unfold SpState.rowsWith at hlt
    rw [h0, Nat.mul_zero, Nat.sub_zero] at hlt
    omega
  · rw [if_neg c1]
    have hd : E.debugAssertions = true → x.rows < x.rowsWith input → p.keyLength = 0 := by
      intro h1 h2
      exact Classical.byContradiction fun h3 => c1 ⟨h1, kk.mp h3, h2⟩
    rcases a.update v input (x.rowsWith input) rfl hd with ⟨s', e, a'⟩ | ⟨e, bad⟩
    · have nf := a'.fits
      rw [ek] at nf
      rw [if_neg (show ¬ ((buildOf E).overflowChecks = true ∧
        2 ^ 64 ≤ (Spec.keyBlock x.key).length + 64 * x.rowsWith input) from nf)]
      refine ⟨s', e, p, v, pv, a', ?_⟩
      intro h1 h2
      have h3 : ¬ x.rows < x.rowsWith input := fun h => c1 ⟨h1, h2, h⟩
      have h4 := hr h1 h2
      have h5 : x.rows ≤ x.rowsWith input := Nat.le_add_right _ _
      show x.rowsWith input = 0
      omega
    · rw [ek] at bad
      rw [if_pos (show (buildOf E).overflowChecks = true ∧
        2 ^ 64 ≤ (Spec.keyBlock x.key).length + 64 * x.rowsWith input from bad)]
      exact e

theorem sp_finalize_sim {E : Env} {s : Sp.State} {x : SpState} (h : SpSim E s x) :
    match x.digest (buildOf E) with
    | .error f => s.finalize E = .error f
    | .ok b => ∃ d, s.finalize E = .ok (s, d) ∧ HashSim d (some b) := by
  obtain ⟨p, v, pv, a, hr⟩ := h
  have ek : p.keyBytes = x.key := congrArg Sp.View.key pv
  have el : p.hashLength = x.hashLength := congrArg Sp.View.hashLength pv
  have kk : p.keyLength ≠ 0 ↔ x.key ≠ [] := by rw [sp_keyed v, ek]
  have long : Sp.RestTooLong E (Spec.keyBlock p.keyBytes) x.fed x.rows ↔
      ((buildOf E).overflowChecks = true ∧ ∃ i, 2 ^ 64 ≤ x.leafCount i) := by
    unfold Sp.RestTooLong TooLongO SpState.leafCount
    rw [ek]
    constructor
    · rintro ⟨i, h1, h2⟩
      rw [List.length_append, ← Nat.add_assoc] at h2
      exact ⟨h1, i, h2⟩
    · rintro ⟨h1, i, h2⟩
      refine ⟨i, h1, ?_⟩
      rw [List.length_append, ← Nat.add_assoc]
      exact h2
  unfold SpState.digest
  rcases a.finalize with ⟨⟨_, d⟩, e, rfl, dn, nl⟩ | ⟨e, bad⟩
  · rw [if_neg (fun q => nl (long.mpr q))]
    have hl : d.len.toNat ≤ 32 := by rw [dn.2]; exact v.hl.2
    by_cases hk : x.key = []
    · rw [if_pos hk]
      refine ⟨d, e, hl, ?_⟩
      intro b eb
      cases eb
      have hk0 : ¬ p.keyLength ≠ 0 := fun q => kk.mp q hk
      have := (dn.digest (Sp.rowsLeaf_spec v (fun q => absurd q hk0) a.len a.more)).asBytes v
      rw [asBytes_ok d hl] at this
      rw [Except.ok.inj this, ek, el, hk]
    · rw [if_neg hk]
      refine ⟨d, e, hl, ?_⟩
      intro b eb
      cases eb
      have := dn.keyed v (kk.mpr hk)
      rw [asBytes_ok d hl] at this
      rw [Except.ok.inj this, ek, el]
  · rw [if_pos (long.mp bad)]
    exact e

theorem sp_count_sim {E : Env} {s : Sp.State} {x : SpState} (h : SpSim E s x) :
    s.getCount E = x.count (buildOf E) := by
  obtain ⟨p, v, pv, a, hr⟩ := h
  have ek : p.keyBytes = x.key := congrArg Sp.View.key pv
  have hc : (if p.keyLength = 0 then 0 else 512) = 8 * (Spec.keyBlock x.key).length := by
    rw [← ek, Sp.keyBlock_length' v]
    split <;> rfl
  have hh := a.count v
  rw [hc] at hh
  unfold SpState.count
  rcases hh with ⟨n, e, hn, hf⟩ | ⟨e, bad⟩
  · rw [if_neg, e, hn]
    rintro ⟨h1, h2⟩
    have := hf h1
    omega
  · rw [if_pos (show (buildOf E).overflowChecks = true ∧
      2 ^ 64 ≤ 8 * (Spec.keyBlock x.key).length + x.fed.length from bad), e]

theorem sp_debug_sim {E : Env} {s : Sp.State} {x : SpState} (h : SpSim E s x) :
    s.debug E = x.debug (buildOf E) := by
  have hc := sp_count_sim h
  obtain ⟨p, v, pv, a, hr⟩ := h
  have ek : p.keyBytes = x.key := congrArg Sp.View.key pv
  have el : p.hashLength = x.hashLength := congrArg Sp.View.hashLength pv
  obtain ⟨c, cr, fn, r, hl, h0, h1, h2⟩ := a
  have leaf : ∀ i : Fin 8, (i.val == 7) = false → s.leaves[i].debug = x.debugLeaf := by
    intro i hi
    have w := r.rows.weak i
    have w1 := w.count
    have w2 := w.ln
    have w3 := w.hl
    have e2 : s.leaves[i].lastNode = false := by
      rw [w2]
      show (c i).lastNode = false
      rw [(hl i).2.1]
      exact hi
    have e3 : s.leaves[i].hashLength = 32 := w3.trans (hl i).2.2
    unfold Blake2s.State.debug SpState.debugLeaf Blake2s.State.dec Blake2s.State.decBool
    rw [w1, e2, e3, ek, BitVec.toNat_ofNat]
    rw [String.append_assoc, String.append_assoc, String.append_assoc, String.append_assoc,
      String.append_assoc]
    rfl
  have root : s.root.debug = x.debugRoot := by
    obtain ⟨k, w, _⟩ := r.root
    unfold Blake2s.State.debug SpState.debugRoot Blake2s.State.dec Blake2s.State.decBool
    rw [w.count, w.ln, w.hl, h1, h2, el]
    rw [String.append_assoc, String.append_assoc, String.append_assoc, String.append_assoc,
      String.append_assoc]
    rfl
  unfold Sp.State.debug SpState.debug
  rw [hc]
  have l0 := leaf 0 rfl
  have l1 := leaf 1 rfl
  have l2 := leaf 2 rfl
  have l3 := leaf 3 rfl
  have l0' : s.leaves[0].debug = x.debugLeaf := l0
  have l1' : s.leaves[1].debug = x.debugLeaf := l1
  have l2' : s.leaves[2].debug = x.debugLeaf := l2
  have l3' : s.leaves[3].debug = x.debugLeaf := l3
  rw [l0', l1', l2', l3', root]
  cases x.count (buildOf E) with
  | error f => simp only [bind, Except.bind]
  | ok n =>
    simp only [bind, Except.bind, pure, Except.pure, Blake2s.State.dec]


theorem sp_blake2sp_sim {E : Env} (hE : E.WF) {input : List U8} (h : input.length < 2 ^ 63) :
    ∃ d, Blake2s.blake2sp E input = .ok d ∧ HashSim d (some (Spec.Sp.blake2sp input)) :=
  Abstract.sp_blake2sp_sim hE h

/-! ## The exact functions -/

theorem digest_sim {d : Hash} {v : View} {input : List U8} (hl : v.values.digestLength.toNat ≤ 32)
    (h1 : d.bytes.toList = Spec.digestBytes (Spec.absorb v.values.init 0 input v.lastNode) 32)
    (h2 : d.len = v.values.digestLength) :
    HashSim d (some (Spec.digestBytes (Spec.absorb v.values.init 0 input v.lastNode)
      v.values.digestLength.toNat)) := by
  refine ⟨by rw [h2]; exact hl, ?_⟩
  intro b eb
  cases eb
  rw [h1, h2, digestBytes_take _ _ hl]

theorem exact4_sim {E : Env} (hE : E.WF) {p : Params} (v : p.Valid) {input : Vector (List U8) 4}
    (hl : ExactLengths input input[0].length) (h63 : input[0].length < 2 ^ 63) :
    ∃ hs, hash4Exact E p input = .ok hs ∧
      ∀ i : Fin 4, HashSim hs[i] (some (input.map (exactDigest (buildOf E) p.view))[i]) := by
  have get : ∀ i : Fin 4, (input.map (exactDigest (buildOf E) p.view))[i] =
      exactDigest (buildOf E) p.view input[i] := by
    intro i; simp
  cases hx : (E.x86 && E.std && E.avx2)
  · obtain ⟨hs, e, h⟩ := hash4_portable E hE hx p v.accepted input _ hl (fits_small h63)
    refine ⟨hs, e, fun i => ?_⟩
    have hv : ¬ (buildOf E).vector = true := by
      show ¬ (E.x86 && E.std && E.avx2) = true
      rw [hx]; decide
    rw [get, exactDigest, if_neg hv]
    exact hashOne_sim hE v (h i)
  · obtain ⟨hs, e, h⟩ := hash4_simd E hE hx p v.accepted input _ hl
    refine ⟨hs, e, fun i => ?_⟩
    have hv : (buildOf E).vector = true := hx
    rw [get, exactDigest, if_pos hv]
    exact digest_sim (v := p.view) v.hl.2 (h i).1 (h i).2

theorem exact8_sim {E : Env} (hE : E.WF) {p : Params} (v : p.Valid) {input : Vector (List U8) 8}
    (hl : ExactLengths input input[0].length) (h63 : input[0].length < 2 ^ 63) :
    ∃ hs, hash8Exact E p input = .ok hs ∧
      ∀ i : Fin 8, HashSim hs[i] (some (input.map (exactDigest (buildOf E) p.view))[i]) := by
  have get : ∀ i : Fin 8, (input.map (exactDigest (buildOf E) p.view))[i] =
      exactDigest (buildOf E) p.view input[i] := by
    intro i; simp
  cases hx : (E.x86 && E.std && E.avx2)
  · obtain ⟨hs, e, h⟩ := hash8_portable E hE hx p v.accepted input _ hl (fits_small h63)
    refine ⟨hs, e, fun i => ?_⟩
    have hv : ¬ (buildOf E).vector = true := by
      show ¬ (E.x86 && E.std && E.avx2) = true
      rw [hx]; decide
    rw [get, exactDigest, if_neg hv]
    exact hashOne_sim hE v (h i)
  · obtain ⟨hs, e, h⟩ := hash8_simd E hx p v.accepted input _ hl
    refine ⟨hs, e, fun i => ?_⟩
    have hv : (buildOf E).vector = true := hx
    rw [get, exactDigest, if_pos hv]
    exact digest_sim (v := p.view) v.hl.2 (h i).1 (h i).2

/-! ## One call -/

theorem Step.ok {E : Env} {w : World} {x : Out} {a : XWorld} (h : Sim E w a) :
    Step E (.ok (w, x)) (.ok (a, x)) := ⟨w, rfl, h⟩

theorem Step.okq {E : Env} {w : World} {x y : Out} {a : XWorld} (h : Sim E w a) (e : y = x) :
    Step E (.ok (w, x)) (.ok (a, y)) := by subst e; exact ⟨w, rfl, h⟩

theorem Sim.setParams {E : Env} {w : World} {a : XWorld} (m : Sim E w a) (i : Nat) {p : Params}
    {v : View} (hp : p.Valid) (hv : p.view = v) :
    Sim E { w with params := assign w.params i p } { a with params := assign a.params i v } :=
  ⟨assign_rel (P := fun (p : Params) v => p.Valid ∧ p.view = v) m.params ⟨hp, hv⟩ i,
    m.state, m.hash, m.spParams, m.spState⟩

theorem Sim.setState {E : Env} {w : World} {a : XWorld} (m : Sim E w a) (i : Nat) {s : State}
    {x : AState} (h : StateSim E s x) :
    Sim E { w with state := assign w.state i s } { a with state := assign a.state i x } :=
  ⟨m.params, assign_rel (P := StateSim E) m.state h i, m.hash, m.spParams, m.spState⟩

theorem Sim.keepState {E : Env} {w : World} {a : XWorld} (m : Sim E w a) (i : Nat) {s : State}
    (h : StateSim E s (a.state i)) : Sim E { w with state := assign w.state i s } a := by
  have := m.setState i h
  rwa [assign_self] at this

theorem Sim.setHash {E : Env} {w : World} {a : XWorld} (m : Sim E w a) (i : Nat) {h : Hash}
    {x : List U8} (hx : HashSim h (some x)) :
    Sim E { w with hash := assign w.hash i h } { a with hash := assign a.hash i x } :=
  ⟨m.params, m.state, assign_rel (P := fun h x => HashSim h (some x)) m.hash hx i, m.spParams,
    m.spState⟩

theorem Sim.setHashes {E : Env} {w : World} {a : XWorld} (m : Sim E w a) {n : Nat}
    (is : Vector Nat n) {h : Vector Hash n} {x : Vector (List U8) n}
    (hx : ∀ i : Fin n, HashSim h[i] (some x[i])) :
    Sim E { w with hash := assignAll w.hash is h } { a with hash := assignAll a.hash is x } :=
  ⟨m.params, m.state, assignAll_rel (P := fun h x => HashSim h (some x)) m.hash is hx, m.spParams,
    m.spState⟩

theorem Sim.setSpParams {E : Env} {w : World} {a : XWorld} (m : Sim E w a) (i : Nat)
    {p : Sp.Params} {v : Sp.View} (hp : p.Valid) (hv : p.view = v) :
    Sim E { w with spParams := assign w.spParams i p } { a with spParams := assign a.spParams i v } :=
  ⟨m.params, m.state, m.hash,
    assign_rel (P := fun (p : Sp.Params) v => p.Valid ∧ p.view = v) m.spParams ⟨hp, hv⟩ i,
    m.spState⟩

theorem Sim.setSpState {E : Env} {w : World} {a : XWorld} (m : Sim E w a) (i : Nat)
    {s : Sp.State} {x : SpState} (h : SpSim E s x) :
    Sim E { w with spState := assign w.spState i s } { a with spState := assign a.spState i x } :=
  ⟨m.params, m.state, m.hash, m.spParams, assign_rel (P := SpSim E) m.spState h i⟩

theorem Sim.keepSpState {E : Env} {w : World} {a : XWorld} (m : Sim E w a) (i : Nat) {s : Sp.State}
    (h : SpSim E s (a.spState i)) : Sim E { w with spState := assign w.spState i s } a := by
  have := m.setSpState i h
  rwa [assign_self] at this

theorem toBuild_eq (E : Env) : (buildOf E).toBuild = Abstract.buildOf E := rfl

seal Portable.compress Portable.compress8 Avx2.compress8 stateWordsToBytes State.zeroTail in
theorem call_step {E : Env} (hE : E.WF) {w : World} {a : XWorld} (m : Sim E w a) (c : Call)
    (hl : c.Legal) : Step E (w.call E c) (a.call (buildOf E) c) := by
  cases c with
  | newParams p => exact Step.ok (m.setParams p default_valid rfl)
  | cloneParams dst src => exact Step.ok (m.setParams dst (m.params src).1 (m.params src).2)
  | set p c =>
    simp only [World.call, XWorld.call]
    by_cases h : c.InRange
    · rw [if_pos h, set_pos _ h]
      exact Step.ok (m.setParams p (set_valid (m.params p).1 (set_pos _ h)) (by
        rw [put_view _ _ h, (m.params p).2]))
    · rw [if_neg h, set_neg _ h]
      rfl
  | newState s =>
    obtain ⟨x, e, r⟩ := toState_sim hE default_valid
    have e' : State.new E = .ok x := e
    simp only [World.call]
    rw [e']
    exact Step.ok (m.setState s r)
  | toState s p =>
    obtain ⟨x, e, r⟩ := toState_sim hE (m.params p).1
    simp only [World.call]
    rw [e]
    rw [(m.params p).2] at r
    exact Step.ok (m.setState s r)
  | cloneState dst src => exact Step.ok (m.setState dst (m.state src))
  | update s input =>
    simp only [World.call, XWorld.call]
    rw [toBuild_eq]
    rcases update_sim (m.state s) input with ⟨h, e⟩ | ⟨h, x, e, r⟩
    · rw [if_pos h, e]; rfl
    · rw [if_neg (by rw [h]; decide), e]
      exact Step.ok (m.setState s r)
  | write s input =>
    simp only [World.call, XWorld.call, State.write]
    rw [toBuild_eq]
    rcases update_sim (m.state s) input with ⟨h, e⟩ | ⟨h, x, e, r⟩
    · rw [if_pos h, e]; rfl
    · rw [if_neg (by rw [h]; decide), e]
      exact Step.ok (m.setState s r)
  | flush s => exact Step.ok (m.keepState s (m.state s))
  | setLastNode s b =>
    obtain ⟨c, r, h0, h1, h2, h3⟩ := m.state s
    exact Step.ok (m.setState s (x := { a.state s with lastNode := b })
      ⟨_, setLastNode_rep r b, h0, rfl, h2, h3⟩)
  | finalize s h =>
    obtain ⟨x, d, e, r, hd⟩ := finalize_sim (m.state s)
    simp only [World.call]
    rw [e]
    exact Step.ok ((m.keepState s r).setHash h hd)
  | count s => exact Step.okq m (by rw [counted_eq (m.state s)])
  | debugState s => exact Step.okq m (by rw [debug_eq (m.state s)])
  | forcePortable s =>
    obtain ⟨c, r, h0, h1, h2, h3⟩ := m.state s
    exact Step.ok (m.keepState s ⟨_, forcePortable_rep r, h0, h1, h2, h3⟩)
  | blake2s input h =>
    obtain ⟨d, e, hd⟩ := blake2s_sim hE (hl.1 input List.mem_cons_self)
    simp only [World.call]
    rw [e]
    exact Step.ok (m.setHash h hd)
  | update8 s input =>
    have ms : ∀ i : Fin 8, StateSim E (s.map w.state)[i] (a.state s[i]) := by
      intro i
      have : (s.map w.state)[i] = w.state s[i] := by simp
      rw [this]; exact m.state _
    have rep := fun i => (ms i).choose_spec
    simp only [World.call, XWorld.call]
    rw [toBuild_eq]
    rcases update8_ends _ _ (s.map w.state) input (fun i => (rep i).1) with ⟨x, e, r⟩ | ⟨e, i, bad⟩
    · rw [e, if_neg (by
        rintro ⟨i, hi⟩
        exact (r i).notTooLong (overflows_iff.mp hi))]
      let ys := Vector.ofFn fun i : Fin 8 => (a.state s[i]).update input[i]
      refine Step.ok (w := { w with state := assignAll w.state s x })
        (a := { a with state := assignAll a.state s ys })
        ⟨m.params, ?_, m.hash, m.spParams, m.spState⟩
      refine assignAll_rel (P := StateSim E) m.state s ?_
      intro i
      have : (Vector.ofFn fun i : Fin 8 => (a.state s[i]).update input[i])[i] =
          (a.state s[i]).update input[i] := by simp
      rw [this]
      obtain ⟨-, h0, h1, h2, h3⟩ := rep i
      exact rep_update (r i) h0 h1 h2 h3
    · rw [e, if_pos ⟨i, overflows_iff.mpr bad⟩]
      rfl
  | finalize8 s h =>
    have ms : ∀ i : Fin 8, StateSim E (s.map w.state)[i] (a.state s[i]) := by
      intro i
      have : (s.map w.state)[i] = w.state s[i] := by simp
      rw [this]; exact m.state _
    obtain ⟨x, d, e, he⟩ := finalize8_ok (E := E) (s.map w.state) (fun i => by
      obtain ⟨c, ⟨k, w, _⟩, -⟩ := ms i
      rw [w.fn]; exact w.sup)
    have r : ∀ i : Fin 8, StateSim E x[i] (a.state s[i]) ∧
        HashSim d[i] (some (a.state s[i]).digest) := by
      intro i
      obtain ⟨y, dy, ey, ry, hy⟩ := finalize_sim (ms i)
      rw [he i] at ey
      cases ey
      exact ⟨ry, hy⟩
    simp only [World.call, XWorld.call]
    rw [e]
    have m' : Sim E { w with state := assignAll w.state s x } a := by
      refine ⟨m.params, ?_, m.hash, m.spParams, m.spState⟩
      have := assignAll_rel (P := StateSim E) m.state s (xs := x) (ys := s.map a.state) (by
        intro i
        have : (s.map a.state)[i] = a.state s[i] := by simp
        rw [this]; exact (r i).1)
      rwa [assignAll_same] at this
    refine Step.ok (m'.setHashes h ?_)
    intro i
    have : (Vector.ofFn fun i : Fin 8 => (a.state s[i]).digest)[i] = (a.state s[i]).digest := by simp
    rw [this]
    exact (r i).2
  | hash4Exact p input h =>
    simp only [World.call, XWorld.call]
    by_cases c : ExactLengths input input[0].length
    · rw [if_pos c]
      obtain ⟨hs, e, hh⟩ := exact4_sim hE (m.params p).1 c (hl.1 _ (by simp [Call.slices]))
      rw [e]
      rw [(m.params p).2] at hh
      exact Step.ok (m.setHashes h hh)
    · rw [if_neg c, C13_refuses E _ _ (fun q => c (exact_first.mp q))]
      rfl
  | hash8Exact p input h =>
    simp only [World.call, XWorld.call]
    by_cases c : ExactLengths input input[0].length
    · rw [if_pos c]
      obtain ⟨hs, e, hh⟩ := exact8_sim hE (m.params p).1 c (hl.1 _ (by simp [Call.slices]))
      rw [e]
      rw [(m.params p).2] at hh
      exact Step.ok (m.setHashes h hh)
    · rw [if_neg c, C14_refuses E _ _ (fun q => c (exact_first.mp q))]
      rfl
  | hash8 p input h =>
    have gp : ∀ i : Fin 8, (p.map w.params)[i] = w.params p[i] := by intro i; simp
    have kp : ∀ i : Fin 8, (w.params p[i]).keyLength = 0 ↔ (a.params p[i]).key = [] := by
      intro i
      rw [keyBytes_nil (m.params _).1, ← (m.params _).2]
      rfl
    simp only [World.call, XWorld.call]
    by_cases c : ∀ i : Fin 8, (a.params p[i]).key = []
    · rw [if_pos c]
      obtain ⟨hs, e, hh⟩ := C15_hash8 E hE (p.map w.params)
        (fun i => by rw [gp]; exact (m.params _).1.accepted)
        (fun i => by rw [gp]; exact (kp i).mpr (c i)) input
        (fun i => fits_small (hl.1 _ (by simp [Call.slices])))
      rw [e]
      refine Step.ok (m.setHashes h ?_)
      intro i
      have h1 := (hh i).1
      rw [gp] at h1
      have h2 := hashOne_sim hE (m.params _).1 h1
      have : (Vector.ofFn fun i : Fin 8 =>
          Spec.hash (a.params p[i]).values [] (a.params p[i]).lastNode input[i])[i] =
          Spec.hash (a.params p[i]).values [] (a.params p[i]).lastNode input[i] := by simp
      rw [this, ← (m.params _).2]
      rw [(keyBytes_nil (m.params _).1).mp ((kp i).mpr (c i))] at h2
      exact h2
    · rw [if_neg c]
      obtain ⟨i, hi⟩ := Classical.not_forall.mp c
      rw [hash8_keyed E (p.map w.params) input i (by rw [gp]; exact fun q => hi ((kp i).mp q))]
      rfl
  | cloneHash dst src => exact Step.ok (m.setHash dst (m.hash src))
  | asBytes h =>
    have s := m.hash h
    simp only [World.call]
    rw [asBytes_ok _ s.1]
    exact Step.okq m (by rw [s.2 _ rfl])
  | toHex h =>
    have s := m.hash h
    simp only [World.call]
    rw [toHex_ok _ s.1]
    exact Step.okq m (by rw [s.2 _ rfl])
  | debugHash h =>
    have s := m.hash h
    simp only [World.call, Hash.debug]
    rw [toHex_ok _ s.1]
    exact Step.okq m (by rw [s.2 _ rfl])
  | eqHash x y =>
    have sx := m.hash x
    have sy := m.hash y
    simp only [World.call, Hash.eqHash]
    rw [asBytes_ok _ sx.1, asBytes_ok _ sy.1]
    exact Step.okq m (by rw [constantTimeEq_eq, sx.2 _ rfl, sy.2 _ rfl])
  | eqSlice h b =>
    have s := m.hash h
    simp only [World.call, Hash.eqSlice]
    rw [asBytes_ok _ s.1]
    exact Step.okq m (by rw [constantTimeEq_eq, s.2 _ rfl])
  | blake2sp input h =>
    obtain ⟨d, e, hd⟩ := sp_blake2sp_sim hE (hl.1 input List.mem_cons_self)
    simp only [World.call]
    rw [e]
    exact Step.ok (m.setHash h hd)
  | spNewParams p => exact Step.ok (m.setSpParams p Sp.default_valid rfl)
  | spCloneParams dst src =>
    exact Step.ok (m.setSpParams dst (m.spParams src).1 (m.spParams src).2)
  | spSet p c =>
    simp only [World.call, XWorld.call]
    by_cases h : c.InRange
    · obtain ⟨q, e, v, hv⟩ := sp_set_pos (m.spParams p).1 h
      rw [if_pos h, e]
      exact Step.ok (m.setSpParams p v (by rw [hv, (m.spParams p).2]))
    · rw [if_neg h, sp_set_neg _ h]
      rfl
  | spDebugParams p =>
    refine Step.okq m ?_
    rw [← (m.spParams p).2]
    have := (m.spParams p).1.keyBytes_length
    unfold debugSpParams Sp.Params.debug State.dec
    rw [← this]
    rfl
  | spNewState s =>
    obtain ⟨x, e, r⟩ := sp_toState_sim hE Sp.default_valid
    have e' : Sp.State.new E = .ok x := e
    simp only [World.call]
    rw [e']
    exact Step.ok (m.setSpState s r)
  | spToState s p =>
    obtain ⟨x, e, r⟩ := sp_toState_sim hE (m.spParams p).1
    simp only [World.call]
    rw [e]
    rw [(m.spParams p).2] at r
    exact Step.ok (m.setSpState s r)
  | spUpdate s input =>
    have := sp_update_sim (m.spState s) input
    simp only [World.call, XWorld.call]
    cases h : (a.spState s).update (buildOf E) input with
    | error f =>
      rw [h] at this
      rw [this]
      rfl
    | ok x =>
      rw [h] at this
      obtain ⟨s', e, r⟩ := this
      rw [e]
      exact Step.ok (m.setSpState s r)
  | spWrite s input =>
    have := sp_update_sim (m.spState s) input
    simp only [World.call, XWorld.call, Sp.State.write]
    cases h : (a.spState s).update (buildOf E) input with
    | error f =>
      rw [h] at this
      rw [this]
      rfl
    | ok x =>
      rw [h] at this
      obtain ⟨s', e, r⟩ := this
      rw [e]
      exact Step.ok (m.setSpState s r)
  | spFlush s => exact Step.ok (m.keepSpState s (m.spState s))
  | spFinalize s h =>
    have := sp_finalize_sim (m.spState s)
    simp only [World.call, XWorld.call]
    cases hx : (a.spState s).digest (buildOf E) with
    | error f =>
      rw [hx] at this
      rw [this]
      rfl
    | ok b =>
      rw [hx] at this
      obtain ⟨d, e, hd⟩ := this
      rw [e]
      exact Step.ok ((m.keepSpState s (m.spState s)).setHash h hd)
  | spCount s =>
    simp only [World.call, XWorld.call]
    rw [sp_count_sim (m.spState s)]
    cases (a.spState s).count (buildOf E) with
    | error f => rfl
    | ok n => exact Step.ok m
  | spDebugState s =>
    simp only [World.call, XWorld.call]
    rw [sp_debug_sim (m.spState s)]
    cases (a.spState s).debug (buildOf E) with
    | error f => rfl
    | ok n => exact Step.ok m
  | spForcePortable s =>
    obtain ⟨p, v, pv, abs, hr⟩ := m.spState s
    exact Step.ok (m.keepSpState s ⟨p, v, pv, abs.forcePortable, hr⟩)

/-! ## Programs -/

theorem init_sim {E : Env} (hE : E.WF) : ∃ w, World.init E = .ok w ∧ Sim E w XWorld.init := by
  obtain ⟨s, es, rs⟩ := toState_sim hE default_valid
  obtain ⟨d, ed, rd⟩ := blake2s_sim (E := E) hE (input := []) (by decide)
  obtain ⟨t, et, rt⟩ := sp_toState_sim hE Sp.default_valid
  have es' : State.new E = .ok s := es
  have et' : Sp.State.new E = .ok t := et
  unfold World.init
  simp only [es', ed, et', bind, Except.bind, pure, Except.pure]
  exact ⟨_, rfl, fun _ => ⟨default_valid, rfl⟩, fun _ => rs, fun _ => rd,
    fun _ => ⟨Sp.default_valid, rfl⟩, fun _ => rt⟩

theorem run_eq {E : Env} (hE : E.WF) (cs : List Call) (hl : ∀ c ∈ cs, c.Legal) {w : World}
    {a : XWorld} (m : Sim E w a) :
    (w.run E cs).map Prod.snd = a.run (buildOf E) cs := by
  induction cs generalizing w a with
  | nil => rfl
  | cons c cs ih =>
    have hc := call_step hE m c (hl c List.mem_cons_self)
    unfold World.run XWorld.run
    cases ha : a.call (buildOf E) c with
    | error f =>
      rw [ha] at hc
      rw [show w.call E c = .error f from hc]
      rfl
    | ok q =>
      obtain ⟨a', o⟩ := q
      rw [ha] at hc
      obtain ⟨w', e, m'⟩ := hc
      have := ih (fun c hc => hl c (List.mem_cons_of_mem _ hc)) m'
      rw [e]
      simp only [bind, Except.bind]
      rw [← this]
      cases w'.run E cs with
      | error f => rfl
      | ok q => rfl

theorem program_eq {E : Env} (hE : E.WF) (cs : List Call) (hl : ∀ c ∈ cs, c.Legal) :
    Blake2s.program E cs = program (buildOf E) cs := by
  obtain ⟨w, e, m⟩ := init_sim hE
  have := run_eq hE cs hl m
  unfold Blake2s.program program
  rw [← this, e]
  simp only [bind, Except.bind]
  cases w.run E cs with
  | error f => rfl
  | ok q => rfl

end Blake2s.Exact
