import Verif.Abstract
import Verif.Proofs.RelWorld
import Verif.Proofs.SpHistory
/-!
# The program model refines the abstract machine
-/

namespace Blake2s.Abstract

/-- A `State` and what the abstract machine says about it. -/
def StateSim (E : Env) (s : State) (a : AState) : Prop :=
  ∃ c, Rep E c (Spec.keyBlock a.key ++ a.fed) s ∧ c.h0 = a.values.init ∧ c.lastNode = a.lastNode ∧
    c.hashLength = a.values.digestLength ∧ a.values.digestLength.toNat ≤ 32

/-- A `Hash` and what the abstract machine says about it. -/
def HashSim (h : Hash) (a : Option (List U8)) : Prop :=
  h.len.toNat ≤ 32 ∧ ∀ b, a = some b → h.bytes.toList.take h.len.toNat = b

/-- A `blake2sp::State` and what the abstract machine says about it. -/
def SpSim (E : Env) (s : Sp.State) (a : Option ASpState) : Prop :=
  ∀ x, a = some x → ∃ p : Sp.Params, p.Valid ∧ p.view = ⟨x.hashLength, x.key⟩ ∧
    Sp.Abs E p x.fed s ∧ Sp.Fits E x.fed.length ∧ (x.key ≠ [] → x.fed.length ≤ 1024)

/-- All variables. -/
structure Sim (E : Env) (w : World) (a : AWorld) : Prop where
  params : ∀ j, (w.params j).Valid ∧ (w.params j).view = a.params j
  state : ∀ j, StateSim E (w.state j) (a.state j)
  hash : ∀ j, HashSim (w.hash j) (a.hash j)
  spParams : ∀ j, (w.spParams j).Valid ∧ (w.spParams j).view = a.spParams j
  spState : ∀ j, SpSim E (w.spState j) (a.spState j)

/-- The result of a call and what the abstract machine says about it. -/
def Step (E : Env) (r : R (World × Out)) : Result → Prop
  | .panics => ∃ f, r = .error f
  | .returns a o sure =>
    (∃ w x, r = .ok (w, x) ∧ Sim E w a ∧ ∀ y, o = some y → y = x) ∨
      (sure = false ∧ ∃ f, r = .error f)

/-- The build of an environment. -/
def buildOf (E : Env) : Build := ⟨E.overflowChecks, E.debugAssertions⟩

/-! ## State -/

theorem toState_sim {E : Env} (hE : E.WF) {p : Params} (v : p.Valid) :
    ∃ s, p.toState E = .ok s ∧ StateSim E s (toState p.view) := by
  obtain ⟨s, e, r⟩ := withParams_ok E hE p v
  refine ⟨s, e, p.cfg E, ?_, rfl, rfl, rfl, v.hl.2⟩
  show Rep E (p.cfg E) (Spec.keyBlock p.keyBytes ++ []) s
  rw [List.append_nil]
  exact r

theorem overflows_iff {E : Env} {a : AState} {input : List U8} :
    a.overflows (buildOf E) input = true ↔
      TooLong E ((Spec.keyBlock a.key ++ a.fed) ++ input) := by
  unfold AState.overflows TooLong AState.counted buildOf
  simp only [Bool.and_eq_true, decide_eq_true_eq, List.length_append]

theorem rep_update {E : Env} {a : AState} {input : List U8} {c : Cfg} {s : State}
    (r : Rep E c ((Spec.keyBlock a.key ++ a.fed) ++ input) s) (h0 : c.h0 = a.values.init)
    (h1 : c.lastNode = a.lastNode) (h2 : c.hashLength = a.values.digestLength)
    (h3 : a.values.digestLength.toNat ≤ 32) : StateSim E s (a.update input) := by
  refine ⟨c, ?_, h0, h1, h2, h3⟩
  rw [List.append_assoc] at r
  exact r

theorem update_sim {E : Env} {s : State} {a : AState} (h : StateSim E s a) (input : List U8) :
    (a.overflows (buildOf E) input = true ∧ s.update E input = .error .overflow) ∨
    (a.overflows (buildOf E) input = false ∧
      ∃ s', s.update E input = .ok s' ∧ StateSim E s' (a.update input)) := by
  obtain ⟨c, r, h0, h1, h2, h3⟩ := h
  rcases update_ends r input with ⟨s', e, r'⟩ | ⟨e, bad⟩
  · right
    refine ⟨?_, s', e, rep_update r' h0 h1 h2 h3⟩
    rw [← Bool.not_eq_true, overflows_iff]
    exact r'.notTooLong
  · exact .inl ⟨overflows_iff.mpr bad, e⟩

theorem finalize_sim {E : Env} {s : State} {a : AState} (h : StateSim E s a) :
    ∃ s' d, s.finalize E = .ok (s', d) ∧ StateSim E s' a ∧ HashSim d (some a.digest) := by
  obtain ⟨c, r, h0, h1, h2, h3⟩ := h
  obtain ⟨s', d, e, r', hb, hl, _⟩ := finalize_ok r
  refine ⟨s', d, e, ⟨c, r', h0, h1, h2, h3⟩, by rw [hl, h2]; exact h3, ?_⟩
  intro b eb
  cases eb
  rw [hb, hl, h2, digestBytes_take _ _ h3, h0, h1]
  rfl

theorem hashes_sim {c : Cfg} {data : List U8} {d : Hash} {a : AState} (h : c.hashes data d)
    (hd : data = Spec.keyBlock a.key ++ a.fed) (h0 : c.h0 = a.values.init)
    (h1 : c.lastNode = a.lastNode) (h2 : c.hashLength = a.values.digestLength)
    (h3 : a.values.digestLength.toNat ≤ 32) : HashSim d (some a.digest) := by
  obtain ⟨hb, hl⟩ := h
  refine ⟨by rw [hl, h2]; exact h3, ?_⟩
  intro b eb
  cases eb
  rw [hb, hl, h2, digestBytes_take _ _ h3, h0, h1, hd]
  rfl

theorem hashOne_sim {E : Env} (hE : E.WF) {p : Params} (v : p.Valid) {input : List U8} {d : Hash}
    (e : hashOne E p input = .ok d) :
    HashSim d (some (Spec.hash p.values p.keyBytes p.lastNode input)) :=
  hashes_sim (a := ⟨p.values, p.keyBytes, input, p.lastNode⟩) (hashOne_hashes hE v e) rfl rfl rfl rfl
    v.hl.2

theorem blake2s_sim {E : Env} (hE : E.WF) {input : List U8} (h : input.length < 2 ^ 63) :
    ∃ d, Blake2s.blake2s E input = .ok d ∧ HashSim d (some (Spec.blake2s input)) := by
  obtain ⟨d, e, _⟩ := hashOne_spec E hE Params.default ⟨[], rfl⟩ input (fits_small h)
  exact ⟨d, e, hashOne_sim hE default_valid e⟩

theorem counted_eq {E : Env} {s : State} {a : AState} (h : StateSim E s a) :
    s.getCount = BitVec.ofNat 64 a.counted := by
  obtain ⟨c, r, -⟩ := h
  rw [r.count, List.length_append]
  rfl

theorem debug_eq {E : Env} {s : State} {a : AState} (h : StateSim E s a) : s.debug = a.debug := by
  have hc := counted_eq h
  obtain ⟨c, ⟨k, w, _⟩, h0, h1, h2, h3⟩ := h
  have e1 : s.count = BitVec.ofNat 64 a.counted := hc
  unfold State.debug AState.debug State.dec State.decBool
  rw [e1, w.hl, w.ln, h1, h2, BitVec.toNat_ofNat]

/-! ## Hashes -/

theorem asBytes_sim {h : Hash} {a : Option (List U8)} (s : HashSim h a) :
    ∃ x, h.asBytes = .ok x ∧ ∀ b, a = some b → b = x :=
  ⟨_, asBytes_ok h s.1, fun b e => (s.2 b e).symm⟩

/-! ## BLAKE2sp -/

theorem sp_keyed {p : Sp.Params} (v : p.Valid) : p.keyLength ≠ 0 ↔ p.keyBytes ≠ [] := by
  rw [ne_eq, ne_eq, ← List.length_eq_zero_iff, v.keyBytes_length]
  apply not_congr
  constructor
  · intro h; rw [h]; rfl
  · intro h; apply BitVec.eq_of_toNat_eq; simpa using h

theorem sp_toState_sim {E : Env} (hE : E.WF) {p : Sp.Params} (v : p.Valid) :
    ∃ s, p.toState E = .ok s ∧ SpSim E s (some (toSpState p.view)) := by
  obtain ⟨s, e, a⟩ := Sp.Abs.new E hE p v
  refine ⟨s, e, ?_⟩
  intro x ex
  cases ex
  exact ⟨p, v, rfl, a, fun _ => Nat.two_pow_pos 64, fun _ => Nat.zero_le _⟩

theorem sp_notBad {E : Env} {p : Sp.Params} (v : p.Valid) {fed : List U8} (hf : Sp.Fits E fed.length)
    (hk : p.keyBytes ≠ [] → fed.length ≤ 1024) : ¬ Sp.Bad E p fed :=
  Sp.not_bad v hf fun h => hk ((sp_keyed v).mp h)

theorem sp_update_sim {E : Env} {s : Sp.State} {a : Option ASpState} (h : SpSim E s a)
    (input : List U8) :
    match spUpdate (buildOf E) a input with
    | .panics => ∃ f, s.update E input = .error f
    | .returns a' sure =>
      (∃ s', s.update E input = .ok s' ∧ SpSim E s' a') ∨
        (sure = false ∧ ∃ f, s.update E input = .error f) := by
  have unsure : (∃ s', s.update E input = .ok s' ∧ SpSim E s' none) ∨
      (false = false ∧ ∃ f, s.update E input = .error f) := by
    cases e : s.update E input with
    | ok s' => exact .inl ⟨s', rfl, nofun⟩
    | error f => exact .inr ⟨rfl, f, rfl⟩
  cases a with
  | none => exact unsure
  | some x =>
    obtain ⟨p, v, pv, abs, hf, hk⟩ := h x rfl
    have ek : p.keyBytes = x.key := congrArg Sp.View.key pv
    unfold spUpdate
    simp only
    by_cases c1 : x.key ≠ [] ∧ ¬ Sp.Buffered x.fed.length input.length
    · rw [if_pos c1]
      cases hd : E.debugAssertions
      · simp only [buildOf, hd]
        exact unsure
      · simp only [buildOf, hd, if_true]
        exact ⟨_, abs.update_panics hd v ((sp_keyed v).mpr (by rw [ek]; exact c1.1)) input c1.2⟩
    · rw [if_neg c1]
      by_cases c2 : (buildOf E).overflowChecks = true ∧ 2 ^ 64 ≤ x.fed.length + input.length
      · rw [if_pos c2]
        exact unsure
      · rw [if_neg c2]
        left
        have hb : x.key ≠ [] → Sp.Buffered x.fed.length input.length := fun q =>
          Classical.byContradiction fun n => c1 ⟨q, n⟩
        have hf' : Sp.Fits E (x.fed ++ input).length := by
          intro ho
          rw [List.length_append]
          have : ¬ 2 ^ 64 ≤ x.fed.length + input.length := fun q => c2 ⟨ho, q⟩
          omega
        have hk' : x.key ≠ [] → (x.fed ++ input).length ≤ 1024 := by
          intro q
          have := hb q
          unfold Sp.Buffered at this
          rw [List.length_append]
          split at this <;> omega
        obtain ⟨s', e, abs'⟩ := (abs.update v input (fun q => hb (by
          rw [← ek]; exact (sp_keyed v).mp q))).elim
          (sp_notBad v hf' (fun q => hk' (by rw [← ek]; exact q)))
        refine ⟨s', e, ?_⟩
        intro y ey
        cases ey
        exact ⟨p, v, pv, abs', hf', hk'⟩

theorem sp_finalize_sim {E : Env} {s : Sp.State} {x : ASpState} (h : SpSim E s (some x)) :
    ∃ d, s.finalize E = .ok (s, d) ∧ HashSim d (some x.digest) := by
  obtain ⟨p, v, pv, abs, hf, hk⟩ := h x rfl
  have ek : p.keyBytes = x.key := congrArg Sp.View.key pv
  have el : p.hashLength = x.hashLength := congrArg Sp.View.hashLength pv
  obtain ⟨⟨_, d⟩, e, rfl, dd⟩ := (abs.finalize v).elim (sp_notBad v hf (fun q => hk (by rw [← ek]; exact q)))
  have hl : d.len.toNat ≤ 32 := by rw [dd.2]; exact v.hl.2
  refine ⟨d, e, hl, ?_⟩
  intro b eb
  cases eb
  have := dd.asBytes v
  rw [asBytes_ok d hl] at this
  rw [Except.ok.inj this, ek, el]
  rfl

theorem sp_count_sim {E : Env} {s : Sp.State} {x : ASpState} (h : SpSim E s (some x)) :
    s.getCount E = .ok (BitVec.ofNat 64 x.counted) := by
  obtain ⟨p, v, pv, abs, hf, hk⟩ := h x rfl
  have ek : p.keyBytes = x.key := congrArg Sp.View.key pv
  have hc : (if p.keyLength = 0 then 0 else 512) = 8 * (Spec.keyBlock x.key).length := by
    rw [← ek, Sp.keyBlock_length' v]
    split <;> rfl
  obtain ⟨n, e, hn, _⟩ := (abs.count v).elim (by
    rintro ⟨ho, hl⟩
    have h1 := hf ho
    by_cases q : p.keyLength = 0
    · rw [if_pos q] at hl; omega
    · rw [if_neg q] at hl
      have := hk (by rw [← ek]; exact (sp_keyed v).mp q)
      omega)
  rw [e, hn, hc]
  rfl

theorem sp_blake2sp_sim {E : Env} (hE : E.WF) {input : List U8} (h : input.length < 2 ^ 63) :
    ∃ d, Blake2s.blake2sp E input = .ok d ∧ HashSim d (some (Spec.Sp.blake2sp input)) := by
  obtain ⟨s, e, r⟩ := sp_toState_sim hE Sp.default_valid
  have hnb : ¬ ((toSpState Sp.Params.default.view).key ≠ [] ∧
      ¬ Sp.Buffered (toSpState Sp.Params.default.view).fed.length input.length) :=
    fun q => q.1 rfl
  have := sp_update_sim r input
  unfold spUpdate at this
  simp only at this
  rw [if_neg hnb, if_neg (by
    rintro ⟨_, q⟩
    have : (toSpState Sp.Params.default.view).fed.length = 0 := rfl
    omega)] at this
  rcases this with ⟨s1, e1, r1⟩ | ⟨q, _⟩
  · obtain ⟨d, e2, hd⟩ := sp_finalize_sim r1
    refine ⟨d, ?_, hd⟩
    have e' : Sp.State.new E = .ok s := e
    unfold Blake2s.blake2sp
    simp only [e', bind, Except.bind, e1, e2]
    rfl
  · cases q

/-! ## Parameters -/

theorem keyBytes_nil {p : Params} (v : p.Valid) : p.keyLength = 0 ↔ p.keyBytes = [] := by
  rw [← List.length_eq_zero_iff, v.keyBytes_length]
  constructor
  · intro h; rw [h]; rfl
  · intro h; apply BitVec.eq_of_toNat_eq; simpa using h

theorem sp_set_pos {p : Sp.Params} (v : p.Valid) {c : Sp.Setter} (h : c.InRange) :
    ∃ q, p.set c = .ok q ∧ q.Valid ∧ q.view = c.effect p.view := by
  cases c with
  | hashLength n =>
    simp only [Sp.Params.set, Sp.setHashLength_eq]
    rw [if_pos (show 1 ≤ n ∧ n ≤ 32 from h)]
    refine ⟨_, rfl, ⟨?_, v.kl⟩, rfl⟩
    simp only [toNat_ofNat8 n h.2]
    exact h
  | key k =>
    have hk : k.length ≤ 32 := h
    simp only [Sp.Params.set, Sp.setKey_eq]
    rw [if_pos hk]
    refine ⟨_, rfl, ⟨v.hl, by simp only [toNat_ofNat8 _ hk]; exact hk⟩, ?_⟩
    have : ((padded 32 k).toList.take k.length) = k := by
      apply List.ext_getElem
      · simp; omega
      · intro i h1 h2
        simp [padded, h2]
    simp only [Sp.Params.view, Sp.Setter.effect, Sp.Params.keyBytes, toNat_ofNat8 _ hk, this]

theorem sp_set_neg (p : Sp.Params) {c : Sp.Setter} (h : ¬ c.InRange) :
    p.set c = .error .assertFailed := by
  cases c with
  | hashLength n => exact (Sp.setHashLength_eq _ _).trans (if_neg h)
  | key k => exact (Sp.setKey_eq _ _).trans (if_neg h)

/-! ## Assignments -/

theorem assignAll_same {α : Type} (f : Nat → α) {n : Nat} (is : Vector Nat n) :
    assignAll f is (is.map f) = f := by
  have key : ∀ (l : List Nat) (g : Nat → α), g = f →
      (l.zip (l.map f)).foldl (fun f ix => assign f ix.1 ix.2) g = f := by
    intro l
    induction l with
    | nil => intro g hg; simpa using hg
    | cons i l ih =>
      intro g hg
      subst hg
      simp only [List.map_cons, List.zip_cons_cons, List.foldl_cons]
      apply ih
      funext j
      unfold assign
      split
      · rename_i h; rw [h]
      · rfl
  unfold assignAll
  rw [Vector.toList_map]
  exact key _ f rfl

/-! ## One call -/

theorem Step.ok {E : Env} {w : World} {x : Out} {a : AWorld} (h : Sim E w a) {sure : Bool} :
    Step E (.ok (w, x)) (.returns a (some x) sure) :=
  .inl ⟨w, x, rfl, h, fun _ e => by cases e; rfl⟩

theorem Step.okq {E : Env} {w : World} {x : Out} {a : AWorld} {o : Option Out} (h : Sim E w a)
    (ho : ∀ y, o = some y → y = x) {sure : Bool} : Step E (.ok (w, x)) (.returns a o sure) :=
  .inl ⟨w, x, rfl, h, ho⟩

theorem Sim.setParams {E : Env} {w : World} {a : AWorld} (m : Sim E w a) (i : Nat) {p : Params}
    {v : View} (hp : p.Valid) (hv : p.view = v) :
    Sim E { w with params := assign w.params i p } { a with params := assign a.params i v } :=
  ⟨assign_rel (P := fun (p : Params) v => p.Valid ∧ p.view = v) m.params ⟨hp, hv⟩ i,
    m.state, m.hash, m.spParams, m.spState⟩

theorem Sim.setState {E : Env} {w : World} {a : AWorld} (m : Sim E w a) (i : Nat) {s : State}
    {x : AState} (h : StateSim E s x) :
    Sim E { w with state := assign w.state i s } { a with state := assign a.state i x } :=
  ⟨m.params, assign_rel (P := StateSim E) m.state h i, m.hash, m.spParams, m.spState⟩

theorem assign_self {α : Type} (f : Nat → α) (i : Nat) : assign f i (f i) = f := by
  funext j
  unfold assign
  split
  · rename_i h; rw [h]
  · rfl

theorem Sim.keepState {E : Env} {w : World} {a : AWorld} (m : Sim E w a) (i : Nat) {s : State}
    (h : StateSim E s (a.state i)) : Sim E { w with state := assign w.state i s } a := by
  have := m.setState i h
  rwa [assign_self] at this

theorem Sim.setHash {E : Env} {w : World} {a : AWorld} (m : Sim E w a) (i : Nat) {h : Hash}
    {x : Option (List U8)} (hx : HashSim h x) :
    Sim E { w with hash := assign w.hash i h } { a with hash := assign a.hash i x } :=
  ⟨m.params, m.state, assign_rel (P := HashSim) m.hash hx i, m.spParams, m.spState⟩

theorem Sim.setHashes {E : Env} {w : World} {a : AWorld} (m : Sim E w a) {n : Nat}
    (is : Vector Nat n) {h : Vector Hash n} {x : Vector (Option (List U8)) n}
    (hx : ∀ i : Fin n, HashSim h[i] x[i]) :
    Sim E { w with hash := assignAll w.hash is h } { a with hash := assignAll a.hash is x } :=
  ⟨m.params, m.state, assignAll_rel (P := HashSim) m.hash is hx, m.spParams, m.spState⟩

theorem Sim.setSpParams {E : Env} {w : World} {a : AWorld} (m : Sim E w a) (i : Nat)
    {p : Sp.Params} {v : Sp.View} (hp : p.Valid) (hv : p.view = v) :
    Sim E { w with spParams := assign w.spParams i p } { a with spParams := assign a.spParams i v } :=
  ⟨m.params, m.state, m.hash,
    assign_rel (P := fun (p : Sp.Params) v => p.Valid ∧ p.view = v) m.spParams ⟨hp, hv⟩ i,
    m.spState⟩

theorem Sim.setSpState {E : Env} {w : World} {a : AWorld} (m : Sim E w a) (i : Nat)
    {s : Sp.State} {x : Option ASpState} (h : SpSim E s x) :
    Sim E { w with spState := assign w.spState i s } { a with spState := assign a.spState i x } :=
  ⟨m.params, m.state, m.hash, m.spParams, assign_rel (P := SpSim E) m.spState h i⟩

theorem Sim.keepSpState {E : Env} {w : World} {a : AWorld} (m : Sim E w a) (i : Nat) {s : Sp.State}
    (h : SpSim E s (a.spState i)) : Sim E { w with spState := assign w.spState i s } a := by
  have := m.setSpState i h
  rwa [assign_self] at this

theorem exact_first {n : Nat} {input : Vector (List U8) (n + 1)} :
    (∃ len, ExactLengths input len) ↔ ExactLengths input input[0].length := by
  constructor
  · rintro ⟨len, h⟩
    have : input[0].length = len := h.1 0
    rw [this]; exact h
  · exact fun h => ⟨_, h⟩

theorem exact4_sim {E : Env} (hE : E.WF) {p : Params} (v : p.Valid) {input : Vector (List U8) 4}
    (hl : ExactLengths input input[0].length) (h63 : input[0].length < 2 ^ 63) :
    ∃ hs, hash4Exact E p input = .ok hs ∧
      ∀ i : Fin 4, HashSim hs[i] (input.map (exactDigest p.view))[i] := by
  have get : ∀ i : Fin 4, (input.map (exactDigest p.view))[i] = exactDigest p.view input[i] := by
    intro i; simp
  by_cases hk : p.keyLength = 0
  · obtain ⟨hs, e, h⟩ := C13_hash4_exact E hE p v.accepted hk input _ hl (fits_small h63)
    refine ⟨hs, e, fun i => ?_⟩
    have hkb := (keyBytes_nil v).mp hk
    rw [get, exactDigest, if_pos (show p.view.key = [] from hkb)]
    have := hashOne_sim hE v (h i).1
    rw [hkb] at this
    exact this
  · obtain ⟨hs, e, h⟩ := exact4_len hE v hl h63
    refine ⟨hs, e, fun i => ⟨by rw [h i]; exact v.hl.2, ?_⟩⟩
    intro b eb
    rw [get, exactDigest,
      if_neg (show ¬ p.view.key = [] from fun q => hk ((keyBytes_nil v).mpr q))] at eb
    cases eb

theorem exact8_sim {E : Env} (hE : E.WF) {p : Params} (v : p.Valid) {input : Vector (List U8) 8}
    (hl : ExactLengths input input[0].length) (h63 : input[0].length < 2 ^ 63) :
    ∃ hs, hash8Exact E p input = .ok hs ∧
      ∀ i : Fin 8, HashSim hs[i] (input.map (exactDigest p.view))[i] := by
  have get : ∀ i : Fin 8, (input.map (exactDigest p.view))[i] = exactDigest p.view input[i] := by
    intro i; simp
  by_cases hk : p.keyLength = 0
  · obtain ⟨hs, e, h⟩ := C14_hash8_exact E hE p v.accepted hk input _ hl (fits_small h63)
    refine ⟨hs, e, fun i => ?_⟩
    have hkb := (keyBytes_nil v).mp hk
    rw [get, exactDigest, if_pos (show p.view.key = [] from hkb)]
    have := hashOne_sim hE v (h i).1
    rw [hkb] at this
    exact this
  · obtain ⟨hs, e, h⟩ := exact8_len hE v hl h63
    refine ⟨hs, e, fun i => ⟨by rw [h i]; exact v.hl.2, ?_⟩⟩
    intro b eb
    rw [get, exactDigest,
      if_neg (show ¬ p.view.key = [] from fun q => hk ((keyBytes_nil v).mpr q))] at eb
    cases eb

seal Portable.compress Portable.compress8 Avx2.compress8 stateWordsToBytes State.zeroTail in
theorem call_step {E : Env} (hE : E.WF) {w : World} {a : AWorld} (m : Sim E w a) {k : Nat → Bool}
    (wr : WRel False E E k w w) (c : Call) (hl : c.Legal) : Step E (w.call E c) (a.call (buildOf E) c) := by
  cases c with
  | newParams p => exact Step.ok (m.setParams p default_valid rfl)
  | cloneParams dst src => exact Step.ok (m.setParams dst (m.params src).1 (m.params src).2)
  | set p c =>
    simp only [World.call, AWorld.call]
    by_cases h : c.InRange
    · rw [if_pos h, set_pos _ h]
      exact Step.ok (m.setParams p (set_valid (m.params p).1 (set_pos _ h)) (by
        rw [put_view _ _ h, (m.params p).2]))
    · rw [if_neg h, set_neg _ h]
      exact ⟨_, rfl⟩
  | newState s =>
    obtain ⟨x, e, r⟩ := toState_sim hE default_valid
    have e' : State.new E = .ok x := e
    simp only [World.call]
    rw [e']
    exact Step.ok (m.setState s r)
  | toState s p =>
    obtain ⟨x, e, r⟩ := toState_sim hE (m.params p).1
    simp only [World.call]
    rw [e]
    rw [(m.params p).2] at r
    exact Step.ok (m.setState s r)
  | cloneState dst src => exact Step.ok (m.setState dst (m.state src))
  | update s input =>
    simp only [World.call, AWorld.call]
    rcases update_sim (m.state s) input with ⟨h, e⟩ | ⟨h, x, e, r⟩
    · rw [if_pos h, e]; exact ⟨_, rfl⟩
    · rw [if_neg (by rw [h]; decide), e]; exact Step.ok (m.setState s r)
  | write s input =>
    simp only [World.call, AWorld.call, State.write]
    rcases update_sim (m.state s) input with ⟨h, e⟩ | ⟨h, x, e, r⟩
    · rw [if_pos h, e]; exact ⟨_, rfl⟩
    · rw [if_neg (by rw [h]; decide), e]; exact Step.ok (m.setState s r)
  | flush s => exact Step.ok (m.keepState s (m.state s))
  | setLastNode s b =>
    obtain ⟨c, r, h0, h1, h2, h3⟩ := m.state s
    exact Step.ok (m.setState s (x := { a.state s with lastNode := b })
      ⟨_, setLastNode_rep r b, h0, rfl, h2, h3⟩)
  | finalize s h =>
    obtain ⟨x, d, e, r, hd⟩ := finalize_sim (m.state s)
    simp only [World.call]
    rw [e]
    exact Step.ok ((m.keepState s r).setHash h hd)
  | count s =>
    refine Step.okq m ?_
    intro y e
    cases e
    rw [counted_eq (m.state s)]
  | debugState s =>
    refine Step.okq m ?_
    intro y e
    cases e
    rw [debug_eq (m.state s)]
  | forcePortable s =>
    obtain ⟨c, r, h0, h1, h2, h3⟩ := m.state s
    exact Step.ok (m.keepState s ⟨_, forcePortable_rep r, h0, h1, h2, h3⟩)
  | blake2s input h =>
    obtain ⟨d, e, hd⟩ := blake2s_sim hE (hl.1 input List.mem_cons_self)
    simp only [World.call]
    rw [e]
    exact Step.ok (m.setHash h hd)
  | update8 s input =>
    have ms : ∀ i : Fin 8, StateSim E (s.map w.state)[i] (a.state s[i]) := by
      intro i
      have : (s.map w.state)[i] = w.state s[i] := by simp
      rw [this]; exact m.state _
    have rep := fun i => (ms i).choose_spec
    simp only [World.call, AWorld.call]
    rcases update8_ends _ _ (s.map w.state) input (fun i => (rep i).1) with ⟨x, e, r⟩ | ⟨e, i, bad⟩
    · rw [e, if_neg (by
        rintro ⟨i, hi⟩
        exact (r i).notTooLong (overflows_iff.mp hi))]
      let ys := Vector.ofFn fun i : Fin 8 => (a.state s[i]).update input[i]
      refine Step.ok (w := { w with state := assignAll w.state s x })
        (a := { a with state := assignAll a.state s ys })
        ⟨m.params, ?_, m.hash, m.spParams, m.spState⟩
      refine assignAll_rel (P := StateSim E) m.state s ?_
      intro i
      have : (Vector.ofFn fun i : Fin 8 => (a.state s[i]).update input[i])[i] =
          (a.state s[i]).update input[i] := by simp
      rw [this]
      obtain ⟨-, h0, h1, h2, h3⟩ := rep i
      exact rep_update (r i) h0 h1 h2 h3
    · rw [e, if_pos ⟨i, overflows_iff.mpr bad⟩]
      exact ⟨_, rfl⟩
  | finalize8 s h =>
    have ms : ∀ i : Fin 8, StateSim E (s.map w.state)[i] (a.state s[i]) := by
      intro i
      have : (s.map w.state)[i] = w.state s[i] := by simp
      rw [this]; exact m.state _
    obtain ⟨x, d, e, he⟩ := finalize8_ok (E := E) (s.map w.state) (fun i => by
      obtain ⟨c, ⟨k, w, _⟩, -⟩ := ms i
      rw [w.fn]; exact w.sup)
    have r : ∀ i : Fin 8, StateSim E x[i] (a.state s[i]) ∧
        HashSim d[i] (some (a.state s[i]).digest) := by
      intro i
      obtain ⟨y, dy, ey, ry, hy⟩ := finalize_sim (ms i)
      rw [he i] at ey
      cases ey
      exact ⟨ry, hy⟩
    simp only [World.call, AWorld.call]
    rw [e]
    have m' : Sim E { w with state := assignAll w.state s x } a := by
      refine ⟨m.params, ?_, m.hash, m.spParams, m.spState⟩
      have := assignAll_rel (P := StateSim E) m.state s (xs := x) (ys := s.map a.state) (by
        intro i
        have : (s.map a.state)[i] = a.state s[i] := by simp
        rw [this]; exact (r i).1)
      rwa [assignAll_same] at this
    refine Step.ok (m'.setHashes h ?_)
    intro i
    have : (Vector.ofFn fun i : Fin 8 => some (a.state s[i]).digest)[i] =
        some (a.state s[i]).digest := by simp
    rw [this]
    exact (r i).2
  | hash4Exact p input h =>
    simp only [World.call, AWorld.call]
    by_cases c : ExactLengths input input[0].length
    · rw [if_pos c]
      obtain ⟨hs, e, hh⟩ := exact4_sim hE (m.params p).1 c (hl.1 _ (by simp [Call.slices]))
      rw [e]
      rw [(m.params p).2] at hh
      exact Step.ok (m.setHashes h hh)
    · rw [if_neg c, C13_refuses E _ _ (fun q => c (exact_first.mp q))]
      exact ⟨_, rfl⟩
  | hash8Exact p input h =>
    simp only [World.call, AWorld.call]
    by_cases c : ExactLengths input input[0].length
    · rw [if_pos c]
      obtain ⟨hs, e, hh⟩ := exact8_sim hE (m.params p).1 c (hl.1 _ (by simp [Call.slices]))
      rw [e]
      rw [(m.params p).2] at hh
      exact Step.ok (m.setHashes h hh)
    · rw [if_neg c, C14_refuses E _ _ (fun q => c (exact_first.mp q))]
      exact ⟨_, rfl⟩
  | hash8 p input h =>
    have gp : ∀ i : Fin 8, (p.map w.params)[i] = w.params p[i] := by intro i; simp
    have kp : ∀ i : Fin 8, (w.params p[i]).keyLength = 0 ↔ (a.params p[i]).key = [] := by
      intro i
      rw [keyBytes_nil (m.params _).1, ← (m.params _).2]
      rfl
    simp only [World.call, AWorld.call]
    by_cases c : ∀ i : Fin 8, (a.params p[i]).key = []
    · rw [if_pos c]
      obtain ⟨hs, e, hh⟩ := C15_hash8 E hE (p.map w.params)
        (fun i => by rw [gp]; exact (m.params _).1.accepted)
        (fun i => by rw [gp]; exact (kp i).mpr (c i)) input
        (fun i => fits_small (hl.1 _ (by simp [Call.slices])))
      rw [e]
      refine Step.ok (m.setHashes h ?_)
      intro i
      have h1 := (hh i).1
      rw [gp] at h1
      have h2 := hashOne_sim hE (m.params _).1 h1
      have : (Vector.ofFn fun i : Fin 8 =>
          some (Spec.hash (a.params p[i]).values [] (a.params p[i]).lastNode input[i]))[i] =
          some (Spec.hash (a.params p[i]).values [] (a.params p[i]).lastNode input[i]) := by simp
      rw [this, ← (m.params _).2]
      rw [(keyBytes_nil (m.params _).1).mp ((kp i).mpr (c i))] at h2
      exact h2
    · rw [if_neg c]
      obtain ⟨i, hi⟩ := Classical.not_forall.mp c
      rw [hash8_keyed E (p.map w.params) input i (by rw [gp]; exact fun q => hi ((kp i).mp q))]
      exact ⟨_, rfl⟩
  | cloneHash dst src => exact Step.ok (m.setHash dst (m.hash src))
  | asBytes h =>
    obtain ⟨x, e, hx⟩ := asBytes_sim (m.hash h)
    simp only [World.call]
    rw [e]
    refine Step.okq m ?_
    intro y ey
    obtain ⟨b, hb, rfl⟩ := Option.map_eq_some_iff.mp ey
    rw [hx b hb]
  | toHex h =>
    have s := m.hash h
    simp only [World.call]
    rw [toHex_ok _ s.1]
    refine Step.okq m ?_
    intro y ey
    obtain ⟨b, hb, rfl⟩ := Option.map_eq_some_iff.mp ey
    rw [s.2 b hb]
  | debugHash h =>
    have s := m.hash h
    simp only [World.call, Hash.debug]
    rw [toHex_ok _ s.1]
    refine Step.okq m ?_
    intro y ey
    obtain ⟨b, hb, rfl⟩ := Option.map_eq_some_iff.mp ey
    rw [s.2 b hb]
  | eqHash x y =>
    have sx := m.hash x
    have sy := m.hash y
    simp only [World.call, Hash.eqHash]
    rw [asBytes_ok _ sx.1, asBytes_ok _ sy.1]
    refine Step.okq m ?_
    intro o eo
    cases hx : a.hash x with
    | none => simp [hx] at eo
    | some b =>
      cases hy : a.hash y with
      | none => simp [hx, hy] at eo
      | some b' =>
        simp only [hx, hy, Option.some.injEq] at eo
        rw [← eo, constantTimeEq_eq, sx.2 b hx, sy.2 b' hy]
  | eqSlice h b =>
    have s := m.hash h
    simp only [World.call, Hash.eqSlice]
    rw [asBytes_ok _ s.1]
    refine Step.okq m ?_
    intro y ey
    obtain ⟨x, hx, rfl⟩ := Option.map_eq_some_iff.mp ey
    rw [constantTimeEq_eq, s.2 x hx]
  | blake2sp input h =>
    obtain ⟨d, e, hd⟩ := sp_blake2sp_sim hE (hl.1 input List.mem_cons_self)
    simp only [World.call]
    rw [e]
    exact Step.ok (m.setHash h hd)
  | spNewParams p => exact Step.ok (m.setSpParams p Sp.default_valid rfl)
  | spCloneParams dst src =>
    exact Step.ok (m.setSpParams dst (m.spParams src).1 (m.spParams src).2)
  | spSet p c =>
    simp only [World.call, AWorld.call]
    by_cases h : c.InRange
    · obtain ⟨q, e, v, hv⟩ := sp_set_pos (m.spParams p).1 h
      rw [if_pos h, e]
      exact Step.ok (m.setSpParams p v (by rw [hv, (m.spParams p).2]))
    · rw [if_neg h, sp_set_neg _ h]
      exact ⟨_, rfl⟩
  | spDebugParams p =>
    refine Step.okq m ?_
    intro y e
    cases e
    rw [← (m.spParams p).2]
    have := (m.spParams p).1.keyBytes_length
    unfold debugSpParams Sp.Params.debug State.dec
    rw [← this]
    rfl
  | spNewState s =>
    obtain ⟨x, e, r⟩ := sp_toState_sim hE Sp.default_valid
    have e' : Sp.State.new E = .ok x := e
    simp only [World.call]
    rw [e']
    exact Step.ok (m.setSpState s r)
  | spToState s p =>
    obtain ⟨x, e, r⟩ := sp_toState_sim hE (m.spParams p).1
    simp only [World.call]
    rw [e]
    rw [(m.spParams p).2] at r
    exact Step.ok (m.setSpState s r)
  | spUpdate s input =>
    have := sp_update_sim (m.spState s) input
    simp only [World.call, AWorld.call]
    cases h : Abstract.spUpdate (buildOf E) (a.spState s) input with
    | panics =>
      rw [h] at this
      obtain ⟨f, e⟩ := this
      rw [e]
      exact ⟨f, rfl⟩
    | returns x sure =>
      rw [h] at this
      rcases this with ⟨s', e, r⟩ | ⟨hs, f, e⟩
      · rw [e]
        exact Step.ok (m.setSpState s r)
      · rw [e]
        exact .inr ⟨hs, f, rfl⟩
  | spWrite s input =>
    have := sp_update_sim (m.spState s) input
    simp only [World.call, AWorld.call, Sp.State.write]
    cases h : Abstract.spUpdate (buildOf E) (a.spState s) input with
    | panics =>
      rw [h] at this
      obtain ⟨f, e⟩ := this
      rw [e]
      exact ⟨f, rfl⟩
    | returns x sure =>
      rw [h] at this
      rcases this with ⟨s', e, r⟩ | ⟨hs, f, e⟩
      · rw [e]
        exact Step.ok (m.setSpState s r)
      · rw [e]
        exact .inr ⟨hs, f, rfl⟩
  | spFlush s => exact Step.ok (m.keepSpState s (m.spState s))
  | spFinalize s h =>
    have ms := m.spState s
    simp only [World.call, AWorld.call]
    cases hx : a.spState s with
    | some x =>
      rw [hx] at ms
      obtain ⟨d, e, hd⟩ := sp_finalize_sim ms
      rw [e]
      exact Step.ok ((m.keepSpState s (m.spState s)).setHash h hd)
    | none =>
      rcases Sp.finalize_both ⟨rfl, rfl, hE, hE⟩ (wr.spState s) with ⟨⟨_, d⟩, _, e, _, rfl, _, q, _⟩ | ⟨f, _, e, _⟩
      · rw [e]
        exact Step.ok ((m.keepSpState s (m.spState s)).setHash h ⟨q.l2, fun _ q => by simp at q⟩)
      · rw [e]
        exact .inr ⟨rfl, f, rfl⟩
  | spCount s =>
    have ms := m.spState s
    simp only [World.call, AWorld.call]
    cases hx : a.spState s with
    | some x =>
      rw [hx] at ms
      rw [sp_count_sim ms]
      exact Step.ok m
    | none =>
      cases e : (w.spState s).getCount E with
      | ok n => exact Step.okq m (fun _ q => by simp at q)
      | error f => exact .inr ⟨rfl, f, rfl⟩
  | spDebugState s =>
    have ms := m.spState s
    simp only [World.call, AWorld.call, Sp.State.debug]
    cases hx : a.spState s with
    | some x =>
      rw [hx] at ms
      rw [sp_count_sim ms]
      exact Step.okq m (fun _ q => by simp at q)
    | none =>
      cases e : (w.spState s).getCount E with
      | ok n => exact Step.okq m (fun _ q => by simp at q)
      | error f => exact .inr ⟨rfl, f, rfl⟩
  | spForcePortable s =>
    refine Step.ok (m.keepSpState s ?_)
    intro x hx
    obtain ⟨p, v, pv, abs, hf, hk⟩ := m.spState s x hx
    exact ⟨p, v, pv, abs.forcePortable, hf, hk⟩

/-! ## Programs -/

theorem init_sim {E : Env} (hE : E.WF) {w : World} (h : World.init E = .ok w) :
    Sim E w AWorld.init := by
  obtain ⟨s, es, rs⟩ := toState_sim hE default_valid
  obtain ⟨d, ed, rd⟩ := blake2s_sim (E := E) hE (input := []) (by decide)
  obtain ⟨t, et, rt⟩ := sp_toState_sim hE Sp.default_valid
  have es' : State.new E = .ok s := es
  have et' : Sp.State.new E = .ok t := et
  unfold World.init at h
  simp only [es', ed, et', bind, Except.bind, pure, Except.pure] at h
  cases h
  exact ⟨fun _ => ⟨default_valid, rfl⟩, fun _ => rs, fun _ => rd, fun _ => ⟨Sp.default_valid, rfl⟩,
    fun _ => rt⟩

theorem wrel_step {E : Env} (hE : E.WF) {w w' : World} {x : Out} {k : Nat → Bool}
    (wr : WRel False E E k w w) {c : Call} (hl : c.Legal) (h : w.call E c = .ok (w', x)) :
    ∃ k, WRel False E E k w' w' := by
  have e : ERel E E := ⟨rfl, rfl, hE, hE⟩
  have := call_both e wr (f := fun b => b) (fun b => DRel.refl _ b) c hl nofun
  rw [Call.mapBytes_id] at this
  rcases this with ⟨a, b, e1, e2, r, _⟩ | ⟨f, _, e1, _⟩
  · rw [h] at e1 e2
    cases e1
    cases e2
    exact ⟨_, r⟩
  · rw [h] at e1; cases e1

theorem run_sim {E : Env} (hE : E.WF) (cs : List Call) (hl : ∀ c ∈ cs, c.Legal) {w : World}
    {a : AWorld} (m : Sim E w a) {k : Nat → Bool} (wr : WRel False E E k w w) :
    (∀ w' outs, w.run E cs = .ok (w', outs) →
      (a.run (buildOf E) cs).panics = false ∧ Allows (a.run (buildOf E) cs).outs outs) ∧
    (∀ f, w.run E cs = .error f →
      (a.run (buildOf E) cs).panics = true ∨ (a.run (buildOf E) cs).sure = false) := by
  induction cs generalizing w a k with
  | nil =>
    refine ⟨fun w' outs h => ?_, fun f h => by cases h⟩
    cases h
    exact ⟨rfl, trivial⟩
  | cons c cs ih =>
    have hc := call_step hE m wr c (hl c List.mem_cons_self)
    unfold World.run AWorld.run
    cases ha : a.call (buildOf E) c with
    | panics =>
      rw [ha] at hc
      obtain ⟨f, e⟩ := hc
      rw [e]
      exact ⟨fun w' outs h => (by cases h), fun _ _ => .inl rfl⟩
    | returns a' o sure =>
      rw [ha] at hc
      rcases hc with ⟨w', x, e, m', ho⟩ | ⟨hs, f, e⟩
      · obtain ⟨k', wr'⟩ := wrel_step hE wr (hl c List.mem_cons_self) e
        have := ih (fun c hc => hl c (List.mem_cons_of_mem _ hc)) m' wr'
        rw [e]
        simp only [bind, Except.bind]
        cases hr : w'.run E cs with
        | error f =>
          refine ⟨fun _ _ h => (by cases h), fun g hg => ?_⟩
          rcases this.2 f hr with h | h
          · exact .inl h
          · right; simp only [h, Bool.and_false]
        | ok q =>
          obtain ⟨w2, os⟩ := q
          refine ⟨fun w3 outs h => ?_, fun _ h => by cases h⟩
          cases h
          obtain ⟨h1, h2⟩ := this.1 w2 os hr
          refine ⟨h1, ?_⟩
          cases o with
          | none => exact h2
          | some y => exact ⟨ho y rfl, h2⟩
      · rw [e]
        refine ⟨fun _ _ h => (by cases h), fun g _ => .inr ?_⟩
        simp only [hs, Bool.false_and]

theorem program_sim {E : Env} (hE : E.WF) (cs : List Call) (hl : ∀ c ∈ cs, c.Legal) :
    (∀ outs, Blake2s.program E cs = .ok outs →
      (program (buildOf E) cs).panics = false ∧ Allows (program (buildOf E) cs).outs outs) ∧
    (∀ f, Blake2s.program E cs = .error f →
      (program (buildOf E) cs).panics = true ∨ (program (buildOf E) cs).sure = false) := by
  have e : ERel E E := ⟨rfl, rfl, hE, hE⟩
  unfold Blake2s.program program
  rcases init_both e False with ⟨w, b, e1, e2, r⟩ | ⟨f, _, e1, _⟩
  · rw [e1] at e2
    cases e2
    have := run_sim hE cs hl (init_sim hE e1) r
    rw [e1]
    simp only [bind, Except.bind]
    cases hr : w.run E cs with
    | error f => exact ⟨fun _ h => (by cases h), fun g _ => this.2 f hr⟩
    | ok q => exact ⟨fun outs h => by cases h; exact this.1 _ _ hr, fun _ h => by cases h⟩
  · exfalso
    obtain ⟨s, es, -⟩ := toState_sim hE default_valid
    obtain ⟨d, ed, -⟩ := blake2s_sim (E := E) hE (input := []) (by decide)
    obtain ⟨t, et, -⟩ := sp_toState_sim hE Sp.default_valid
    have es' : State.new E = .ok s := es
    have et' : Sp.State.new E = .ok t := et
    unfold World.init at e1
    simp only [es', ed, et', bind, Except.bind, pure, Except.pure] at e1
    cases e1

end Blake2s.Abstract
