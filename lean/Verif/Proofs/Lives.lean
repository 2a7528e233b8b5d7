import Verif.Lives
import Verif.Proofs.Refine
/-!
# Every object is what its own life makes it
-/

namespace Blake2s

open Abstract

theorem Params.setAll_snoc {p q r : Params} {cs : List Setter} {c : Setter} (h : p.setAll cs = .ok q)
    (h' : q.set c = .ok r) : p.setAll (cs ++ [c]) = .ok r := by
  induction cs generalizing p with
  | nil =>
    have h : p = q := Except.ok.inj h
    subst h
    show (p.set c >>= fun x => x.setAll []) = _
    rw [h']; rfl
  | cons d cs ih =>
    have h : (p.set d >>= fun p => p.setAll cs) = .ok q := h
    show (p.set d >>= fun p => p.setAll (cs ++ [c])) = _
    cases e : p.set d with
    | error f => rw [e] at h; cases h
    | ok x => rw [e] at h; exact ih h

theorem Sp.Params.setAll_snoc {p q r : Sp.Params} {cs : List Sp.Setter} {c : Sp.Setter}
    (h : p.setAll cs = .ok q) (h' : q.set c = .ok r) : p.setAll (cs ++ [c]) = .ok r := by
  induction cs generalizing p with
  | nil =>
    have h : p = q := Except.ok.inj h
    subst h
    show (p.set c >>= fun x => x.setAll []) = _
    rw [h']; rfl
  | cons d cs ih =>
    have h : (p.set d >>= fun p => p.setAll cs) = .ok q := h
    show (p.set d >>= fun p => p.setAll (cs ++ [c])) = _
    cases e : p.set d with
    | error f => rw [e] at h; cases h
    | ok x => rw [e] at h; exact ih h

theorem Life.Alone.then {E : Env} {l : Life} {t t' : State} {op : Op} {hs : List Hash}
    (h : l.Alone E t) (e : t.run E [op] = .ok (t', hs)) : (l.then op).Alone E t' := by
  obtain ⟨p, hp, s0, hs', h0, h1⟩ := h
  refine ⟨p, hp, s0, hs' ++ hs, h0, ?_⟩
  show s0.run E (l.ops ++ [op]) = _
  rw [run_append, h1]
  show (t.run E [op] >>= fun y => pure (y.1, hs' ++ y.2)) = _
  rw [e]
  rfl

theorem Sp.run_append (E : Env) (s : Sp.State) (a b : List Sp.Op) :
    s.run E (a ++ b) = (s.run E a >>= fun x => x.1.run E b >>= fun y => pure (y.1, x.2 ++ y.2)) := by
  have hp : ∀ (r : R (Sp.State × List Hash)), (r >>= fun y => pure (y.1, [] ++ y.2)) = r := by
    intro r; cases r <;> rfl
  induction a generalizing s with
  | nil =>
    show s.run E b = (s.run E b >>= fun y => pure (y.1, [] ++ y.2))
    rw [hp]
  | cons op ops ih =>
    cases op with
    | update i =>
      show (s.update E i >>= fun t => t.run E (ops ++ b)) =
        ((s.update E i >>= fun t => t.run E ops) >>= _)
      cases s.update E i with
      | error f => rfl
      | ok t => exact ih t
    | write i =>
      show (s.write E i >>= fun t => t.1.run E (ops ++ b)) =
        ((s.write E i >>= fun t => t.1.run E ops) >>= _)
      cases s.write E i with
      | error f => rfl
      | ok t => exact ih t.1
    | flush => exact ih s.flush
    | forcePortable => exact ih s.forcePortable
    | finalize =>
      show (s.finalize E >>= fun x => x.1.run E (ops ++ b) >>= fun y => pure (y.1, x.2 :: y.2)) =
        ((s.finalize E >>= fun x => x.1.run E ops >>= fun y => pure (y.1, x.2 :: y.2)) >>= _)
      cases s.finalize E with
      | error f => rfl
      | ok q =>
        obtain ⟨s, h⟩ := q
        show (s.run E (ops ++ b) >>= fun y => pure (y.1, h :: y.2)) =
          ((s.run E ops >>= fun y => pure (y.1, h :: y.2)) >>= _)
        rw [ih s]
        cases s.run E ops with
        | error f => rfl
        | ok x =>
          show ((x.1.run E b >>= fun y => pure (y.1, x.2 ++ y.2)) >>= fun y => pure (y.1, h :: y.2)) =
            (x.1.run E b >>= fun y => pure (y.1, (h :: x.2) ++ y.2))
          cases x.1.run E b <;> rfl

theorem SpLife.Alone.then {E : Env} {l : SpLife} {t t' : Sp.State} {op : Sp.Op} {hs : List Hash}
    (h : l.Alone E t) (e : t.run E [op] = .ok (t', hs)) : (l.then op).Alone E t' := by
  obtain ⟨p, hp, s0, hs', h0, h1⟩ := h
  refine ⟨p, hp, s0, hs' ++ hs, h0, ?_⟩
  show s0.run E (l.ops ++ [op]) = _
  rw [Sp.run_append, h1]
  show (t.run E [op] >>= fun y => pure (y.1, hs' ++ y.2)) = _
  rw [e]
  rfl

/-- A `State` of the program and the one that lived the same life alone. -/
def Twin (E : Env) (s : State) (l : Life) : Prop :=
  ∃ t a, l.Alone E t ∧ StateSim E s a ∧ StateSim E t a

theorem finalize_twin {E : Env} {s t : State} {a : AState} (hs : StateSim E s a)
    (ht : StateSim E t a) : ∃ s' t' h, s.finalize E = .ok (s', h) ∧ t.finalize E = .ok (t', h) ∧
      StateSim E s' a ∧ StateSim E t' a := by
  obtain ⟨c, r, h0, h1, h2, h3⟩ := hs
  obtain ⟨d, q, g0, g1, g2, g3⟩ := ht
  obtain ⟨s', h, e, r', b, l, _⟩ := finalize_ok r
  obtain ⟨t', h', e', q', b', l', _⟩ := finalize_ok q
  have : h = h' := Cfg.hashes_unique (c := c) (data := Spec.keyBlock a.key ++ a.fed) ⟨b, l⟩
    ⟨by rw [b', h0, h1, g0, g1], by rw [l', h2, g2]⟩
  subst this
  exact ⟨s', t', h, e, e', ⟨c, r', h0, h1, h2, h3⟩, ⟨d, q', g0, g1, g2, g3⟩⟩

/-- A new `State` and its twin. -/
theorem Twin.fresh {E : Env} (hE : E.WF) {p : Params} {cs : List Setter} {s : State}
    (hp : Params.new.setAll cs = .ok p) (hs : p.toState E = .ok s) : Twin E s ⟨cs, []⟩ := by
  have v : p.Valid := Params.Accepted.valid ⟨cs, hp⟩
  obtain ⟨s', e, r⟩ := toState_sim hE v
  rw [hs] at e
  cases e
  exact ⟨s, _, ⟨p, hp, s, [], hs, rfl⟩, r, r⟩

theorem Twin.update {E : Env} {s s' : State} {l : Life} {input : List U8} (h : Twin E s l)
    (e : s.update E input = .ok s') : Twin E s' (l.then (.update input)) := by
  obtain ⟨t, a, hl, hs, ht⟩ := h
  rcases update_sim hs input with ⟨_, q⟩ | ⟨h1, x, q, rx⟩
  · rw [e] at q; cases q
  · rcases update_sim ht input with ⟨h2, _⟩ | ⟨_, y, q', ry⟩
    · rw [h1] at h2; cases h2
    · rw [e] at q
      cases q
      refine ⟨y, _, hl.then (hs := []) ?_, rx, ry⟩
      show (t.update E input >>= fun t => t.run E []) = _
      rw [q']; rfl

theorem Twin.write {E : Env} {s s' : State} {l : Life} {input : List U8} (h : Twin E s l)
    (e : s.update E input = .ok s') : Twin E s' (l.then (.write input)) := by
  obtain ⟨t, a, hl, hs, ht⟩ := h
  rcases update_sim hs input with ⟨_, q⟩ | ⟨h1, x, q, rx⟩
  · rw [e] at q; cases q
  · rcases update_sim ht input with ⟨h2, _⟩ | ⟨_, y, q', ry⟩
    · rw [h1] at h2; cases h2
    · rw [e] at q
      cases q
      refine ⟨y, _, hl.then (hs := []) ?_, rx, ry⟩
      show (t.write E input >>= fun t => t.1.run E []) = _
      unfold State.write
      rw [q']; rfl

theorem Twin.flush {E : Env} {s : State} {l : Life} (h : Twin E s l) : Twin E s (l.then .flush) := by
  obtain ⟨t, a, hl, hs, ht⟩ := h
  exact ⟨t, a, hl.then (hs := []) rfl, hs, ht⟩

theorem Twin.forcePortable {E : Env} {s : State} {l : Life} (h : Twin E s l) :
    Twin E s.forcePortable (l.then .forcePortable) := by
  obtain ⟨t, a, hl, ⟨c, r, h0, h1, h2, h3⟩, ⟨d, q, g0, g1, g2, g3⟩⟩ := h
  exact ⟨t.forcePortable, a, hl.then (hs := []) rfl, ⟨_, forcePortable_rep r, h0, h1, h2, h3⟩,
    ⟨_, forcePortable_rep q, g0, g1, g2, g3⟩⟩

theorem Twin.setLastNode {E : Env} {s : State} {l : Life} (h : Twin E s l) (b : Bool) :
    Twin E (s.setLastNode b) (l.then (.setLastNode b)) := by
  obtain ⟨t, a, hl, ⟨c, r, h0, h1, h2, h3⟩, ⟨d, q, g0, g1, g2, g3⟩⟩ := h
  exact ⟨t.setLastNode b, { a with lastNode := b }, hl.then (hs := []) rfl,
    ⟨_, setLastNode_rep r b, h0, rfl, h2, h3⟩, ⟨_, setLastNode_rep q b, g0, rfl, g2, g3⟩⟩

theorem Twin.finalize {E : Env} {s s' : State} {l : Life} {h : Hash} (w : Twin E s l)
    (e : s.finalize E = .ok (s', h)) :
    Twin E s' (l.then .finalize) ∧ (HashLife.finalized l).Alone E h := by
  obtain ⟨t, a, hl, hs, ht⟩ := w
  obtain ⟨x, t', h', e1, e2, r1, r2⟩ := finalize_twin hs ht
  rw [e] at e1
  cases e1
  refine ⟨⟨t', a, hl.then (hs := [h]) ?_, r1, r2⟩, t, t', hl, e2⟩
  show (t.finalize E >>= fun x => x.1.run E [] >>= fun y => pure (y.1, x.2 :: y.2)) = _
  rw [e2]; rfl

/-- All variables and their lives. -/
structure Lived (E : Env) (w : World) (l : Lives) : Prop where
  params : ∀ j, Params.new.setAll (l.params j) = .ok (w.params j)
  state : ∀ j, Twin E (w.state j) (l.state j)
  hash : ∀ j, (l.hash j).Alone E (w.hash j)
  spParams : ∀ j, Sp.Params.new.setAll (l.spParams j) = .ok (w.spParams j)
  spState : ∀ j, (l.spState j).Alone E (w.spState j)

theorem hashOne_alone {E : Env} {p : Params} {cs : List Setter} {input : List U8} {h : Hash}
    (hp : Params.new.setAll cs = .ok p) (e : hashOne E p input = .ok h) :
    (HashLife.finalized ⟨cs, [.update input]⟩).Alone E h := by
  unfold hashOne at e
  cases h1 : p.toState E with
  | error f => rw [h1] at e; cases e
  | ok s =>
    rw [h1] at e
    cases h2 : s.update E input with
    | error f => simp only [bind, Except.bind, h2] at e; cases e
    | ok s1 =>
      simp only [bind, Except.bind, h2] at e
      cases h3 : s1.finalize E with
      | error f => rw [h3] at e; cases e
      | ok q =>
        obtain ⟨s2, d⟩ := q
        rw [h3] at e
        cases e
        refine ⟨s1, s2, ⟨p, hp, s, [], h1, ?_⟩, h3⟩
        show (s.update E input >>= fun t => t.run E []) = _
        rw [h2]; rfl

theorem exact4_alone {E : Env} (hE : E.WF) {p : Params} {cs : List Setter}
    (hp : Params.new.setAll cs = .ok p) {input : Vector (List U8) 4} {hs : Vector Hash 4}
    (h63 : input[0].length < 2 ^ 63) (e : hash4Exact E p input = .ok hs) (i : Fin 4) :
    (HashLife.exact4 cs input[i]).Alone E hs[i] := by
  have acc : p.Accepted := ⟨cs, hp⟩
  by_cases hl : ∃ len, ExactLengths input len
  · obtain ⟨len, hl⟩ := hl
    have h63 : len < 2 ^ 63 := by rw [← hl.1 0]; exact h63
    have hg : ∀ j : Fin 4, (Vector.replicate 4 input[i])[j] = input[i] := by intro j; simp
    have hl' : ExactLengths (Vector.replicate 4 input[i]) len :=
      ⟨fun j => by rw [hg]; exact hl.1 i, hl.2⟩
    cases hx : (E.x86 && E.std && E.avx2)
    · obtain ⟨a, ea, ha⟩ := hash4_portable E hE hx p acc input len hl (fits_small h63)
      obtain ⟨b, eb, hb⟩ := hash4_portable E hE hx p acc _ len hl' (fits_small h63)
      rw [e] at ea
      cases ea
      refine ⟨p, b, hp, eb, fun j => ?_⟩
      have := hb j
      rw [hg, ha i] at this
      exact (Except.ok.inj this).symm
    · obtain ⟨a, ea, ha⟩ := hash4_simd E hE hx p acc input len hl
      obtain ⟨b, eb, hb⟩ := hash4_simd E hE hx p acc _ len hl'
      rw [e] at ea
      cases ea
      refine ⟨p, b, hp, eb, fun j => ?_⟩
      have := hb j
      rw [hg] at this
      exact Cfg.hashes_unique (c := p.cfg E) this (ha i)
  · rw [C13_refuses E p input hl] at e; cases e

theorem exact8_alone {E : Env} (hE : E.WF) {p : Params} {cs : List Setter}
    (hp : Params.new.setAll cs = .ok p) {input : Vector (List U8) 8} {hs : Vector Hash 8}
    (h63 : input[0].length < 2 ^ 63) (e : hash8Exact E p input = .ok hs) (i : Fin 8) :
    (HashLife.exact8 cs input[i]).Alone E hs[i] := by
  have acc : p.Accepted := ⟨cs, hp⟩
  by_cases hl : ∃ len, ExactLengths input len
  · obtain ⟨len, hl⟩ := hl
    have h63 : len < 2 ^ 63 := by rw [← hl.1 0]; exact h63
    have hg : ∀ j : Fin 8, (Vector.replicate 8 input[i])[j] = input[i] := by intro j; simp
    have hl' : ExactLengths (Vector.replicate 8 input[i]) len :=
      ⟨fun j => by rw [hg]; exact hl.1 i, hl.2⟩
    cases hx : (E.x86 && E.std && E.avx2)
    · obtain ⟨a, ea, ha⟩ := hash8_portable E hE hx p acc input len hl (fits_small h63)
      obtain ⟨b, eb, hb⟩ := hash8_portable E hE hx p acc _ len hl' (fits_small h63)
      rw [e] at ea
      cases ea
      refine ⟨p, b, hp, eb, fun j => ?_⟩
      have := hb j
      rw [hg, ha i] at this
      exact (Except.ok.inj this).symm
    · obtain ⟨a, ea, ha⟩ := hash8_simd E hx p acc input len hl
      obtain ⟨b, eb, hb⟩ := hash8_simd E hx p acc _ len hl'
      rw [e] at ea
      cases ea
      refine ⟨p, b, hp, eb, fun j => ?_⟩
      have := hb j
      rw [hg] at this
      exact Cfg.hashes_unique (c := p.cfg E) this (ha i)
  · rw [C14_refuses E p input hl] at e; cases e

theorem sp_alone {E : Env} {input : List U8} {h : Hash} (e : Blake2s.blake2sp E input = .ok h) :
    (HashLife.spFinalized ⟨[], [.update input]⟩).Alone E h := by
  unfold Blake2s.blake2sp at e
  cases h1 : Sp.State.new E with
  | error f => rw [h1] at e; cases e
  | ok s =>
    rw [h1] at e
    cases h2 : s.update E input with
    | error f => simp only [bind, Except.bind, h2] at e; cases e
    | ok s1 =>
      simp only [bind, Except.bind, h2] at e
      cases h3 : s1.finalize E with
      | error f => rw [h3] at e; cases e
      | ok q =>
        rw [h3] at e
        cases e
        refine ⟨s1, q.1, ⟨Sp.Params.new, rfl, s, [], h1, ?_⟩, h3⟩
        show (s.update E input >>= fun t => t.run E []) = _
        rw [h2]; rfl

theorem Lived.setHashes {E : Env} {w : World} {l : Lives} (m : Lived E w l) {n : Nat}
    (is : Vector Nat n) {hs : Vector Hash n} {x : Fin n → HashLife}
    (h : ∀ i : Fin n, (x i).Alone E hs[i]) :
    Lived E { w with hash := assignAll w.hash is hs } (l.hashes is x) :=
  ⟨m.params, m.state, assignAll_rel (P := fun h (y : HashLife) => y.Alone E h) m.hash is (by
    intro i
    have : (Vector.ofFn x)[i] = x i := by simp
    rw [this]; exact h i), m.spParams, m.spState⟩

theorem Lived.setHash {E : Env} {w : World} {l : Lives} (m : Lived E w l) (i : Nat) {h : Hash}
    {x : HashLife} (hx : x.Alone E h) :
    Lived E { w with hash := assign w.hash i h } { l with hash := assign l.hash i x } :=
  ⟨m.params, m.state, assign_rel (P := fun h (y : HashLife) => y.Alone E h) m.hash hx i, m.spParams,
    m.spState⟩

theorem Lived.setState {E : Env} {w : World} {l : Lives} (m : Lived E w l) (i : Nat) {s : State}
    {x : Life} (hx : Twin E s x) :
    Lived E { w with state := assign w.state i s } { l with state := assign l.state i x } :=
  ⟨m.params, assign_rel (P := Twin E) m.state hx i, m.hash, m.spParams, m.spState⟩

theorem Lived.setSpState {E : Env} {w : World} {l : Lives} (m : Lived E w l) (i : Nat) {s : Sp.State}
    {x : SpLife} (hx : x.Alone E s) :
    Lived E { w with spState := assign w.spState i s } { l with spState := assign l.spState i x } :=
  ⟨m.params, m.state, m.hash, m.spParams,
    assign_rel (P := fun s (y : SpLife) => y.Alone E s) m.spState hx i⟩

theorem bind_ok {α β : Type} {r : R α} {f : α → R β} {y : β} (h : (r >>= f) = .ok y) :
    ∃ x, r = .ok x ∧ f x = .ok y := by
  cases r with
  | error e => cases h
  | ok x => exact ⟨x, rfl, h⟩

theorem Lived.call {E : Env} (hE : E.WF) {w w' : World} {l : Lives} (m : Lived E w l) (c : Call)
    (hl : c.Legal) {o : Out} (h : w.call E c = .ok (w', o)) : Lived E w' (l.call c) := by
  cases c with
  | newParams p =>
    cases h
    exact ⟨assign_rel (P := fun p cs => Params.new.setAll cs = .ok p) m.params rfl p, m.state, m.hash,
      m.spParams, m.spState⟩
  | cloneParams dst src =>
    cases h
    exact ⟨assign_rel (P := fun p cs => Params.new.setAll cs = .ok p) m.params (m.params src) dst,
      m.state, m.hash, m.spParams, m.spState⟩
  | set p c =>
    obtain ⟨x, e, h⟩ := bind_ok h
    cases h
    exact ⟨assign_rel (P := fun p cs => Params.new.setAll cs = .ok p) m.params
      (Params.setAll_snoc (m.params p) e) p, m.state, m.hash, m.spParams, m.spState⟩
  | newState s =>
    obtain ⟨x, e, h⟩ := bind_ok h
    cases h
    exact m.setState s (Twin.fresh hE rfl e)
  | toState s p =>
    obtain ⟨x, e, h⟩ := bind_ok h
    cases h
    exact m.setState s (Twin.fresh hE (m.params p) e)
  | cloneState dst src =>
    cases h
    exact m.setState dst (m.state src)
  | update s input =>
    obtain ⟨x, e, h⟩ := bind_ok h
    cases h
    exact m.setState s ((m.state s).update e)
  | write s input =>
    obtain ⟨x, e, h⟩ := bind_ok h
    obtain ⟨y, e', h'⟩ := bind_ok e
    cases h'
    cases h
    exact m.setState s ((m.state s).write e')
  | flush s =>
    cases h
    exact m.setState s (m.state s).flush
  | setLastNode s b =>
    cases h
    exact m.setState s ((m.state s).setLastNode b)
  | finalize s i =>
    obtain ⟨x, e, h⟩ := bind_ok h
    obtain ⟨s', d⟩ := x
    cases h
    obtain ⟨h1, h2⟩ := (m.state s).finalize e
    exact (m.setState s h1).setHash i h2
  | count s => cases h; exact m
  | debugState s => cases h; exact m
  | forcePortable s =>
    cases h
    exact m.setState s (m.state s).forcePortable
  | blake2s input i =>
    obtain ⟨x, e, h⟩ := bind_ok h
    cases h
    exact m.setHash i (hashOne_alone (cs := []) (p := Params.new) rfl e)
  | update8 s input =>
    obtain ⟨x, e, h⟩ := bind_ok h
    cases h
    have ms : ∀ i : Fin 8, Twin E (s.map w.state)[i] (l.state s[i]) := by
      intro i
      have : (s.map w.state)[i] = w.state s[i] := by simp
      rw [this]; exact m.state _
    let t := fun i => (ms i).choose
    let a := fun i => (ms i).choose_spec.choose
    have hta : ∀ i, (l.state s[i]).Alone E (t i) ∧ StateSim E (s.map w.state)[i] (a i) ∧
        StateSim E (t i) (a i) := fun i => (ms i).choose_spec.choose_spec
    have rep := fun i => (hta i).2.1.choose_spec
    rcases update8_ends _ _ (s.map w.state) input (fun i => (rep i).1) with ⟨y, e', r⟩ | ⟨e', _⟩
    · rw [e] at e'
      cases e'
      refine ⟨m.params, assignAll_rel (P := Twin E) m.state s ?_, m.hash, m.spParams, m.spState⟩
      intro i
      have : (Vector.ofFn fun i : Fin 8 => (l.state s[i]).then (.update input[i]))[i] =
          (l.state s[i]).then (.update input[i]) := by simp
      rw [this]
      obtain ⟨-, h0, h1, h2, h3⟩ := rep i
      rcases update_sim (hta i).2.2 input[i] with ⟨q, _⟩ | ⟨_, z, ez, rz⟩
      · exact absurd (overflows_iff.mp q) (r i).notTooLong
      · refine ⟨z, _, (hta i).1.then (hs := []) ?_, rep_update (r i) h0 h1 h2 h3, rz⟩
        show ((t i).update E input[i] >>= fun t => t.run E []) = _
        rw [ez]; rfl
    · rw [e] at e'; cases e'
  | finalize8 s i =>
    obtain ⟨x, e, h⟩ := bind_ok h
    obtain ⟨xs, ds⟩ := x
    cases h
    have ms : ∀ i : Fin 8, Twin E (s.map w.state)[i] (l.state s[i]) := by
      intro i
      have : (s.map w.state)[i] = w.state s[i] := by simp
      rw [this]; exact m.state _
    obtain ⟨y, d, e', he⟩ := finalize8_ok (E := E) (s.map w.state) (fun i => by
      obtain ⟨_, _, _, ⟨c, ⟨k, w, _⟩, _⟩, _⟩ := ms i
      rw [w.fn]; exact w.sup)
    rw [e] at e'
    cases e'
    have m' : Lived E { w with state := assignAll w.state s xs } (l.op8 s fun _ => .finalize) := by
      refine ⟨m.params, assignAll_rel (P := Twin E) m.state s ?_, m.hash, m.spParams, m.spState⟩
      intro i
      have : (Vector.ofFn fun i : Fin 8 => (l.state s[i]).then .finalize)[i] =
          (l.state s[i]).then .finalize := by simp
      rw [this]
      exact ((ms i).finalize (he i)).1
    exact m'.setHashes i fun j => ((ms j).finalize (he j)).2
  | hash4Exact p input i =>
    obtain ⟨x, e, h⟩ := bind_ok h
    cases h
    exact m.setHashes i fun j => exact4_alone hE (m.params p) (hl.1 _ (by simp [Call.slices])) e j
  | hash8Exact p input i =>
    obtain ⟨x, e, h⟩ := bind_ok h
    cases h
    exact m.setHashes i fun j => exact8_alone hE (m.params p) (hl.1 _ (by simp [Call.slices])) e j
  | hash8 p input i =>
    obtain ⟨x, e, h⟩ := bind_ok h
    cases h
    have gp : ∀ i : Fin 8, (p.map w.params)[i] = w.params p[i] := by intro i; simp
    by_cases hk : ∀ i : Fin 8, (p.map w.params)[i].keyLength = 0
    · obtain ⟨hs, e', hh⟩ := C15_hash8 E hE (p.map w.params)
        (fun i => by rw [gp]; exact ⟨_, m.params _⟩) hk input
        (fun i => fits_small (hl.1 _ (by simp [Call.slices])))
      rw [e] at e'
      cases e'
      refine m.setHashes i fun j => hashOne_alone (m.params p[j]) ?_
      have := (hh j).1
      rwa [gp] at this
    · obtain ⟨j, hj⟩ := Classical.not_forall.mp hk
      rw [hash8_keyed E (p.map w.params) input j hj] at e
      cases e
  | cloneHash dst src =>
    cases h
    exact m.setHash dst (m.hash src)
  | asBytes i =>
    obtain ⟨x, e, h⟩ := bind_ok h
    cases h; exact m
  | toHex i =>
    obtain ⟨x, e, h⟩ := bind_ok h
    cases h; exact m
  | debugHash i =>
    obtain ⟨x, e, h⟩ := bind_ok h
    cases h; exact m
  | eqHash i j =>
    obtain ⟨x, e, h⟩ := bind_ok h
    cases h; exact m
  | eqSlice i b =>
    obtain ⟨x, e, h⟩ := bind_ok h
    cases h; exact m
  | blake2sp input i =>
    obtain ⟨x, e, h⟩ := bind_ok h
    cases h
    exact m.setHash i (sp_alone e)
  | spNewParams p =>
    cases h
    exact ⟨m.params, m.state, m.hash,
      assign_rel (P := fun p cs => Sp.Params.new.setAll cs = .ok p) m.spParams rfl p, m.spState⟩
  | spCloneParams dst src =>
    cases h
    exact ⟨m.params, m.state, m.hash,
      assign_rel (P := fun p cs => Sp.Params.new.setAll cs = .ok p) m.spParams (m.spParams src) dst,
      m.spState⟩
  | spSet p c =>
    obtain ⟨x, e, h⟩ := bind_ok h
    cases h
    exact ⟨m.params, m.state, m.hash,
      assign_rel (P := fun p cs => Sp.Params.new.setAll cs = .ok p) m.spParams
        (Sp.Params.setAll_snoc (m.spParams p) e) p, m.spState⟩
  | spDebugParams p => cases h; exact m
  | spNewState s =>
    obtain ⟨x, e, h⟩ := bind_ok h
    cases h
    exact m.setSpState s ⟨Sp.Params.new, rfl, x, [], e, rfl⟩
  | spToState s p =>
    obtain ⟨x, e, h⟩ := bind_ok h
    cases h
    exact m.setSpState s ⟨_, m.spParams p, x, [], e, rfl⟩
  | spUpdate s input =>
    obtain ⟨x, e, h⟩ := bind_ok h
    cases h
    refine m.setSpState s ((m.spState s).then (hs := []) ?_)
    show ((w.spState s).update E input >>= fun t => t.run E []) = _
    rw [e]; rfl
  | spWrite s input =>
    obtain ⟨x, e, h⟩ := bind_ok h
    cases h
    refine m.setSpState s ((m.spState s).then (hs := []) ?_)
    show ((w.spState s).write E input >>= fun t => t.1.run E []) = _
    rw [e]; rfl
  | spFlush s =>
    cases h
    exact m.setSpState s ((m.spState s).then (hs := []) rfl)
  | spFinalize s i =>
    obtain ⟨x, e, h⟩ := bind_ok h
    cases h
    refine (m.setSpState s ((m.spState s).then (op := .finalize) (hs := [x.2]) ?_)).setHash i
      ⟨_, x.1, m.spState s, e⟩
    show ((w.spState s).finalize E >>= fun x => x.1.run E [] >>= fun y => pure (y.1, x.2 :: y.2)) = _
    rw [e]; rfl
  | spCount s =>
    obtain ⟨x, e, h⟩ := bind_ok h
    cases h; exact m
  | spDebugState s =>
    obtain ⟨x, e, h⟩ := bind_ok h
    cases h; exact m
  | spForcePortable s =>
    cases h
    exact m.setSpState s ((m.spState s).then (hs := []) rfl)

theorem Lived.init {E : Env} (hE : E.WF) {w : World} (h : World.init E = .ok w) :
    Lived E w Lives.init := by
  obtain ⟨s, hs, h⟩ := bind_ok h
  obtain ⟨d, hd, h⟩ := bind_ok h
  obtain ⟨t, ht, h⟩ := bind_ok h
  cases h
  exact ⟨fun _ => rfl, fun _ => Twin.fresh hE rfl hs,
    fun _ => hashOne_alone (cs := []) (p := Params.new) rfl hd, fun _ => rfl,
    fun _ => ⟨Sp.Params.new, rfl, t, [], ht, rfl⟩⟩

theorem Lived.run {E : Env} (hE : E.WF) (cs : List Call) (hl : ∀ c ∈ cs, c.Legal) {w w' : World}
    {l : Lives} (m : Lived E w l) {outs : List Out} (h : w.run E cs = .ok (w', outs)) :
    Lived E w' (cs.foldl Lives.call l) := by
  induction cs generalizing w l outs with
  | nil => cases h; exact m
  | cons c cs ih =>
    obtain ⟨⟨w1, o⟩, e, h⟩ := bind_ok h
    obtain ⟨⟨w2, os⟩, e', h⟩ := bind_ok h
    cases h
    exact ih (fun c hc => hl c (List.mem_cons_of_mem _ hc))
      (m.call hE c (hl c List.mem_cons_self) e) e'

end Blake2s
