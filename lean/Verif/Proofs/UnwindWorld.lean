import Verif.Proofs.UnwindRel
/-!
# Programs that catch every panic: the first panic, and two runs side by side
-/

namespace Blake2s

open M (lift get modify lane Agree)

/-! ## One call -/

theorem World.onOne_agree {τ α β : Type} {get : World → Nat → τ} {put : World → Nat → τ → World}
    {i : Nat} {m : M τ α} {r : R (τ × α)} {w : World} {k : α → M World β}
    {g : τ × α → R (World × β)} (h : Agree (m (get w i)) r)
    (h2 : ∀ t a, r = .ok (t, a) → Agree (k a (put w i t)) (g (t, a))) :
    Agree ((World.onOne get put i m >>= k) w) (r >>= g) := by
  cases r with
  | error e =>
    have h : (m (get w i)).1 = .error e := h
    have : (World.onOne get put i m w).1 = .error e := h
    exact congrArg Prod.fst (M.bind_error this k)
  | ok q =>
    obtain ⟨t, a⟩ := q
    have h : m (get w i) = (.ok a, t) := h
    have : World.onOne get put i m w = (.ok a, put w i t) := by unfold World.onOne; rw [h]
    rw [M.bind_ok this]
    exact h2 t a rfl

theorem World.onOne_unit {τ β : Type} {get : World → Nat → τ} {put : World → Nat → τ → World}
    {i : Nat} {m : M τ Unit} {r : R τ} {w : World} {k : Unit → M World β}
    {g : τ → R (World × β)} (h : Agree (m (get w i)) (r >>= fun t => pure (t, ())))
    (h2 : ∀ t, r = .ok t → Agree (k () (put w i t)) (g t)) :
    Agree ((World.onOne get put i m >>= k) w) (r >>= g) := by
  cases r with
  | error e => exact onOne_agree (r := .error e) (g := fun x => g x.1) h fun _ _ h => nomatch h
  | ok t =>
    refine onOne_agree (r := .ok (t, ())) (g := fun x => g x.1) h ?_
    rintro t' a h
    cases h
    exact h2 t rfl

theorem World.onStates_agree {α β : Type} {is : Vector Nat 8} {m : M (Vector State 8) α}
    {r : R (Vector State 8 × α)} {w : World} {k : α → M World β}
    {g : Vector State 8 × α → R (World × β)} (h : Agree (m (is.map w.state)) r)
    (h2 : ∀ t a, r = .ok (t, a) → Agree (k a { w with state := assignAll w.state is t }) (g (t, a))) :
    Agree ((World.onStates is m >>= k) w) (r >>= g) := by
  cases r with
  | error e =>
    have h : (m (is.map w.state)).1 = .error e := h
    have : (World.onStates is m w).1 = .error e := h
    exact congrArg Prod.fst (M.bind_error this k)
  | ok q =>
    obtain ⟨t, a⟩ := q
    have h : m (is.map w.state) = (.ok a, t) := h
    have : World.onStates is m w = (.ok a, { w with state := assignAll w.state is t }) := by
      unfold World.onStates; rw [h]
    rw [M.bind_ok this]
    exact h2 t a rfl

/-- The calls that are modelled statement by statement. -/
def Call.stepwise : Call → Bool
  | .set .. | .update .. | .write .. | .finalize .. | .update8 .. | .finalize8 .. | .spSet ..
  | .spUpdate .. | .spWrite .. => true
  | _ => false

theorem World.callU_plain (E : Env) {c : Call} (h : c.stepwise = false) : callU E c = callPlain E c := by
  cases c <;> first | rfl | cases h

theorem World.other_agree (E : Env) (c : Call) (w : World) :
    Agree (callPlain E c w) (w.call E c) := by
  unfold callPlain
  cases w.call E c <;> rfl

seal State.finalize finalize8 update8 State.finalizeU finalize8U update8U State.update State.updateU
  Sp.State.update Sp.State.updateU in
/-- The statement-by-statement model of a call does what the call does. -/
theorem World.call_agree (E : Env) (c : Call) (w : World) : Agree (callU E c w) (w.call E c) := by
  cases c with
  | set p c => exact onOne_unit (Params.set_agree (w.params p) c) fun _ _ => rfl
  | update s input => exact onOne_unit (State.update_agree E (w.state s) input) fun _ _ => rfl
  | write s input =>
    have : w.call E (.write s input) = ((w.state s).update E input >>= fun x =>
        pure ({ w with state := assign w.state s x }, .length input.length)) := by
      show ((w.state s).write E input >>= _) = _
      unfold State.write
      rw [bind_assoc]
      rfl
    rw [this]
    exact onOne_unit (State.update_agree E (w.state s) input) fun _ _ => rfl
  | finalize s h =>
    show Agree ((World.onOne _ _ s (State.finalizeU E) >>= _) w) ((w.state s).finalize E >>= _)
    exact onOne_agree (State.finalize_agree E (w.state s)) fun _ _ _ => rfl
  | update8 s input =>
    show Agree ((onStates s (update8U E input) >>= fun _ => pure Out.unit) w)
      (update8 E (s.map w.state) input >>= fun x =>
        pure ({ w with state := assignAll w.state s x }, Out.unit))
    have := update8_agree E (s.map w.state) input
    cases e : update8 E (s.map w.state) input with
    | error f =>
      rw [e] at this
      exact onStates_agree (r := .error f) 
        (g := fun x => pure ({ w with state := assignAll w.state s x.1 }, Out.unit)) this fun _ _ h => nomatch h
    | ok t =>
      rw [e] at this
      refine onStates_agree (r := .ok (t, ())) 
        (g := fun x => pure ({ w with state := assignAll w.state s x.1 }, Out.unit)) this ?_
      rintro t' a h
      cases h
      rfl
  | finalize8 s h => exact onStates_agree (finalize8_agree E (s.map w.state)) fun _ _ _ => rfl
  | spSet p c => exact onOne_unit (Sp.Params.set_agree (w.spParams p) c) fun _ _ => rfl
  | spUpdate s input =>
    exact onOne_unit (Sp.State.update_agree E (w.spState s) input) fun _ _ => rfl
  | spWrite s input =>
    have : w.call E (.spWrite s input) = ((w.spState s).update E input >>= fun x =>
        pure ({ w with spState := assign w.spState s x }, .length input.length)) := by
      show ((w.spState s).write E input >>= _) = _
      unfold Sp.State.write
      rw [bind_assoc]
      rfl
    rw [this]
    exact onOne_unit (Sp.State.update_agree E (w.spState s) input) fun _ _ => rfl
  | _ => rw [callU_plain E rfl]; exact World.other_agree E _ w

theorem World.callU_ok {E : Env} {c : Call} {w w' : World} {o : Out} (h : w.call E c = .ok (w', o)) :
    callU E c w = (.ok o, w') := by
  have := call_agree E c w
  rwa [h] at this

theorem World.callU_error {E : Env} {c : Call} {w : World} {f : Fault} (h : w.call E c = .error f) :
    (callU E c w).1 = .error f := by
  have := call_agree E c w
  rwa [h] at this

/-! ## Setters that panic change nothing -/

theorem Params.setU_error {c : Setter} {p : Params} {f : Fault} (h : (Params.setU c p).1 = .error f) :
    (Params.setU c p).2 = p := by
  by_cases hc : c.InRange
  · have := Params.set_agree p c
    rw [set_pos p hc] at this
    have : Params.setU c p = (.ok (), p.put c) := this
    rw [this] at h
    cases h
  · cases c with
    | fanout n => exact absurd trivial hc
    | maxLeafLength n => exact absurd trivial hc
    | nodeDepth n => exact absurd trivial hc
    | lastNode n => exact absurd trivial hc
    | _ =>
      simp only [Setter.InRange] at hc
      simp only [Params.setU, assert]
      rw [if_neg (by simpa [OUTBYTES, KEYBYTES, SALTBYTES, PERSONALBYTES] using hc)]
      rfl

theorem Sp.Params.setU_error {c : Sp.Setter} {p : Sp.Params} {f : Fault}
    (h : (Sp.Params.setU c p).1 = .error f) : (Sp.Params.setU c p).2 = p := by
  by_cases hc : c.InRange
  · have := Sp.Params.set_agree p c
    have e : ∃ q, p.set c = .ok q := by
      cases c with
      | hashLength n => exact ⟨_, (Sp.setHashLength_eq _ _).trans (if_pos hc)⟩
      | key k => exact ⟨_, (Sp.setKey_eq _ _).trans (if_pos hc)⟩
    obtain ⟨q, e⟩ := e
    rw [e] at this
    have : Sp.Params.setU c p = (.ok (), q) := this
    rw [this] at h
    cases h
  · cases c with
    | _ =>
      simp only [Sp.Setter.InRange] at hc
      simp only [Sp.Params.setU, assert]
      rw [if_neg (by simpa [OUTBYTES, KEYBYTES] using hc)]
      rfl

theorem assign_same {α : Type} (f : Nat → α) (i : Nat) : assign f i (f i) = f := by
  funext j
  unfold assign
  split
  · rename_i h; rw [h]
  · rfl

/-- A call followed by a computation that cannot panic: what is left is what the call left. -/
theorem World.onOne_left {τ α : Type} {get : World → Nat → τ} {put : World → Nat → τ → World}
    {i : Nat} {m : M τ α} {w : World} {k : α → M World Out} {f : Fault}
    (hk : ∀ a w, ∃ o, (k a w).1 = .ok o)
    (h : ((World.onOne get put i m >>= k) w).1 = .error f) :
    (m (get w i)).1 = .error f ∧
      ((World.onOne get put i m >>= k) w).2 = put w i (m (get w i)).2 := by
  cases e : (m (get w i)).1 with
  | error f' =>
    have e' : (World.onOne get put i m w).1 = .error f' := e
    rw [M.bind_error e'] at h ⊢
    cases h
    exact ⟨rfl, rfl⟩
  | ok a =>
    have e' : World.onOne get put i m w = (.ok a, put w i (m (get w i)).2) := by
      unfold World.onOne; rw [e]
    rw [M.bind_ok e'] at h
    obtain ⟨o, ho⟩ := hk a (put w i (m (get w i)).2)
    rw [ho] at h
    cases h

theorem World.onStates_left {α : Type} {is : Vector Nat 8} {m : M (Vector State 8) α} {w : World}
    {k : α → M World Out} {f : Fault} (hk : ∀ a w, ∃ o, (k a w).1 = .ok o)
    (h : ((World.onStates is m >>= k) w).1 = .error f) :
    (m (is.map w.state)).1 = .error f ∧ ((World.onStates is m >>= k) w).2 =
      { w with state := assignAll w.state is (m (is.map w.state)).2 } := by
  cases e : (m (is.map w.state)).1 with
  | error f' =>
    have e' : (World.onStates is m w).1 = .error f' := e
    rw [M.bind_error e'] at h ⊢
    cases h
    exact ⟨rfl, rfl⟩
  | ok a =>
    have e' : World.onStates is m w =
        (.ok a, { w with state := assignAll w.state is (m (is.map w.state)).2 }) := by
      unfold World.onStates; rw [e]
    rw [M.bind_ok e'] at h
    obtain ⟨o, ho⟩ := hk a { w with state := assignAll w.state is (m (is.map w.state)).2 }
    rw [ho] at h
    cases h

theorem BothU.left {σ τ α β : Type} {E : Env} {S : σ → τ → Prop} {x : R α × σ} {y : R β × τ}
    {Q : σ → τ → α → β → Prop} (h : BothU E S x y Q) {f : Fault} (e : x.1 = .error f) : S x.2 y.2 := by
  rcases h with ⟨a, b, e', _⟩ | ⟨_, _, _, _, h⟩
  · rw [e'] at e; cases e
  · exact h

theorem World.left_plain {E : Env} {c : Call} {w : World} {f : Fault} (hc : c.stepwise = false)
    (h : (callU E c w).1 = .error f) : (callU E c w).2 = w := by
  rw [callU_plain E hc] at h ⊢
  unfold callPlain at h ⊢
  cases e : w.call E c with
  | error g => rfl
  | ok q => rw [e] at h; cases h

theorem World.left_set {E : Env} {p : Nat} {c : Setter} {w : World} {f : Fault}
    (h : (callU E (.set p c) w).1 = .error f) : (callU E (.set p c) w).2 = w := by
  obtain ⟨h1, h2⟩ := onOne_left (k := fun _ => pure Out.unit) (fun _ _ => ⟨_, rfl⟩) h
  refine h2.trans ?_
  show ({ w with params := assign w.params p (Params.setU c (w.params p)).2 } : World) = w
  rw [Params.setU_error h1, assign_same]

theorem World.left_spSet {E : Env} {p : Nat} {c : Sp.Setter} {w : World} {f : Fault}
    (h : (callU E (.spSet p c) w).1 = .error f) : (callU E (.spSet p c) w).2 = w := by
  obtain ⟨h1, h2⟩ := onOne_left (k := fun _ => pure Out.unit) (fun _ _ => ⟨_, rfl⟩) h
  refine h2.trans ?_
  show ({ w with spParams := assign w.spParams p (Sp.Params.setU c (w.spParams p)).2 } : World) = w
  rw [Sp.Params.setU_error h1, assign_same]

theorem finalizeU_ok {E E' : Env} {x : Prop} {s t : State} (r : SRel x E E' s t) {f : Fault}
    (h : (State.finalizeU E s).1 = .error f) : False := by
  have := State.finalize_agree E s
  obtain ⟨h', e⟩ : ∃ q, s.finalize E = .ok q := by
    unfold State.finalize
    simp only []
    rw [CompressFn.call_ok r.sup]
    exact ⟨_, rfl⟩
  rw [e] at this
  have : State.finalizeU E s = (.ok h'.2, h'.1) := this
  rw [this] at h
  cases h

theorem finalize8U_ok {E E' : Env} {x : Prop} {s t : Vector State 8} (r : SRel8 x E E' s t) {f : Fault}
    (h : (finalize8U E s).1 = .error f) : False := by
  have := finalize8_agree E s
  obtain ⟨s', d, e, -⟩ := finalize8_ok (E := E) s (fun i => (r i).sup)
  rw [e] at this
  have : finalize8U E s = (.ok d, s') := this
  rw [this] at h
  cases h

theorem Call.stepwise_mapBytes (f : List U8 → List U8) (c : Call) :
    (c.mapBytes f).stepwise = c.stepwise := by
  cases c <;> rfl

/-- What two related calls leave behind when they panic. -/
theorem left_both {E E' : Env} (e : ERel E E') {x : Prop} {k : Nat → Bool} {w v : World}
    (r : WRel x E E' k w v) {f : List U8 → List U8} (hf : ∀ b, DRel x b (f b)) (c : Call) {g : Fault}
    (h : (World.callU E c w).1 = .error g) (h' : (World.callU E' (c.mapBytes f) v).1 = .error g) :
    WRel x E E' k (World.callU E c w).2 (World.callU E' (c.mapBytes f) v).2 := by
  by_cases hc : c.stepwise = false
  · rw [World.left_plain hc h, World.left_plain ((c.stepwise_mapBytes f).trans hc) h']
    exact r
  have hf8 : ∀ {n : Nat} (b : Vector (List U8) n) (i : Fin n), DRel x b[i] (b.map f)[i] := by
    intro n b i
    have : (b.map f)[i] = f b[i] := by simp
    rw [this]
    exact hf _
  have hs8 : ∀ s : Vector Nat 8, SRel8 x E E' (s.map w.state) (s.map v.state) := by
    intro s i
    have h1 : (s.map w.state)[i] = w.state s[i] := by simp
    have h2 : (s.map v.state)[i] = v.state s[i] := by simp
    rw [h1, h2]
    exact r.state _
  have ok : ∀ (o : Out) (a : Unit) (w : World), ∃ o', ((pure o : M World Out) w).1 = .ok o' :=
    fun o _ _ => ⟨o, rfl⟩
  cases c with
  | set p c =>
    rw [World.left_set h, show (World.callU E' (Call.mapBytes f (.set p c)) v).2 = v from
      World.left_set (c := c.mapBytes f) h']
    exact r
  | spSet p c =>
    rw [World.left_spSet h, show (World.callU E' (Call.mapBytes f (.spSet p c)) v).2 = v from
      World.left_spSet (c := c.mapBytes f) h']
    exact r
  | update s b =>
    obtain ⟨h1, h2⟩ := World.onOne_left (k := fun _ => pure Out.unit) (ok _) h
    obtain ⟨h1', h2'⟩ := World.onOne_left (k := fun _ => pure Out.unit) (ok _) h'
    have q := (updateU_both e (r.state s) (hf b)).left h1
    rw [show (World.callU E (.update s b) w).2 = _ from h2,
      show (World.callU E' (Call.mapBytes f (.update s b)) v).2 = _ from h2']
    exact ⟨r.params, r.keyed, assign_rel r.state q _, r.hash, r.spParams, r.spState⟩
  | write s b =>
    obtain ⟨h1, h2⟩ := World.onOne_left (k := fun _ => pure (Out.length b.length)) (ok _) h
    obtain ⟨h1', h2'⟩ := World.onOne_left (k := fun _ => pure (Out.length (f b).length)) (ok _) h'
    have q := (updateU_both e (r.state s) (hf b)).left h1
    rw [show (World.callU E (.write s b) w).2 = _ from h2,
      show (World.callU E' (Call.mapBytes f (.write s b)) v).2 = _ from h2']
    exact ⟨r.params, r.keyed, assign_rel r.state q _, r.hash, r.spParams, r.spState⟩
  | finalize s d =>
    obtain ⟨h1, -⟩ := World.onOne_left
      (k := fun x => modify (fun w : World => { w with hash := assign w.hash d x }) >>= fun _ => pure Out.unit)
      (fun _ _ => ⟨_, rfl⟩) h
    exact (finalizeU_ok (r.state s) h1).elim
  | finalize8 s d =>
    obtain ⟨h1, -⟩ := World.onStates_left
      (k := fun x => modify (fun w : World => { w with hash := assignAll w.hash d x }) >>= fun _ => pure Out.unit)
      (fun _ _ => ⟨_, rfl⟩) h
    exact (finalize8U_ok (hs8 s) h1).elim
  | update8 s b =>
    obtain ⟨h1, h2⟩ := World.onStates_left (k := fun _ => pure Out.unit) (ok _) h
    obtain ⟨h1', h2'⟩ := World.onStates_left (k := fun _ => pure Out.unit) (ok _) h'
    have q := (update8U_both e (hs8 s) (hf8 b)).left h1
    rw [show (World.callU E (.update8 s b) w).2 = _ from h2,
      show (World.callU E' (Call.mapBytes f (.update8 s b)) v).2 = _ from h2']
    exact ⟨r.params, r.keyed, assignAll_rel r.state s q, r.hash, r.spParams, r.spState⟩
  | spUpdate s b =>
    obtain ⟨h1, h2⟩ := World.onOne_left (k := fun _ => pure Out.unit) (ok _) h
    obtain ⟨h1', h2'⟩ := World.onOne_left (k := fun _ => pure Out.unit) (ok _) h'
    have q := (Sp.updateU_both e (r.spState s) (hf b)).left h1
    rw [show (World.callU E (.spUpdate s b) w).2 = _ from h2,
      show (World.callU E' (Call.mapBytes f (.spUpdate s b)) v).2 = _ from h2']
    exact ⟨r.params, r.keyed, r.state, r.hash, r.spParams, assign_rel r.spState q _⟩
  | spWrite s b =>
    obtain ⟨h1, h2⟩ := World.onOne_left (k := fun _ => pure (Out.length b.length)) (ok _) h
    obtain ⟨h1', h2'⟩ := World.onOne_left (k := fun _ => pure (Out.length (f b).length)) (ok _) h'
    have q := (Sp.updateU_both e (r.spState s) (hf b)).left h1
    rw [show (World.callU E (.spWrite s b) w).2 = _ from h2,
      show (World.callU E' (Call.mapBytes f (.spWrite s b)) v).2 = _ from h2']
    exact ⟨r.params, r.keyed, r.state, r.hash, r.spParams, assign_rel r.spState q _⟩
  | _ => exact absurd rfl hc

/-- The keys that the program can have set, if some of its calls may have panicked. -/
def MayKey (k k' : Nat → Bool) : Prop := ∀ j, k j = false → k' j = false

theorem MayKey.assign {k k' : Nat → Bool} (h : MayKey k k') (i : Nat) {a b : Bool}
    (hab : a = false → b = false) : MayKey (assign k i a) (assign k' i b) := by
  intro j
  unfold Blake2s.assign
  split
  · exact hab
  · exact h j

theorem MayKey.call {k k' : Nat → Bool} (h : MayKey k k') (c : Call) :
    MayKey (c.keyed k) (c.keyed k') := by
  cases c with
  | newParams p => exact h.assign p fun _ => rfl
  | cloneParams dst src => exact h.assign dst (h src)
  | set p c => cases c <;> first | exact h.assign p fun q => q | exact h
  | _ => exact h

/-- Calls that panicked are not yet known to have set a key. -/
theorem MayKey.failed {E : Env} {k k' : Nat → Bool} (h : MayKey k k') {c : Call} {w : World} {f : Fault}
    (hc : w.call E c = .error f) : MayKey (c.keyed k) k' := by
  cases c with
  | newParams p => cases hc
  | cloneParams dst src => cases hc
  | set p c =>
    cases c with
    | key b =>
      intro j hj
      have hj : Blake2s.assign k p (!b.isEmpty) j = false := hj
      unfold Blake2s.assign at hj
      split at hj
      · have hb : b = [] := by
          cases b with
          | nil => rfl
          | cons x xs => cases hj
        subst hb
        have : (w.params p).set (.key []) = .ok _ := set_pos _ (c := .key []) (Nat.zero_le _)
        rw [show w.call E (.set p (.key [])) = ((w.params p).set (.key []) >>= fun x =>
          pure ({ w with params := Blake2s.assign w.params p x }, Out.unit)) from rfl, this] at hc
        cases hc
      · exact h j hj
    | _ => exact h
  | _ => exact h

/-- The results of the calls of a caught program, compared. -/
def RRel (E : Env) (x : Prop) (r r' : R Out) : Prop :=
  (∃ o o', r = .ok o ∧ r' = .ok o' ∧ ORel x o o') ∨ ∃ f, Panic E f ∧ r = .error f ∧ r' = .error f

/-- Lists of results, compared one by one. -/
def RsRel (E : Env) (x : Prop) : List (R Out) → List (R Out) → Prop
  | [], [] => True
  | r :: rs, r' :: rs' => RRel E x r r' ∧ RsRel E x rs rs'
  | _, _ => False

theorem runU_both {E E' : Env} (e : ERel E E') {x : Prop} {f : List U8 → List U8}
    (hf : ∀ b, DRel x b (f b)) (cs : List Call) {k k' : Nat → Bool} (hm : MayKey k k') {w v : World}
    (r : WRel x E E' k' w v) (hl : ∀ c ∈ cs, c.Legal)
    (hk : x → E.usesAvx2 = E'.usesAvx2 ∨ NoKeyedExact k cs) :
    RsRel E x (w.runU E cs) (v.runU E' (cs.map (Call.mapBytes f))) := by
  induction cs generalizing k k' w v with
  | nil => trivial
  | cons c cs ih =>
    have hx : x → E.usesAvx2 = E'.usesAvx2 ∨ c.ExactUnkeyed k' := by
      intro hx
      refine (hk hx).imp id fun h => ?_
      have := h.1
      cases c <;> first | exact hm _ this | trivial
    have hk' : x → E.usesAvx2 = E'.usesAvx2 ∨ NoKeyedExact (c.keyed k) cs :=
      fun hx => (hk hx).imp id (·.2)
    have hl' : ∀ c ∈ cs, c.Legal := fun c hc => hl c (by simp [hc])
    rcases call_both e r hf c (hl c (by simp)) hx with ⟨y, z, ey, ez, q, o⟩ | ⟨g, hg, ey, ez⟩
    · have uy := World.callU_ok (o := y.2) (w' := y.1) ey
      have uz := World.callU_ok (o := z.2) (w' := z.1) ez
      unfold World.runU
      rw [List.map_cons, uy]
      simp only [uz]
      exact ⟨.inl ⟨_, _, rfl, rfl, o⟩, ih (hm.call c) q hl' hk'⟩
    · have uy := World.callU_error ey
      have uz := World.callU_error ez
      unfold World.runU
      rw [List.map_cons]
      simp only [uy, uz]
      exact ⟨.inr ⟨g, hg, rfl, rfl⟩, ih (hm.failed ey) (left_both e r hf c uy uz) hl' hk'⟩

theorem caught_both {E E' : Env} (e : ERel E E') {x : Prop} {f : List U8 → List U8}
    (hf : ∀ b, DRel x b (f b)) (cs : List Call) (hl : ∀ c ∈ cs, c.Legal)
    (hk : x → E.usesAvx2 = E'.usesAvx2 ∨ NoKeyedExact (fun _ => false) cs) :
    Both E (caught E cs) (caught E' (cs.map (Call.mapBytes f))) (RsRel E x) := by
  unfold caught
  refine Both.bind (init_both e x) ?_
  intro w v r
  exact Both.pure (runU_both e hf cs (fun _ h => h) r hl hk)

/-! ## Prefixes -/

/-- The variables after some calls of a program that catches every panic. -/
def World.leftU (E : Env) (w : World) : List Call → World
  | [] => w
  | c :: cs => World.leftU E (World.callU E c w).2 cs

theorem World.runU_append (E : Env) (cs ds : List Call) (w : World) :
    w.runU E (cs ++ ds) = w.runU E cs ++ (w.leftU E cs).runU E ds := by
  induction cs generalizing w with
  | nil => rfl
  | cons c cs ih =>
    exact congrArg (_ :: ·) (ih _)

theorem World.runU_length (E : Env) (cs : List Call) (w : World) :
    (w.runU E cs).length = cs.length := by
  induction cs generalizing w with
  | nil => rfl
  | cons c cs ih => exact congrArg (· + 1) (ih _)

theorem leftU_rel {E : Env} (hE : E.WF) (cs : List Call) {k : Nat → Bool} {w : World}
    (r : WRel False E E k w w) (hl : ∀ c ∈ cs, c.Legal) :
    ∃ k', WRel False E E k' (w.leftU E cs) (w.leftU E cs) := by
  have e : ERel E E := ⟨rfl, rfl, hE, hE⟩
  induction cs generalizing k w with
  | nil => exact ⟨k, r⟩
  | cons c cs ih =>
    have hl' : ∀ c ∈ cs, c.Legal := fun c hc => hl c (by simp [hc])
    have hb := call_both (x := False) e r (f := fun b => b) (fun b => DRel.refl _ b) c (hl c (by simp))
      nofun
    have hi : c.mapBytes (fun b => b) = c := by
      have := map_mapBytes_id [c]
      exact (List.cons.inj this).1
    rw [hi] at hb
    unfold World.leftU
    rcases hb with ⟨y, z, ey, ez, q, o⟩ | ⟨g, hg, ey, ez⟩
    · rw [ey] at ez
      cases ez
      rw [World.callU_ok (o := y.2) (w' := y.1) ey]
      exact ih q hl'
    · have uy := World.callU_error ey
      have := left_both e r (f := fun b => b) (fun b => DRel.refl _ b) c uy (by rw [hi]; exact uy)
      rw [hi] at this
      exact ih this hl'

theorem World.left_other {E : Env} {x : Prop} {k : Nat → Bool} {c : Call} {w : World}
    (r : WRel x E E k w w) (hc : c.updates = false) {f : Fault} (h : (callU E c w).1 = .error f) :
    (callU E c w).2 = w := by
  by_cases hs : c.stepwise = false
  · exact left_plain hs h
  have hs8 : ∀ s : Vector Nat 8, SRel8 x E E (s.map w.state) (s.map w.state) := by
    intro s i
    have h1 : (s.map w.state)[i] = w.state s[i] := by simp
    rw [h1]
    exact r.state _
  cases c with
  | set p c => exact left_set h
  | spSet p c => exact left_spSet h
  | finalize s d =>
    obtain ⟨h1, -⟩ := World.onOne_left
      (k := fun x => modify (fun w : World => { w with hash := assign w.hash d x }) >>= fun _ => pure Out.unit)
      (fun _ _ => ⟨_, rfl⟩) h
    exact (finalizeU_ok (r.state s) h1).elim
  | finalize8 s d =>
    obtain ⟨h1, -⟩ := World.onStates_left
      (k := fun x => modify (fun w : World => { w with hash := assignAll w.hash d x }) >>= fun _ => pure Out.unit)
      (fun _ _ => ⟨_, rfl⟩) h
    exact (finalize8U_ok (hs8 s) h1).elim
  | update => cases hc
  | write => cases hc
  | update8 => cases hc
  | spUpdate => cases hc
  | spWrite => cases hc
  | _ => exact absurd rfl hs

end Blake2s
