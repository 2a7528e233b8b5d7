import Verif.Rearrange
import Verif.Exact
import Verif.Proofs.RefineExact
/-!
# Frame lemmas for the exact machine (C56)
-/

namespace Blake2s

namespace Exact

/-- The variable has the same contents in two worlds. -/
def SameAt (w w' : XWorld) : Var → Prop
  | .params i => w.params i = w'.params i
  | .state i => w.state i = w'.state i
  | .hash i => w.hash i = w'.hash i
  | .spParams i => w.spParams i = w'.spParams i
  | .spState i => w.spState i = w'.spState i

theorem SameAt.refl (w : XWorld) (v : Var) : SameAt w w v := by cases v <;> rfl

theorem SameAt.symm {w w' : XWorld} {v : Var} (h : SameAt w w' v) : SameAt w' w v := by
  cases v <;> exact Eq.symm h

theorem SameAt.trans {w w' w'' : XWorld} {v : Var} (h : SameAt w w' v) (h' : SameAt w' w'' v) : SameAt w w'' v := by
  cases v <;> exact Eq.trans h h'

theorem XWorld.ext' {w w' : XWorld} (h : ∀ v, SameAt w w' v) : w = w' := by
  cases w; cases w'
  congr
  · exact funext fun i => h (.params i)
  · exact funext fun i => h (.state i)
  · exact funext fun i => h (.hash i)
  · exact funext fun i => h (.spParams i)
  · exact funext fun i => h (.spState i)

theorem assign_other {α : Type} {f : Nat → α} {i j : Nat} {x : α} (h : j ≠ i) : assign f i x j = f j := if_neg h

theorem foldl_assign_other {α : Type} (l : List (Nat × α)) {j : Nat} (h : ∀ a ∈ l, a.1 ≠ j) (f : Nat → α) :
    l.foldl (fun f ix => assign f ix.1 ix.2) f j = f j := by
  induction l generalizing f with
  | nil => rfl
  | cons a l ih =>
    rw [List.foldl_cons, ih (fun b hb => h b (List.mem_cons_of_mem _ hb))]
    exact assign_other (Ne.symm (h a (List.mem_cons_self ..)))

theorem assignAll_other {α : Type} {n : Nat} {f : Nat → α} {is : Vector Nat n} {xs : Vector α n} {j : Nat}
    (h : j ∉ is.toList) : assignAll f is xs j = f j :=
  foldl_assign_other _ (fun a ha e => h (by rw [← e]; exact (List.of_mem_zip (a := a.1) (b := a.2) ha).1)) f

theorem foldl_assign_same {α : Type} (l : List (Nat × α)) {j : Nat} (h : j ∈ l.map Prod.fst) (f g : Nat → α) :
    l.foldl (fun f ix => assign f ix.1 ix.2) f j = l.foldl (fun f ix => assign f ix.1 ix.2) g j := by
  induction l generalizing f g with
  | nil => simp at h
  | cons a l ih =>
    rw [List.foldl_cons, List.foldl_cons]
    by_cases hj : j ∈ l.map Prod.fst
    · exact ih hj _ _
    · have ha : j = a.1 := by
        rcases List.mem_cons.mp h with h | h
        · exact h
        · exact absurd h hj
      have hn : ∀ b ∈ l, b.1 ≠ j := fun b hb e => hj (e ▸ List.mem_map_of_mem hb)
      rw [foldl_assign_other l hn, foldl_assign_other l hn, ha]
      simp [assign]

theorem assignAll_same {α : Type} {n : Nat} {f g : Nat → α} {is : Vector Nat n} {xs : Vector α n} {j : Nat}
    (h : j ∈ is.toList) : assignAll f is xs j = assignAll g is xs j :=
  foldl_assign_same _ (by rw [List.map_fst_zip (by simp)]; exact h) f g

/-- A call changes only what it writes. -/
theorem call_writes {b : Build} {w w1 : XWorld} {c : Call} {o : Out} (h : w.call b c = .ok (w1, o)) (v : Var)
    (hv : v ∉ c.writes) : SameAt w w1 v := by
  cases c
  all_goals
    simp only [XWorld.call, XWorld.setParams, XWorld.setState, XWorld.setHash, XWorld.setStates, XWorld.setHashes,
      XWorld.setSpParams, XWorld.setSpState, bind, Except.bind, pure, Except.pure] at h
    try split at h
    all_goals cases h
    all_goals cases v
    all_goals
      simp only [Call.writes, List.mem_cons, List.not_mem_nil, or_false, List.mem_map, not_exists, not_and,
        List.mem_append, not_or, Var.params.injEq, Var.state.injEq, Var.hash.injEq, Var.spParams.injEq,
        Var.spState.injEq] at hv
    all_goals first
      | rfl
      | exact (assign_other hv).symm
      | exact (assign_other hv.2).symm
      | exact (assignAll_other fun hm => hv _ hm rfl).symm
      | exact (assignAll_other fun hm => hv.2 _ hm rfl).symm

/-- What a call does is determined by what it reads. -/
def Framed (c : Call) (r r' : R (XWorld × Out)) : Prop :=
  match r, r' with
  | .ok (x, o), .ok (x', o') => o = o' ∧ ∀ v ∈ c.writes, SameAt x x' v
  | .error _, .error _ => True
  | _, _ => False

theorem assign_agree {α : Type} {f g : Nat → α} {i j : Nat} {x : α} (h : j = i) : assign f i x j = assign g i x j := by
  simp [assign, h]

theorem call_reads {b : Build} {w w' : XWorld} {c : Call} (h : ∀ v ∈ c.reads, SameAt w w' v) :
    Framed c (w.call b c) (w'.call b c) := by
  cases c
  case update8 s input =>
    have e : ∀ i : Fin 8, w.state s[i] = w'.state s[i] := fun i => h (.state s[i]) (by simp [Call.reads])
    simp only [XWorld.call, XWorld.setStates, e]
    split
    · trivial
    · refine ⟨rfl, fun v hv => ?_⟩
      obtain ⟨j, hj, rfl⟩ := List.mem_map.mp hv
      exact assignAll_same hj
  case finalize8 s hs =>
    have e : ∀ i : Fin 8, w.state s[i] = w'.state s[i] := fun i => h (.state s[i]) (by simp [Call.reads])
    simp only [XWorld.call, XWorld.setHashes, e]
    refine ⟨rfl, fun v hv => ?_⟩
    rcases List.mem_append.mp hv with hv | hv
    · have := h v hv
      obtain ⟨j, hj, rfl⟩ := List.mem_map.mp hv
      exact this
    · obtain ⟨j, hj, rfl⟩ := List.mem_map.mp hv
      exact assignAll_same hj
  case hash8 p input hs =>
    have e : ∀ i : Fin 8, w.params p[i] = w'.params p[i] := fun i => h (.params p[i]) (by simp [Call.reads])
    simp only [XWorld.call, XWorld.setHashes, e]
    split
    · refine ⟨rfl, fun v hv => ?_⟩
      obtain ⟨j, hj, rfl⟩ := List.mem_map.mp hv
      exact assignAll_same hj
    · trivial
  all_goals
    simp only [Call.reads, List.mem_cons, List.not_mem_nil, or_false, forall_eq, forall_eq_or_imp, SameAt,
      false_implies, implies_true] at h
    simp only [XWorld.call, XWorld.setParams, XWorld.setState, XWorld.setHash, XWorld.setHashes,
      XWorld.setSpParams, XWorld.setSpState, bind, Except.bind, pure, Except.pure, h]
    try split
    all_goals first
      | trivial
      | refine ⟨rfl, fun v hv => ?_⟩
    all_goals
      simp only [Call.writes, List.mem_cons, List.not_mem_nil, or_false, List.mem_map] at hv
    all_goals first
      | exact hv.elim
      | (subst hv; first | exact assign_agree rfl | exact h)
      | (rcases hv with rfl | rfl <;> first | exact assign_agree rfl | exact h)
      | (obtain ⟨j, hj, rfl⟩ := hv; exact assignAll_same hj)

/-- A call, `none` if it panics. -/
def step (b : Build) (w : XWorld) (c : Call) : Option (XWorld × Out) := (w.call b c).toOption

/-- Several calls. -/
def steps (b : Build) (w : XWorld) : List Call → Option (XWorld × List Out)
  | [] => some (w, [])
  | c :: cs => do
    let x ← step b w c
    let y ← steps b x.1 cs
    return (y.1, x.2 :: y.2)

theorem run_steps (b : Build) (w : XWorld) (cs : List Call) :
    (w.run b cs).toOption = (steps b w cs).map Prod.snd := by
  induction cs generalizing w with
  | nil => rfl
  | cons c cs ih =>
    unfold XWorld.run steps step
    cases w.call b c with
    | error f => rfl
    | ok x =>
      obtain ⟨w1, o⟩ := x
      have := ih w1
      simp only [bind, Except.bind, Except.toOption, Option.bind]
      cases hr : w1.run b cs <;> cases hs : steps b w1 cs <;>
        simp_all [Except.toOption, pure, Except.pure]

theorem steps_append (b : Build) (w : XWorld) (p q : List Call) :
    steps b w (p ++ q) = (do
      let x ← steps b w p
      let y ← steps b x.1 q
      return (y.1, x.2 ++ y.2)) := by
  induction p generalizing w with
  | nil =>
    simp only [List.nil_append, steps, bind, Option.bind]
    cases steps b w q <;> rfl
  | cons c p ih =>
    simp only [List.cons_append, steps, ih, bind, Option.bind, pure]
    cases step b w c with
    | none => rfl
    | some x =>
      dsimp only
      cases steps b x.1 p with
      | none => rfl
      | some y =>
        dsimp only
        cases steps b y.1 q <;> rfl

theorem step_length {b : Build} {w : XWorld} {cs : List Call} {x : XWorld × List Out} (h : steps b w cs = some x) :
    x.2.length = cs.length := by
  induction cs generalizing w x with
  | nil => cases h; rfl
  | cons c cs ih =>
    simp only [steps, bind, Option.bind] at h
    cases h1 : step b w c with
    | none => rw [h1] at h; cases h
    | some y =>
      rw [h1] at h
      dsimp only at h
      cases h2 : steps b y.1 cs with
      | none => rw [h2] at h; cases h
      | some z =>
        rw [h2] at h
        cases h
        simp [ih h2]

theorem step_writes {b : Build} {w : XWorld} {c : Call} {x : XWorld × Out} (h : step b w c = some x) {v : Var}
    (hv : v ∉ c.writes) : SameAt w x.1 v := by
  unfold step at h
  cases e : w.call b c with
  | error f => rw [e] at h; cases h
  | ok y => rw [e] at h; cases h; exact call_writes e v hv

/-- What a call does is determined by what it reads. -/
theorem step_reads {b : Build} {w w' : XWorld} {c : Call} (h : ∀ v ∈ c.reads, SameAt w w' v) :
    (step b w c = none ∧ step b w' c = none) ∨ ∃ x x' o, step b w c = some (x, o) ∧ step b w' c = some (x', o) ∧
      ∀ v ∈ c.writes, SameAt x x' v := by
  have := call_reads (b := b) h
  unfold step
  unfold Framed at this
  split at this
  · rename_i e e'
    rw [e, e']
    exact .inr ⟨_, _, _, rfl, by rw [this.1]; rfl, this.2⟩
  · rename_i e e'
    rw [e, e']
    exact .inl ⟨rfl, rfl⟩
  · exact this.elim

/-- Calls that are apart can be swapped. -/
theorem swap {c d : Call} (h : c.Apart d) (b : Build) (w : XWorld) :
    (do let x ← step b w c; let y ← step b x.1 d; return (y.1, x.2, y.2) : Option _) =
    (do let y ← step b w d; let x ← step b y.1 c; return (x.1, x.2, y.2)) := by
  simp only [bind, Option.bind, pure]
  cases hc : step b w c with
  | none =>
    dsimp only
    cases hd : step b w d with
    | none => rfl
    | some y =>
      dsimp only
      rcases step_reads (b := b) (w := w) (w' := y.1) (c := c)
        (fun v hv => step_writes hd fun hm => (h.2 v hm).1 hv) with ⟨_, e⟩ | ⟨x, x', o, e, _⟩
      · rw [e]
      · rw [hc] at e; cases e
  | some x =>
    dsimp only
    rcases step_reads (b := b) (w := w) (w' := x.1) (c := d)
        (fun v hv => step_writes hc fun hm => (h.1 v hm).1 hv) with ⟨e, e'⟩ | ⟨y, z, o, e, e', k⟩
    · rw [e, e']
    · rw [e, e']
      dsimp only
      rcases step_reads (b := b) (w := w) (w' := y) (c := c)
        (fun v hv => step_writes e fun hm => (h.2 v hm).1 hv) with ⟨f, _⟩ | ⟨u, u', p, f, f', l⟩
      · rw [hc] at f; cases f
      · rw [hc] at f
        cases f
        rw [f']
        dsimp only
        refine congrArg (fun a => some (a, p, o)) (XWorld.ext' fun v => ?_)
        by_cases h1 : v ∈ c.writes
        · exact ((step_writes e' (h.1 v h1).2).symm.trans (l v h1))
        · by_cases h2 : v ∈ d.writes
          · exact ((k v h2).symm.trans (step_writes f' h1))
          · exact ((step_writes e' h2).symm.trans ((step_writes hc h1).symm.trans
              ((step_writes e h2).trans (step_writes f' h1))))

/-- A call can be moved over a list of calls it is apart from. -/
theorem move {d : Call} {p : List Call} (h : ∀ c ∈ p, c.Apart d) (b : Build) (w : XWorld) :
    (do let y ← step b w d; let x ← steps b y.1 p; return (x.1, x.2, y.2) : Option _) =
    (do let x ← steps b w p; let y ← step b x.1 d; return (y.1, x.2, y.2)) := by
  induction p generalizing w with
  | nil =>
    simp only [steps, bind, Option.bind, pure]
  | cons c p ih =>
    have s := swap (h c (List.mem_cons_self ..)) b w
    have i := fun w => ih (fun c hc => h c (List.mem_cons_of_mem _ hc)) w
    simp only [steps, bind, Option.bind, pure] at s i ⊢
    cases hc : step b w c with
    | none =>
      rw [hc] at s
      dsimp only at s ⊢
      cases hd : step b w d with
      | none => rfl
      | some y =>
        rw [hd] at s
        dsimp only at s ⊢
        cases hc' : step b y.1 c with
        | none => rfl
        | some x => rw [hc'] at s; cases s
    | some x =>
      rw [hc] at s
      dsimp only at s ⊢
      have i := i x.1
      cases hd' : step b x.1 d with
      | none =>
        rw [hd'] at s i
        dsimp only at s i
        cases hp : steps b x.1 p with
        | none =>
          dsimp only
          cases hd : step b w d with
          | none => rfl
          | some y =>
            rw [hd] at s
            dsimp only at s ⊢
            cases hc' : step b y.1 c with
            | none => rfl
            | some x => rw [hc'] at s; cases s
        | some z =>
          rw [hp] at i
          dsimp only at i ⊢
          cases hz : step b z.1 d with
          | some u => rw [hz] at i; cases i
          | none =>
            dsimp only
            cases hd : step b w d with
            | none => rfl
            | some y =>
              rw [hd] at s
              dsimp only at s ⊢
              cases hc' : step b y.1 c with
              | none => rfl
              | some x => rw [hc'] at s; cases s
      | some y =>
        rw [hd'] at s i
        dsimp only at s i
        cases hd : step b w d with
        | none => rw [hd] at s; cases s
        | some y' =>
          rw [hd] at s
          dsimp only at s ⊢
          cases hc' : step b y'.1 c with
          | none => rw [hc'] at s; cases s
          | some x' =>
            rw [hc'] at s
            simp only [Option.some.injEq, Prod.mk.injEq] at s
            obtain ⟨s1, s2, s3⟩ := s
            dsimp only
            rw [← s1, ← s2, ← s3]
            cases hq : steps b y.1 p with
            | none =>
              rw [hq] at i
              dsimp only at i ⊢
              cases hp : steps b x.1 p with
              | none => rfl
              | some z =>
                rw [hp] at i
                dsimp only at i ⊢
                cases hz : step b z.1 d with
                | none => rfl
                | some u => rw [hz] at i; cases i
            | some z' =>
              rw [hq] at i
              dsimp only at i ⊢
              cases hp : steps b x.1 p with
              | none => rw [hp] at i; cases i
              | some z =>
                rw [hp] at i
                dsimp only at i ⊢
                cases hz : step b z.1 d with
                | none => rw [hz] at i; cases i
                | some u =>
                  rw [hz] at i
                  simp only [Option.some.injEq, Prod.mk.injEq] at i ⊢
                  exact ⟨i.1, by rw [i.2.1], i.2.2⟩

/-- Two threads in any order are the two one after the other. -/
theorem steps_interleave (order : List Bool) {p q : List Call} (h : Apart p q) (b : Build) (w : XWorld) :
    steps b w (interleave order p q) = (do
      let x ← steps b w p
      let y ← steps b x.1 q
      return (y.1, interleave order x.2 y.2)) := by
  have base : ∀ (order : List Bool) (p q : List Call), (∀ (a b : List Out), a.length = p.length → b.length = q.length →
        interleave order a b = a ++ b) → interleave order p q = p ++ q → ∀ w,
      steps b w (interleave order p q) = (do
        let x ← steps b w p
        let y ← steps b x.1 q
        return (y.1, interleave order x.2 y.2)) := by
    intro order p q h1 h2 w
    rw [h2, steps_append]
    cases hx : steps b w p with
    | none => rfl
    | some x =>
      simp only [bind, Option.bind, pure]
      cases hy : steps b x.1 q with
      | none => rfl
      | some y => simp only [h1 x.2 y.2 (step_length hx) (step_length hy)]
  induction order generalizing p q w with
  | nil => exact base _ _ _ (fun a b _ _ => by cases a <;> cases b <;> rfl) (by cases p <;> cases q <;> rfl) w
  | cons t order ih =>
    cases t
    · cases q with
      | nil =>
        refine base _ _ _ (fun a b _ hb => ?_) (by cases p <;> rfl) w
        rw [List.length_eq_zero_iff.mp hb]
        cases a <;> rfl
      | cons d q =>
        have e : interleave (false :: order) p (d :: q) = d :: interleave order p q := by cases p <;> rfl
        have e' : ∀ (a : List Out) (o : Out) (b : List Out),
            interleave (false :: order) a (o :: b) = o :: interleave order a b := fun a o b => by cases a <;> rfl
        have i := fun w => ih (p := p) (q := q) (fun c hc d' hd => h c hc d' (List.mem_cons_of_mem _ hd)) w
        have m := move (d := d) (p := p) (fun c hc => h c hc d (List.mem_cons_self ..)) b w
        rw [e]
        simp only [steps, bind, Option.bind, pure, i] at m ⊢
        cases hd : step b w d with
        | none =>
          rw [hd] at m
          dsimp only at m ⊢
          cases hp : steps b w p with
          | none => rfl
          | some x =>
            rw [hp] at m
            dsimp only at m ⊢
            cases hx : step b x.1 d with
            | none => rfl
            | some y => rw [hx] at m; cases m
        | some y =>
          rw [hd] at m
          dsimp only at m ⊢
          cases hp : steps b w p with
          | none =>
            rw [hp] at m
            dsimp only at m ⊢
            cases hq : steps b y.1 p with
            | none => rfl
            | some z => rw [hq] at m; cases m
          | some x =>
            rw [hp] at m
            dsimp only at m ⊢
            cases hx : step b x.1 d with
            | none =>
              rw [hx] at m
              dsimp only at m ⊢
              cases hq : steps b y.1 p with
              | none => rfl
              | some z => rw [hq] at m; cases m
            | some u =>
              rw [hx] at m
              dsimp only at m ⊢
              cases hq : steps b y.1 p with
              | none => rw [hq] at m; cases m
              | some z =>
                rw [hq] at m
                simp only [Option.some.injEq, Prod.mk.injEq] at m
                obtain ⟨m1, m2, m3⟩ := m
                dsimp only
                rw [m1, m2, m3]
                cases steps b u.1 q with
                | none => rfl
                | some v => simp only [e']
    · cases p with
      | nil =>
        refine base _ _ _ (fun a b ha _ => ?_) (by cases q <;> rfl) w
        rw [List.length_eq_zero_iff.mp ha]
        cases b <;> rfl
      | cons c p =>
        have e : interleave (true :: order) (c :: p) q = c :: interleave order p q := rfl
        have i := fun w => ih (p := p) (q := q) (fun c' hc d hd => h c' (List.mem_cons_of_mem _ hc) d hd) w
        rw [e]
        simp only [steps, bind, Option.bind, pure, i]
        cases step b w c with
        | none => rfl
        | some x =>
          dsimp only
          cases steps b x.1 p with
          | none => rfl
          | some y =>
            dsimp only
            cases steps b y.1 q with
            | none => rfl
            | some z => rfl

theorem steps_writes {b : Build} {w : XWorld} {cs : List Call} {x : XWorld × List Out} (h : steps b w cs = some x)
    {v : Var} (hv : ∀ c ∈ cs, v ∉ c.writes) : SameAt w x.1 v := by
  induction cs generalizing w x with
  | nil => cases h; exact SameAt.refl _ _
  | cons c cs ih =>
    simp only [steps, bind, Option.bind] at h
    cases h1 : step b w c with
    | none => rw [h1] at h; cases h
    | some y =>
      rw [h1] at h
      dsimp only at h
      cases h2 : steps b y.1 cs with
      | none => rw [h2] at h; cases h
      | some z =>
        rw [h2] at h
        cases h
        exact (step_writes h1 (hv c (List.mem_cons_self ..))).trans
          (ih (x := z) h2 fun d hd => hv d (List.mem_cons_of_mem _ hd))

/-- What a list of calls outputs is determined by the variables it reads. -/
theorem steps_reads {b : Build} {S : Var → Prop} {cs : List Call} (hS : ∀ c ∈ cs, ∀ v ∈ c.reads, S v)
    {w w' : XWorld} (h : ∀ v, S v → SameAt w w' v) : (steps b w cs).map Prod.snd = (steps b w' cs).map Prod.snd := by
  induction cs generalizing w w' with
  | nil => rfl
  | cons c cs ih =>
    simp only [steps, bind, Option.bind, pure]
    rcases step_reads (b := b) (c := c) (fun v hv => h v (hS c (List.mem_cons_self ..) v hv)) with
      ⟨e, e'⟩ | ⟨x, x', o, e, e', k⟩
    · rw [e, e']
    · rw [e, e']
      dsimp only
      have := ih (w := x) (w' := x') (fun d hd => hS d (List.mem_cons_of_mem _ hd)) (fun v hv => by
        by_cases hw : v ∈ c.writes
        · exact k v hw
        · exact (step_writes e hw).symm.trans ((h v hv).trans (step_writes e' hw)))
      cases hx : steps b x cs <;> cases hx' : steps b x' cs <;> simp_all

/-- Steps without the outputs `()`. -/
def heard (x : XWorld × List Out) : XWorld × List Out := (x.1, x.2.filter (· ≠ .unit))

end Exact

theorem outputs_steps {E : Env} (hE : E.WF) {calls : List Call} (hl : ∀ c ∈ calls, c.Legal) :
    outputs E calls = (Exact.steps (Exact.buildOf E) Exact.XWorld.init calls).map Prod.snd := by
  unfold outputs
  rw [Exact.program_eq hE calls hl]
  exact Exact.run_steps _ _ _

/-- What two pieces of a program do to every world decides whether one can be put in place of the other. -/
theorem Interchangeable.of {a b : List Call}
    (h : ∀ bd w, (∀ c ∈ a ++ b, c.Legal) →
      (Exact.steps bd w a).map Exact.heard = (Exact.steps bd w b).map Exact.heard) :
    Interchangeable a b := by
  intro E hE before after hl
  unfold said
  rw [outputs_steps hE (calls := before ++ a ++ after)
      (fun c hc => hl c (by simp only [List.mem_append] at hc ⊢; rcases hc with (h | h) | h <;> simp [h])),
    outputs_steps hE (calls := before ++ b ++ after)
      (fun c hc => hl c (by simp only [List.mem_append] at hc ⊢; rcases hc with (h | h) | h <;> simp [h]))]
  rw [Exact.steps_append, Exact.steps_append, Exact.steps_append, Exact.steps_append]
  simp only [bind, Option.bind, pure]
  cases Exact.steps (Exact.buildOf E) Exact.XWorld.init before with
  | none => rfl
  | some x =>
    have := h (Exact.buildOf E) x.1 (fun c hc => hl c (by simp only [List.mem_append] at hc ⊢; rcases hc with h | h <;> simp [h]))
    dsimp only
    cases ha : Exact.steps (Exact.buildOf E) x.1 a <;> cases hb : Exact.steps (Exact.buildOf E) x.1 b
    · rfl
    · rw [ha, hb] at this; cases this
    · rw [ha, hb] at this; cases this
    · rename_i y z
      rw [ha, hb] at this
      simp only [Option.map_some, Option.some.injEq, Exact.heard, Prod.mk.injEq] at this
      dsimp only
      rw [this.1]
      cases Exact.steps (Exact.buildOf E) z.1 after with
      | none => rfl
      | some u => simp only [Option.map_some, List.filter_append, this.2]

theorem Replaceable.of {a b : List Call}
    (h : ∀ bd w x, (∀ c ∈ a ++ b, c.Legal) → Exact.steps bd w a = some x →
      (Exact.steps bd w b).map Exact.heard = some (Exact.heard x)) :
    Replaceable a b := by
  intro E hE before after hl o
  unfold said
  rw [outputs_steps hE (calls := before ++ a ++ after)
      (fun c hc => hl c (by simp only [List.mem_append] at hc ⊢; rcases hc with (h | h) | h <;> simp [h])),
    outputs_steps hE (calls := before ++ b ++ after)
      (fun c hc => hl c (by simp only [List.mem_append] at hc ⊢; rcases hc with (h | h) | h <;> simp [h]))]
  rw [Exact.steps_append, Exact.steps_append, Exact.steps_append, Exact.steps_append]
  simp only [bind, Option.bind, pure]
  cases Exact.steps (Exact.buildOf E) Exact.XWorld.init before with
  | none => exact id
  | some x =>
    dsimp only
    cases ha : Exact.steps (Exact.buildOf E) x.1 a with
    | none => intro h; cases h
    | some y =>
      have := h (Exact.buildOf E) x.1 y (fun c hc => hl c (by simp only [List.mem_append] at hc ⊢; rcases hc with h | h <;> simp [h])) ha
      cases hb : Exact.steps (Exact.buildOf E) x.1 b with
      | none => rw [hb] at this; cases this
      | some z =>
        rw [hb] at this
        simp only [Option.map_some, Option.some.injEq, Exact.heard, Prod.mk.injEq] at this
        dsimp only
        rw [this.1]
        cases Exact.steps (Exact.buildOf E) y.1 after with
        | none => exact id
        | some u =>
          intro e
          rw [← e]
          simp only [Option.map_some, List.filter_append, this.2]

end Blake2s
