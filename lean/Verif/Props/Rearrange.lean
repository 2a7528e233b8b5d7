import Verif.Proofs.RearrangeLaws
import Verif.Props.Cases
/-!
# Programs can be rearranged (C56)

The words (`Call.reads`, `Call.writes`, `Apart`, `interleave`, `outputs`, `said`, `Interchangeable`, `Replaceable`) are
in Verif/Rearrange.lean.
-/

namespace Blake2s

instance (c : Call) : Decidable c.Legal := by
  unfold Call.Legal
  cases c <;> dsimp only <;> infer_instance

/-- C56: two calls that share no variable that one of them changes can be swapped, anywhere in a program (one of
them having no output, as else the outputs come in another order). -/
theorem C56_swap (c d : Call) (h : c.Apart d) (hq : c.quiet = true ∨ d.quiet = true) :
    Interchangeable [c, d] [d, c] := by
  refine .of fun b w _ => ?_
  have s := Exact.swap h b w
  simp only [Exact.steps, bind, Option.bind, pure] at s ⊢
  cases hc : Exact.step b w c with
  | none =>
    rw [hc] at s
    cases hd : Exact.step b w d with
    | none => rfl
    | some y =>
      rw [hd] at s
      dsimp only at s ⊢
      cases hy : Exact.step b y.1 c with
      | none => rfl
      | some z => rw [hy] at s; cases s
  | some x =>
    rw [hc] at s
    dsimp only at s ⊢
    cases hx : Exact.step b x.1 d with
    | none =>
      rw [hx] at s
      cases hd : Exact.step b w d with
      | none => rfl
      | some y =>
        rw [hd] at s
        dsimp only at s ⊢
        cases hy : Exact.step b y.1 c with
        | none => rfl
        | some z => rw [hy] at s; cases s
    | some u =>
      rw [hx] at s
      cases hd : Exact.step b w d with
      | none => rw [hd] at s; cases s
      | some y =>
        rw [hd] at s
        dsimp only at s ⊢
        cases hy : Exact.step b y.1 c with
        | none => rw [hy] at s; cases s
        | some z =>
          rw [hy] at s
          simp only [Option.some.injEq, Prod.mk.injEq] at s
          obtain ⟨s1, s2, s3⟩ := s
          simp only [Option.map_some, Exact.heard, s1, s2, s3]
          rcases hq with hq | hq
          · rw [Exact.step_quiet hq hy]
            by_cases h : y.2 = .unit <;> simp [h]
          · rw [Exact.step_quiet hq hd]
            by_cases h : z.2 = .unit <;> simp [h]

example : Interchangeable [.update 1 [1, 2], .finalize8 #v[2, 3, 4, 5, 6, 7, 8, 9] #v[0, 1, 2, 3, 4, 5, 6, 7]]
    [.finalize8 #v[2, 3, 4, 5, 6, 7, 8, 9] #v[0, 1, 2, 3, 4, 5, 6, 7], .update 1 [1, 2]] :=
  C56_swap _ _ (by decide) (.inl rfl)

/-- C56: two calls on the same variable can in general not be swapped. -/
theorem C56_swap_shared : ¬ Interchangeable [.update 0 [1], .update 0 [2]] [.update 0 [2], .update 0 [1]] := by
  intro h
  have := h releasePlain (by decide) [] [.finalize 0 0, .asBytes 0] (by decide)
  revert this
  decide +kernel

/-- C56: two threads. After some preparations the calls of two threads that share no variable that one of them
changes can come in any order: what each call returns, and what happens afterwards, is as if one thread had run
after the other. -/
theorem C56_threads (E : Env) (hE : E.WF) (before p q after : List Call) (h : Apart p q)
    (hl : ∀ c ∈ before ++ p ++ q ++ after, c.Legal) (order : List Bool) :
    outputs E (before ++ interleave order p q ++ after) =
      (outputs E (before ++ p ++ q ++ after)).map fun o =>
        o.take before.length ++
        interleave order ((o.drop before.length).take p.length)
          ((o.drop (before.length + p.length)).take q.length) ++
        o.drop (before.length + p.length + q.length) := by
  rw [outputs_steps hE (calls := before ++ interleave order p q ++ after) (fun c hc => hl c (by
      simp only [List.mem_append, mem_interleave] at hc ⊢
      rcases hc with (hc | hc | hc) | hc <;> simp [hc])),
    outputs_steps hE hl, Exact.steps_append, Exact.steps_append, Exact.steps_append, Exact.steps_append,
    Exact.steps_append]
  simp only [Exact.steps_interleave order h, bind, Option.bind, pure]
  cases hb : Exact.steps (Exact.buildOf E) Exact.XWorld.init before with
  | none => rfl
  | some x =>
    dsimp only
    cases hp : Exact.steps (Exact.buildOf E) x.1 p with
    | none => rfl
    | some y =>
      dsimp only
      cases hq : Exact.steps (Exact.buildOf E) y.1 q with
      | none => rfl
      | some z =>
        dsimp only
        cases ha : Exact.steps (Exact.buildOf E) z.1 after with
        | none => rfl
        | some u =>
          simp only [Option.map_some, ← Exact.step_length hb, ← Exact.step_length hp, ← Exact.step_length hq]
          refine congrArg some ?_
          rw [Nat.add_assoc x.2.length, ← List.drop_drop, ← List.drop_drop, ← List.drop_drop]
          simp

/-- Two threads, each with its own `State`, which they clone from a common one. -/
def contextThreads : List Call × List Call :=
  ([.cloneState 1 0, .update 1 [1, 2], .finalize 1 1, .asBytes 1],
    [.cloneState 2 0, .write 2 [3], .finalize 2 2, .toHex 2])

example (order : List Bool) :
    outputs debugAvx2 ([.update 0 bytes150] ++ interleave order contextThreads.1 contextThreads.2 ++ []) =
    (outputs debugAvx2 ([.update 0 bytes150] ++ contextThreads.1 ++ contextThreads.2 ++ [])).map fun o =>
      o.take 1 ++ interleave order ((o.drop 1).take 4) ((o.drop 5).take 4) ++ o.drop 9 :=
  C56_threads debugAvx2 (by decide) [.update 0 bytes150] contextThreads.1 contextThreads.2 [] (by decide) (by
    intro c hc
    simp only [contextThreads, List.cons_append, List.nil_append, List.append_nil, List.mem_cons, List.not_mem_nil,
      or_false] at hc
    rcases hc with rfl | rfl | rfl | rfl | rfl | rfl | rfl | rfl | rfl
    all_goals (refine ⟨?_, ?_⟩)
    all_goals first | simp [Call.slices, length150] | trivial) order

/-- C56: each thread returns what it would return if the other did not exist; the two together panic if and only if
one of them does on its own. -/
theorem C56_threads_alone (E : Env) (hE : E.WF) (before p q : List Call) (h : Apart p q)
    (hl : ∀ c ∈ before ++ p ++ q, c.Legal) (order : List Bool) :
    outputs E (before ++ interleave order p q) = (outputs E (before ++ p)).bind fun o =>
      (outputs E (before ++ q)).map fun o' =>
        o.take before.length ++ interleave order (o.drop before.length) (o'.drop before.length) := by
  rw [outputs_steps hE (calls := before ++ interleave order p q) (fun c hc => hl c (by
      simp only [List.mem_append, mem_interleave] at hc ⊢
      rcases hc with hc | hc | hc <;> simp [hc])),
    outputs_steps hE (calls := before ++ p) (fun c hc => hl c (List.mem_append_left _ hc)),
    outputs_steps hE (calls := before ++ q) (fun c hc => hl c (by
      simp only [List.mem_append] at hc ⊢
      rcases hc with hc | hc <;> simp [hc])),
    Exact.steps_append, Exact.steps_append, Exact.steps_append]
  simp only [Exact.steps_interleave order h, bind, Option.bind, pure]
  cases hb : Exact.steps (Exact.buildOf E) Exact.XWorld.init before with
  | none => rfl
  | some x =>
    dsimp only
    cases hp : Exact.steps (Exact.buildOf E) x.1 p with
    | none => rfl
    | some y =>
      dsimp only
      have hr := Exact.steps_reads (b := Exact.buildOf E) (cs := q) (S := fun v => ∃ d ∈ q, v ∈ d.reads)
        (fun d hd v hv => ⟨d, hd, hv⟩) (w := x.1) (w' := y.1) (fun v ⟨d, hd, hv⟩ =>
          Exact.steps_writes hp fun c hc hm => ((h c hc d hd).1 v hm).1 hv)
      cases hq : Exact.steps (Exact.buildOf E) y.1 q with
      | none =>
        rw [hq] at hr
        cases hq' : Exact.steps (Exact.buildOf E) x.1 q with
        | none => rfl
        | some z => rw [hq'] at hr; cases hr
      | some z =>
        rw [hq] at hr
        cases hq' : Exact.steps (Exact.buildOf E) x.1 q with
        | none => rw [hq'] at hr; cases hr
        | some z' =>
          rw [hq'] at hr
          simp only [Option.map_some, Option.some.injEq] at hr
          simp only [Option.map_some, ← Exact.step_length hb, hr]
          simp

example (order : List Bool) : outputs releasePlain ([] ++ interleave order [.update 1 [1]] [.count 2]) =
    (outputs releasePlain ([] ++ [.update 1 [1]])).bind fun o => (outputs releasePlain ([] ++ [.count 2])).map fun o' =>
      o.take 0 ++ interleave order (o.drop 0) (o'.drop 0) :=
  C56_threads_alone releasePlain (by decide) [] [.update 1 [1]] [.count 2] (by decide) (by
    intro c hc
    simp only [List.cons_append, List.nil_append, List.mem_cons, List.not_mem_nil, or_false] at hc
    rcases hc with rfl | rfl
    all_goals (refine ⟨?_, ?_⟩)
    all_goals first | simp [Call.slices] | trivial) order

/-- An example of a context: a state with a node offset and 150 bytes in front, questions behind. -/
def contextBefore : List Call := [.set 0 (.nodeOffset 7), .toState 0 0, .update 0 bytes150, .spUpdate 0 bytes150]
/-- The rest of that context. -/
def contextAfter : List Call := [.count 0, .spCount 0, .finalize 0 9, .asBytes 9, .asBytes 1]

theorem context_legal (a : List Call) (ha : ∀ c ∈ a, c.Legal) :
    ∀ c ∈ contextBefore ++ a ++ contextAfter, c.Legal := by
  intro c hc
  simp only [contextBefore, contextAfter, List.mem_append, List.mem_cons, List.not_mem_nil, or_false] at hc
  rcases hc with ((rfl | rfl | rfl | rfl) | h) | rfl | rfl | rfl | rfl | rfl
  all_goals first | exact ha c h | (refine ⟨?_, ?_⟩)
  all_goals first | simp [Call.slices, length150] | trivial

/-- The context around two interchangeable pieces. -/
theorem in_context {a b : List Call} (h : Interchangeable a b) (ha : ∀ c ∈ a ++ b, c.Legal) :
    said debugAvx2 (contextBefore ++ a ++ contextAfter) = said debugAvx2 (contextBefore ++ b ++ contextAfter) :=
  h debugAvx2 (by decide) contextBefore contextAfter (by
    have := context_legal (a ++ b) ha
    simpa only [List.append_assoc] using this)

/-- C56: two `update`s are one. -/
theorem C56_updates (s : Nat) (x y : List U8) : Interchangeable [.update s x, .update s y] [.update s (x ++ y)] := by
  refine .of fun b w _ => ?_
  simp only [Exact.steps, Exact.step_update, bind, Option.bind, pure]
  rw [Exact.overflows_append]
  cases (w.state s).overflows b.toBuild x
  · simp only [Bool.false_or, Bool.false_eq_true, if_false, Exact.assign_at]
    cases ((w.state s).update x).overflows b.toBuild y
    · simp only [Bool.false_eq_true, if_false, Exact.assign_twice, Option.map_some, Exact.heard]
      simp [Abstract.AState.update]
    · rfl
  · rfl

example : said debugAvx2 (contextBefore ++ [.update 0 [1, 2], .update 0 [3]] ++ contextAfter) =
    said debugAvx2 (contextBefore ++ [.update 0 [1, 2, 3]] ++ contextAfter) :=
  in_context (C56_updates 0 [1, 2] [3]) (by decide)

/-- C56: two updates of a `blake2sp` state are in general not one: the text that `Debug` gives tells how much has been
passed on to the leaves, and that depends on how the message is cut. -/
theorem C56_sp_updates : ¬ Interchangeable [.spUpdate 0 (List.replicate 500 1), .spUpdate 0 (List.replicate 461 1)]
    [.spUpdate 0 (List.replicate 500 1 ++ List.replicate 461 1)] := by
  intro h
  have := h releasePlain (by decide) [] [.spDebugState 0] (by decide +kernel)
  revert this
  decide +kernel

/-- C56: `update8` is eight `update`s. -/
theorem C56_update8 (s : Vector Nat 8) (x : Vector (List U8) 8) :
    Interchangeable [.update8 s x] ((List.finRange 8).map fun i => .update s[i] x[i]) := by
  refine .of fun b w hl => ?_
  have hn : s.toList.Nodup := (hl (.update8 s x) (by simp)).2
  have hm : (List.finRange 8).map (fun i => s[i]) = s.toList := by
    apply List.ext_getElem <;> simp
  have e := Exact.steps_updates b ((List.finRange 8).map fun i => (s[i], x[i])) (by
    rw [List.map_map]
    exact hm ▸ hn) w
  rw [List.map_map] at e
  have e' : (List.finRange 8).map (fun i => Call.update s[i] x[i]) =
    (List.finRange 8).map ((fun a : Nat × List U8 => Call.update a.1 a.2) ∘ fun i => (s[i], x[i])) := rfl
  rw [e', e, Exact.steps, Exact.step_update8]
  simp only [bind, Option.bind, pure]
  have he : (∃ a ∈ (List.finRange 8).map (fun i => (s[i], x[i])), (w.state a.1).overflows b.toBuild a.2) ↔
      ∃ i : Fin 8, (w.state s[i]).overflows b.toBuild x[i] := by
    constructor
    · rintro ⟨a, ha, h⟩
      obtain ⟨i, _, rfl⟩ := List.mem_map.mp ha
      exact ⟨i, h⟩
    · rintro ⟨i, h⟩
      exact ⟨(s[i], x[i]), List.mem_map.mpr ⟨i, List.mem_finRange i, rfl⟩, h⟩
  by_cases h : ∃ i : Fin 8, (w.state s[i]).overflows b.toBuild x[i]
  · rw [if_pos h, if_pos (he.mpr h)]
  · rw [if_neg h, if_neg (fun h' => h (he.mp h'))]
    dsimp only [Exact.steps]
    rw [Option.map_some, Option.map_some, Exact.heard_units]
    unfold assignAll
    rw [Exact.zip_ofFn, List.map_map]
    rfl

example : said debugAvx2 (contextBefore ++
      [.update8 #v[0, 1, 2, 3, 4, 5, 6, 7] #v[[1], [2, 3], [], [4], [5], [6], [7], [8]]] ++ contextAfter) =
    said debugAvx2 (contextBefore ++ (List.finRange 8).map (fun i =>
      .update #v[0, 1, 2, 3, 4, 5, 6, 7][i] #v[[1], [2, 3], [], [4], [5], [6], [7], [8]][i]) ++ contextAfter) :=
  in_context (C56_update8 #v[0, 1, 2, 3, 4, 5, 6, 7] #v[[1], [2, 3], [], [4], [5], [6], [7], [8]]) (by decide)

/-- C56: `finalize8` is eight `finalize`s. -/
theorem C56_finalize8 (s h : Vector Nat 8) :
    Interchangeable [.finalize8 s h] ((List.finRange 8).map fun i => .finalize s[i] h[i]) := by
  refine .of fun b w hl => ?_
  have e := Exact.steps_finalizes b ((List.finRange 8).map fun i => (s[i], h[i])) w
  rw [List.map_map] at e
  have e' : (List.finRange 8).map (fun i => Call.finalize s[i] h[i]) =
    (List.finRange 8).map ((fun a : Nat × Nat => Call.finalize a.1 a.2) ∘ fun i => (s[i], h[i])) := rfl
  rw [e', e, Option.map_some, Exact.heard_units]
  show some (Exact.heard ({ w with hash := assignAll w.hash h _ }, [Out.unit])) = _
  unfold assignAll
  rw [Exact.zip_ofFn, List.map_map]
  rfl

example : said debugAvx2 (contextBefore ++
      [.finalize8 #v[0, 1, 2, 3, 4, 5, 6, 7] #v[1, 2, 3, 4, 5, 6, 7, 8]] ++ contextAfter) =
    said debugAvx2 (contextBefore ++ (List.finRange 8).map (fun i =>
      .finalize #v[0, 1, 2, 3, 4, 5, 6, 7][i] #v[1, 2, 3, 4, 5, 6, 7, 8][i]) ++ contextAfter) :=
  in_context (C56_finalize8 #v[0, 1, 2, 3, 4, 5, 6, 7] #v[1, 2, 3, 4, 5, 6, 7, 8]) (by decide)

/-- Inputs of one block each. -/
def contextBlocks (n : Nat) : Vector (List U8) n := .ofFn fun i => List.replicate 64 (BitVec.ofNat 8 i)

/-- An example for replaceable pieces: the first one says something in a program, so the second says the same. -/
theorem in_program {a b : List Call} (h : Replaceable a b) (ha : ∀ c ∈ a ++ b ++ [.asBytes 1], c.Legal)
    (hs : (said releasePlain ([.set 0 (.nodeOffset 7)] ++ a ++ [.asBytes 1])).isSome) :
    ∃ o, said releasePlain ([.set 0 (.nodeOffset 7)] ++ a ++ [.asBytes 1]) = some o ∧
      said releasePlain ([.set 0 (.nodeOffset 7)] ++ b ++ [.asBytes 1]) = some o := by
  obtain ⟨o, ho⟩ := Option.isSome_iff_exists.mp hs
  exact ⟨o, ho, h releasePlain (by decide) _ _ (by
    intro c hc
    simp only [List.append_assoc, List.cons_append, List.nil_append, List.mem_cons] at hc
    rcases hc with rfl | hc
    · decide
    · exact ha c (by simpa using hc)) o ho⟩

/-- C56: `hash8` is hashing the eight inputs one after the other with some `State` variable (set to a new state at the
end of both, as it is a different one otherwise). `hash8` with a key panics, separate hashing does not. -/
theorem C56_hash8 (p h : Vector Nat 8) (x : Vector (List U8) 8) (t : Nat) :
    Replaceable [.hash8 p x h, .newState t] (hashEach t p x h ++ [.newState t]) := by
  refine .of fun b w y hl hy => ?_
  have hx : ∀ i : Fin 8, x[i].length < 2 ^ 63 := fun i => (hl (.hash8 p x h) (by simp)).1 _ (by simp [Call.slices])
  by_cases hk : ∀ i : Fin 8, (w.params p[i]).key = []
  · have e := Exact.steps_hashEach b t ((List.finRange 8).map fun i => (p[i], x[i], h[i])) w
      (by intro a ha; obtain ⟨i, _, rfl⟩ := List.mem_map.mp ha; exact hk i)
      (by intro a ha; obtain ⟨i, _, rfl⟩ := List.mem_map.mp ha; exact hx i)
    rw [List.flatMap_map, List.map_map] at e
    unfold hashEach
    rw [e]
    have s1 : Exact.step b w (.hash8 p x h) = some ({ w with hash := assignAll w.hash h (Vector.ofFn fun i : Fin 8 =>
        Spec.hash (w.params p[i]).values [] (w.params p[i]).lastNode x[i]) }, .unit) := by
      show (if _ then _ else _ : R _).toOption = _
      rw [if_pos hk]
      rfl
    simp only [Exact.steps, s1, bind, Option.bind, pure] at hy
    cases hy
    refine congrArg some ?_
    unfold assignAll
    rw [Exact.zip_ofFn]
    rfl
  · have s1 : Exact.step b w (.hash8 p x h) = none := by
      show (if _ then _ else _ : R _).toOption = _
      rw [if_neg hk]
      rfl
    simp only [Exact.steps, s1, bind, Option.bind] at hy
    cases hy

example : ∃ o, said releasePlain ([.set 0 (.nodeOffset 7)] ++
      [.hash8 #v[0, 0, 0, 0, 1, 1, 1, 1] #v[[1], [2, 3], [], [4], [5], [6], [7], [8]]
        #v[0, 1, 2, 3, 4, 5, 6, 7], .newState 5] ++ [.asBytes 1]) = some o ∧
    said releasePlain ([.set 0 (.nodeOffset 7)] ++
      (hashEach 5 #v[0, 0, 0, 0, 1, 1, 1, 1] #v[[1], [2, 3], [], [4], [5], [6], [7], [8]]
        #v[0, 1, 2, 3, 4, 5, 6, 7] ++ [.newState 5]) ++ [.asBytes 1]) = some o :=
  in_program (C56_hash8 _ _ _ _) (by decide) (by decide +kernel)

/-- C56: with a key `hash8` panics, which separate hashing does not: the two are not interchangeable. -/
theorem C56_hash8_key : ¬ Interchangeable
    [.hash8 (.replicate 8 0) (.replicate 8 []) (.replicate 8 0), .newState 5]
    (hashEach 5 (.replicate 8 0) (.replicate 8 []) (.replicate 8 0) ++ [.newState 5]) := by
  intro h
  have := h releasePlain (by decide) [.set 0 (.key [1])] [] (by decide)
  revert this
  decide +kernel

/-- C56: `hash8_exact` without a key likewise. -/
theorem C56_hash8_exact (p : Nat) (h : Vector Nat 8) (x : Vector (List U8) 8) (t : Nat) :
    Replaceable [.set p (.key []), .hash8Exact p x h, .newState t]
      (.set p (.key []) :: hashEach t (Vector.replicate 8 p) x h ++ [.newState t]) :=
  .of fun b w y hl hy => Exact.steps_exact b w p t x h (.hash8Exact p x h)
    (fun i => (hl (.hash8Exact p x h) (by simp)).1 _ (by simp [Call.slices]))
    (ExactLengths x x[0].length) (fun _ => rfl) y hy

example : ∃ o, said releasePlain ([.set 0 (.nodeOffset 7)] ++
      [.set 0 (.key []), .hash8Exact 0 (contextBlocks 8) #v[0, 1, 2, 3, 4, 5, 6, 7],
        .newState 5] ++ [.asBytes 1]) = some o ∧
    said releasePlain ([.set 0 (.nodeOffset 7)] ++
      (.set 0 (.key []) :: hashEach 5 (.replicate 8 0) (contextBlocks 8)
        #v[0, 1, 2, 3, 4, 5, 6, 7] ++ [.newState 5]) ++ [.asBytes 1]) = some o :=
  in_program (C56_hash8_exact _ _ _ _) (by decide +kernel) (by decide +kernel)

/-- C56: `hash4_exact` without a key likewise. -/
theorem C56_hash4_exact (p : Nat) (h : Vector Nat 4) (x : Vector (List U8) 4) (t : Nat) :
    Replaceable [.set p (.key []), .hash4Exact p x h, .newState t]
      (.set p (.key []) :: hashEach t (Vector.replicate 4 p) x h ++ [.newState t]) :=
  .of fun b w y hl hy => Exact.steps_exact b w p t x h (.hash4Exact p x h)
    (fun i => (hl (.hash4Exact p x h) (by simp)).1 _ (by simp [Call.slices]))
    (ExactLengths x x[0].length) (fun _ => rfl) y hy

example : ∃ o, said releasePlain ([.set 0 (.nodeOffset 7)] ++
      [.set 0 (.key []), .hash4Exact 0 (contextBlocks 4) #v[0, 1, 2, 3],
        .newState 5] ++ [.asBytes 1]) = some o ∧
    said releasePlain ([.set 0 (.nodeOffset 7)] ++
      (.set 0 (.key []) :: hashEach 5 (.replicate 4 0) (contextBlocks 4)
        #v[0, 1, 2, 3] ++ [.newState 5]) ++ [.asBytes 1]) = some o :=
  in_program (C56_hash4_exact _ _ _ _) (by decide +kernel) (by decide +kernel)

/-- C56: `blake2s` is a new state, `update` and `finalize`. -/
theorem C56_blake2s (x : List U8) (t h : Nat) :
    Interchangeable [.blake2s x h, .newState t] [.newState t, .update t x, .finalize t h, .newState t] := by
  refine .of fun b w hl => ?_
  have hx : x.length < 2 ^ 63 := (hl (.blake2s x h) (by simp)).1 _ (by simp [Call.slices])
  have ho : (Abstract.toState Abstract.newParams).overflows b.toBuild x = false := by
    unfold Abstract.AState.overflows Abstract.AState.counted
    rw [show (Spec.keyBlock (Abstract.toState Abstract.newParams).key).length = 0 from rfl,
      show (Abstract.toState Abstract.newParams).fed.length = 0 from rfl, decide_eq_false (by omega), Bool.and_false]
  have s1 : ∀ w : Exact.XWorld, Exact.step b w (.newState t) =
    some ({ w with state := assign w.state t (Abstract.toState Abstract.newParams) }, .unit) := fun _ => rfl
  have s2 : ∀ w : Exact.XWorld, Exact.step b w (.finalize t h) =
    some ({ w with hash := assign w.hash h (w.state t).digest }, .unit) := fun _ => rfl
  have s3 : Exact.step b w (.blake2s x h) = some ({ w with hash := assign w.hash h (Spec.blake2s x) }, .unit) := rfl
  simp only [Exact.steps, s1, s2, s3, Exact.step_update, bind, Option.bind, pure, Exact.assign_at, ho,
    Bool.false_eq_true, if_false, Exact.assign_twice, Option.map_some, Exact.heard]
  rfl

example : said debugAvx2 (contextBefore ++ [.blake2s [1, 2, 3] 1, .newState 5] ++ contextAfter) =
    said debugAvx2 (contextBefore ++ [.newState 5, .update 5 [1, 2, 3], .finalize 5 1, .newState 5] ++ contextAfter) :=
  in_context (C56_blake2s [1, 2, 3] 5 1) (by decide)

/-- C56: `blake2sp` likewise. -/
theorem C56_blake2sp (x : List U8) (t h : Nat) :
    Interchangeable [.blake2sp x h, .spNewState t] [.spNewState t, .spUpdate t x, .spFinalize t h, .spNewState t] := by
  refine .of fun b w hl => ?_
  have hx : x.length < 2 ^ 63 := (hl (.blake2sp x h) (by simp)).1 _ (by simp [Call.slices])
  obtain ⟨s, hu, hd⟩ := Exact.sp_oneShot b x hx
  have s1 : ∀ w : Exact.XWorld, Exact.step b w (.spNewState t) =
    some ({ w with spState := assign w.spState t (Exact.toSpState Abstract.newSpParams) }, .unit) := fun _ => rfl
  have s2 : ∀ w : Exact.XWorld, w.spState t = Exact.toSpState Abstract.newSpParams →
      Exact.step b w (.spUpdate t x) = some ({ w with spState := assign w.spState t s }, .unit) := by
    intro w e
    unfold Exact.step Exact.XWorld.call
    dsimp only
    rw [e, hu]
    rfl
  have s3 : ∀ w : Exact.XWorld, w.spState t = s → Exact.step b w (.spFinalize t h) =
      some ({ w with hash := assign w.hash h (Spec.Sp.blake2sp x) }, .unit) := by
    intro w e
    unfold Exact.step Exact.XWorld.call
    dsimp only
    rw [e, hd]
    rfl
  have s4 : Exact.step b w (.blake2sp x h) =
    some ({ w with hash := assign w.hash h (Spec.Sp.blake2sp x) }, .unit) := rfl
  simp only [Exact.steps, s1, s4, bind, Option.bind, pure]
  rw [s2 _ (Exact.assign_at ..)]
  dsimp only
  rw [s3 _ (Exact.assign_at ..)]
  simp only [Exact.assign_twice, Option.map_some, Exact.heard]
  rfl

example : said debugAvx2 (contextBefore ++ [.blake2sp [1, 2, 3] 1, .spNewState 5] ++ contextAfter) =
    said debugAvx2 (contextBefore ++
      [.spNewState 5, .spUpdate 5 [1, 2, 3], .spFinalize 5 1, .spNewState 5] ++ contextAfter) :=
  in_context (C56_blake2sp [1, 2, 3] 5 1) (by decide)

/-- C56: a second `finalize` is a copy of the first hash. -/
theorem C56_finalize_again (s h h' : Nat) :
    Interchangeable [.finalize s h, .finalize s h'] [.finalize s h, .cloneHash h' h] := by
  refine .of fun b w _ => ?_
  show some _ = some _
  refine congrArg some ?_
  simp only [Exact.heard, Exact.assign_at]

example : said debugAvx2 (contextBefore ++ [.finalize 0 2, .finalize 0 1] ++ contextAfter) =
    said debugAvx2 (contextBefore ++ [.finalize 0 2, .cloneHash 1 2] ++ contextAfter) :=
  in_context (C56_finalize_again 0 2 1) (by decide)

/-- C56: finalizing a clone is finalizing the original. -/
theorem C56_clone (s t h : Nat) :
    Interchangeable [.cloneState t s, .finalize t h] [.finalize s h, .cloneState t s] := by
  refine .of fun b w _ => ?_
  show some _ = some _
  refine congrArg some ?_
  simp only [Exact.heard, Exact.assign_at]

example : said debugAvx2 (contextBefore ++ [.cloneState 3 0, .finalize 3 1] ++ contextAfter) =
    said debugAvx2 (contextBefore ++ [.finalize 0 1, .cloneState 3 0] ++ contextAfter) :=
  in_context (C56_clone 0 3 1) (by decide)

/-- C56: `flush` and the `force_portable` functions can be left out. -/
theorem C56_nothing (s : Nat) : Interchangeable [.flush s] [] ∧ Interchangeable [.spFlush s] [] ∧
    Interchangeable [.forcePortable s] [] ∧ Interchangeable [.spForcePortable s] [] :=
  ⟨.of fun _ _ _ => rfl, .of fun _ _ _ => rfl, .of fun _ _ _ => rfl, .of fun _ _ _ => rfl⟩

example : said debugAvx2 (contextBefore ++ [.flush 0] ++ contextAfter) =
    said debugAvx2 (contextBefore ++ [] ++ contextAfter) :=
  in_context (C56_nothing 0).1 (by decide)

end Blake2s
