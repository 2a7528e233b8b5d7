import Verif.Proofs.Rearrange
import Verif.Proofs.LeafInput
/-!
# What pieces of programs do in the exact machine (C56)
-/

namespace Blake2s

namespace Exact

open Abstract (AState toState newParams newSpParams)

theorem step_quiet {b : Build} {w : XWorld} {c : Call} {x : XWorld × Out} (hq : c.quiet = true)
    (h : step b w c = some x) : x.2 = .unit := by
  unfold step at h
  cases c
  all_goals first
    | cases hq
    | skip
  all_goals
    simp only [XWorld.call, XWorld.setParams, XWorld.setState, XWorld.setHash, XWorld.setStates, XWorld.setHashes,
      XWorld.setSpParams, XWorld.setSpState, bind, Except.bind] at h
    try split at h
    all_goals cases h
    all_goals rfl

theorem assign_twice {α : Type} (f : Nat → α) (i : Nat) (x y : α) : assign (assign f i x) i y = assign f i y := by
  funext j
  simp only [assign]
  split <;> rfl

theorem assign_self {α : Type} (f : Nat → α) (i : Nat) : assign f i (f i) = f := by
  funext j
  simp only [assign]
  split
  · rename_i h; rw [h]
  · rfl

theorem assign_at {α : Type} (f : Nat → α) (i : Nat) (x : α) : assign f i x i = x := if_pos rfl

theorem step_update (b : Build) (w : XWorld) (s : Nat) (x : List U8) :
    step b w (.update s x) = if (w.state s).overflows b.toBuild x then none
      else some ({ w with state := assign w.state s ((w.state s).update x) }, .unit) := by
  unfold step XWorld.call XWorld.setState
  dsimp only
  split <;> rfl

theorem overflows_append (b : Abstract.Build) (s : AState) (x y : List U8) :
    s.overflows b (x ++ y) = (s.overflows b x || (s.update x).overflows b y) := by
  unfold AState.overflows AState.update AState.counted
  cases b.overflowChecks
  · rfl
  · simp only [Bool.true_and, List.length_append]
    rw [Bool.eq_iff_iff]
    simp only [decide_eq_true_eq, Bool.or_eq_true]
    omega

/-- Several updates of different states. -/
theorem steps_updates (b : Build) (l : List (Nat × List U8)) (hn : (l.map Prod.fst).Nodup) (w : XWorld) :
    steps b w (l.map fun a => .update a.1 a.2) =
      if ∃ a ∈ l, (w.state a.1).overflows b.toBuild a.2 then none
      else some ({ w with state :=
        (l.map fun a => (a.1, (w.state a.1).update a.2)).foldl (fun f ix => assign f ix.1 ix.2) w.state },
        l.map fun _ => .unit) := by
  induction l generalizing w with
  | nil =>
    rw [if_neg (by rintro ⟨a, h, _⟩; cases h)]
    rfl
  | cons a l ih =>
    have hn' := List.nodup_cons.mp (by simpa using hn : (a.1 :: l.map Prod.fst).Nodup)
    rw [List.map_cons, steps, step_update]
    by_cases ho : (w.state a.1).overflows b.toBuild a.2
    · rw [if_pos ho, if_pos ⟨a, List.mem_cons_self .., ho⟩]; rfl
    · rw [if_neg ho]
      simp only [bind, Option.bind, pure]
      rw [ih hn'.2]
      have hs : ∀ c ∈ l, assign w.state a.1 ((w.state a.1).update a.2) c.1 = w.state c.1 := fun c hc =>
        assign_other fun e => hn'.1 (e ▸ List.mem_map_of_mem hc)
      have he : (∃ c ∈ l, (assign w.state a.1 ((w.state a.1).update a.2) c.1).overflows b.toBuild c.2) ↔
          ∃ c ∈ a :: l, (w.state c.1).overflows b.toBuild c.2 := by
        constructor
        · rintro ⟨c, hc, h⟩
          rw [hs c hc] at h
          exact ⟨c, List.mem_cons_of_mem _ hc, h⟩
        · rintro ⟨c, hc, h⟩
          rcases List.mem_cons.mp hc with rfl | hc
          · exact absurd h ho
          · exact ⟨c, hc, by rw [hs c hc]; exact h⟩
      by_cases hx : ∃ c ∈ a :: l, (w.state c.1).overflows b.toBuild c.2
      · rw [if_pos hx, if_pos (he.mpr hx)]
      · rw [if_neg hx, if_neg (fun h => hx (he.mp h))]
        have hm : (l.map fun c => (c.1, (assign w.state a.1 ((w.state a.1).update a.2) c.1).update c.2)) =
            l.map fun c => (c.1, (w.state c.1).update c.2) :=
          List.map_congr_left fun c hc => by rw [hs c hc]
        simp only [hm, List.map_cons, List.foldl_cons]

theorem zip_ofFn {α : Type} {n : Nat} (s : Vector Nat n) (f : Fin n → α) :
    s.toList.zip (Vector.ofFn f).toList = (List.finRange n).map fun i => (s[i], f i) := by
  apply List.ext_getElem
  · simp
  · intro i h1 h2
    simp

theorem step_update8 (b : Build) (w : XWorld) (s : Vector Nat 8) (x : Vector (List U8) 8) :
    step b w (.update8 s x) = if ∃ i : Fin 8, (w.state s[i]).overflows b.toBuild x[i] then none
      else some ({ w with state := assignAll w.state s (Vector.ofFn fun i : Fin 8 => (w.state s[i]).update x[i]) },
        .unit) := by
  unfold step XWorld.call XWorld.setStates
  dsimp only
  split <;> rfl

theorem filter_units {α : Type} (l : List α) : (l.map fun _ => Out.unit).filter (· ≠ .unit) = [] := by
  induction l with
  | nil => rfl
  | cons a l ih => simp

theorem heard_units {α : Type} (w : XWorld) (l : List α) : heard (w, l.map fun _ => Out.unit) = (w, []) := by
  unfold heard
  rw [filter_units]

/-- Several finalizes. -/
theorem steps_finalizes (b : Build) (l : List (Nat × Nat)) (w : XWorld) :
    steps b w (l.map fun a => .finalize a.1 a.2) =
      some ({ w with hash := (l.map fun a => (a.2, (w.state a.1).digest)).foldl (fun f ix => assign f ix.1 ix.2) w.hash },
        l.map fun _ => .unit) := by
  induction l generalizing w with
  | nil => rfl
  | cons a l ih =>
    have e : step b w (.finalize a.1 a.2) =
      some ({ w with hash := assign w.hash a.2 (w.state a.1).digest }, .unit) := rfl
    rw [List.map_cons, steps, e]
    simp only [bind, Option.bind, pure]
    rw [ih]
    simp only [List.map_cons, List.foldl_cons]

/-- Hashing one input with a `State` variable. -/
theorem steps_hashWith (b : Build) (w : XWorld) (t p : Nat) (x : List U8) (h : Nat)
    (hk : (w.params p).key = []) (hx : x.length < 2 ^ 63) :
    steps b w (hashWith t p x h) = some ({ w with
      state := assign w.state t ((toState (w.params p)).update x)
      hash := assign w.hash h (Spec.hash (w.params p).values [] (w.params p).lastNode x) },
      [.unit, .unit, .unit]) := by
  have e1 : step b w (.toState t p) = some ({ w with state := assign w.state t (toState (w.params p)) }, .unit) := rfl
  have ho : (toState (w.params p)).overflows b.toBuild x = false := by
    unfold AState.overflows AState.counted toState
    rw [hk]
    simp only [Spec.keyBlock, if_true, List.length_nil]
    rw [decide_eq_false (by omega), Bool.and_false]
  unfold hashWith
  simp only [steps, e1, bind, Option.bind, pure, step_update, assign_at, ho, assign_twice]
  simp only [Bool.false_eq_true, if_false]
  have e2 : ∀ w : XWorld, step b w (.finalize t h) =
    some ({ w with hash := assign w.hash h (w.state t).digest }, .unit) := fun _ => rfl
  simp only [e2, assign_at]
  have : ((toState (w.params p)).update x).digest =
      Spec.hash (w.params p).values [] (w.params p).lastNode x := by
    show Spec.hash (w.params p).values (w.params p).key (w.params p).lastNode ([] ++ x) = _
    rw [hk, List.nil_append]
  rw [this]

/-- Hashing several inputs with a `State` variable, which is then reset. -/
theorem steps_hashEach (b : Build) (t : Nat) (l : List (Nat × List U8 × Nat)) (w : XWorld)
    (hk : ∀ a ∈ l, (w.params a.1).key = []) (hx : ∀ a ∈ l, a.2.1.length < 2 ^ 63) :
    (steps b w ((l.flatMap fun a => hashWith t a.1 a.2.1 a.2.2) ++ [.newState t])).map heard =
      some ({ w with
        state := assign w.state t (toState newParams)
        hash := (l.map fun a => (a.2.2, Spec.hash (w.params a.1).values [] (w.params a.1).lastNode a.2.1)).foldl
          (fun f ix => assign f ix.1 ix.2) w.hash }, []) := by
  induction l generalizing w with
  | nil => rfl
  | cons a l ih =>
    rw [List.flatMap_cons, List.append_assoc, steps_append,
      steps_hashWith b w t a.1 a.2.1 a.2.2 (hk a (List.mem_cons_self ..)) (hx a (List.mem_cons_self ..))]
    simp only [bind, Option.bind, pure]
    have i := ih { w with
      state := assign w.state t ((toState (w.params a.1)).update a.2.1)
      hash := assign w.hash a.2.2 (Spec.hash (w.params a.1).values [] (w.params a.1).lastNode a.2.1) }
      (fun c hc => hk c (List.mem_cons_of_mem _ hc)) (fun c hc => hx c (List.mem_cons_of_mem _ hc))
    dsimp only at i
    rw [assign_twice] at i
    rw [List.map_cons, List.foldl_cons, ← i]
    cases steps b _ ((l.flatMap fun a => hashWith t a.1 a.2.1 a.2.2) ++ [.newState t]) with
    | none => rfl
    | some y =>
      simp only [Option.map_some, heard, List.filter_append]
      rfl

theorem exactDigest_nokey (b : Build) (v : View) (hk : v.key = []) (x : List U8) :
    exactDigest b v x = Spec.hash v.values [] v.lastNode x := by
  unfold exactDigest
  rw [hk]
  split
  · show _ = Spec.digestBytes (Spec.absorb v.values.init 0 (Spec.keyBlock [] ++ x) v.lastNode) _
    rw [show Spec.keyBlock [] = [] from rfl, List.nil_append]
  · rfl

/-- An exact function, after erasing the key, and hashing one input after the other. -/
theorem steps_exact {n : Nat} (b : Build) (w : XWorld) (p t : Nat) (x : Vector (List U8) n) (h : Vector Nat n) (c : Call)
    (hx : ∀ i : Fin n, x[i].length < 2 ^ 63) (P : Prop) [Decidable P]
    (hc : ∀ w : XWorld, w.call b c = if P then w.setHashes h (x.map (exactDigest b (w.params p)))
      else .error .assertFailed) (y : XWorld × List Out) (hy : steps b w [.set p (.key []), c, .newState t] = some y) :
    (steps b w (.set p (.key []) :: hashEach t (Vector.replicate n p) x h ++ [.newState t])).map heard =
      some (heard y) := by
  let w1 : XWorld := { w with params := assign w.params p ((Setter.key []).effect (w.params p)) }
  have s1 : step b w (.set p (.key [])) = some (w1, .unit) := by
    show (if Setter.InRange (.key []) then _ else (.error .assertFailed) : R _).toOption = _
    rw [if_pos (show Setter.InRange (.key []) by simp [Setter.InRange])]
    rfl
  have hk : (w1.params p).key = [] := by
    show (assign w.params p ((Setter.key []).effect (w.params p)) p).key = []
    rw [assign_at]
    rfl
  have e := steps_hashEach b t ((List.finRange n).map fun i => (p, x[i], h[i])) w1
    (by intro a ha; obtain ⟨i, _, rfl⟩ := List.mem_map.mp ha; exact hk)
    (by intro a ha; obtain ⟨i, _, rfl⟩ := List.mem_map.mp ha; exact hx i)
  rw [List.flatMap_map, List.map_map] at e
  have e0 : hashEach t (Vector.replicate n p) x h =
      (List.finRange n).flatMap fun i => hashWith t p x[i] h[i] := by
    unfold hashEach
    refine congrArg (fun f => List.flatMap f (List.finRange n)) (funext fun i => ?_)
    simp
  rw [List.cons_append, steps, s1, e0]
  simp only [steps, s1, bind, Option.bind, pure] at hy ⊢
  by_cases hP : P
  · have s2 : step b w1 c = some ({ w1 with hash := assignAll w1.hash h (x.map (exactDigest b (w1.params p))) }, .unit) := by
      unfold step
      rw [hc, if_pos hP]
      rfl
    rw [s2] at hy
    cases hy
    have e1 : x.map (exactDigest b (w1.params p)) =
        Vector.ofFn fun i : Fin n => Spec.hash (w1.params p).values [] (w1.params p).lastNode x[i] := by
      apply Vector.ext
      intro i hi
      simp [exactDigest_nokey b (w1.params p) hk]
    cases hz : steps b w1 ((List.finRange n).flatMap (fun i => hashWith t p x[i] h[i]) ++ [.newState t]) with
    | none => rw [hz] at e; cases e
    | some z =>
      rw [hz] at e
      simp only [Option.map_some, Option.some.injEq] at e ⊢
      unfold assignAll
      rw [e1, zip_ofFn]
      simp only [heard, Prod.mk.injEq] at e ⊢
      refine ⟨e.1, ?_⟩
      rw [List.filter_cons_of_neg (by simp), e.2]
      rfl
  · have s2 : step b w1 c = none := by
      unfold step
      rw [hc, if_neg hP]
      rfl
    rw [s2] at hy
    cases hy

/-- A new `blake2sp` state, `update` and `finalize`. -/
theorem sp_oneShot (b : Build) (x : List U8) (hx : x.length < 2 ^ 63) :
    ∃ s, (toSpState newSpParams).update b x = .ok s ∧ s.digest b = .ok (Spec.Sp.blake2sp x) := by
  have hk : (Spec.keyBlock (toSpState newSpParams).key).length = 0 := rfl
  have hr : (toSpState newSpParams).rowsWith x = if x.length = 0 then 0 else (x.length - 449) / 512 := by
    unfold SpState.rowsWith toSpState Sp.rowsTaken
    simp only [List.length_nil]
    split <;> split <;> omega
  have hr2 : 512 * (toSpState newSpParams).rowsWith x ≤ x.length := by
    rw [hr]; split <;> omega
  refine ⟨{ toSpState newSpParams with fed := x, rows := (toSpState newSpParams).rowsWith x }, ?_, ?_⟩
  · unfold SpState.update
    rw [if_neg (by rintro ⟨_, h, _⟩; exact h rfl), if_neg (by rintro ⟨_, h⟩; rw [hk] at h; omega)]
    rfl
  · unfold SpState.digest
    rw [if_neg, if_pos (show (toSpState newSpParams).key = [] from rfl)]
    · rfl
    · rintro ⟨_, i, h⟩
      unfold SpState.leafCount at h
      have := Spec.Sp.leafInput_length_le i (x.drop (512 * (toSpState newSpParams).rowsWith x))
      rw [List.length_drop] at this
      dsimp only at h
      rw [hk] at h
      omega

end Exact

theorem mem_interleave {α : Type} {a : α} (order : List Bool) (p q : List α) :
    a ∈ interleave order p q ↔ a ∈ p ∨ a ∈ q := by
  induction order generalizing p q with
  | nil => cases p <;> cases q <;> simp [interleave, or_assoc]
  | cons t order ih =>
    cases t
    · cases q with
      | nil => cases p <;> simp [interleave]
      | cons y q =>
        have e : interleave (false :: order) p (y :: q) = y :: interleave order p q := by cases p <;> rfl
        rw [e, List.mem_cons, ih, List.mem_cons]
        constructor <;> rintro (h | h | h) <;> simp [h]
    · cases p with
      | nil => cases q <;> simp [interleave]
      | cons x p =>
        have e : interleave (true :: order) (x :: p) q = x :: interleave order p q := rfl
        rw [e, List.mem_cons, ih, List.mem_cons, or_assoc]

end Blake2s
