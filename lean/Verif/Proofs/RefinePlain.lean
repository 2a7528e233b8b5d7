import Verif.Proofs.Refine
/-!
# Programs without keys never meet anything unspecified
-/

namespace Blake2s.Abstract

/-- No keys anywhere, nothing unspecified, at most `n` bytes in each `blake2sp::State`. -/
structure Clean (n : Nat) (a : AWorld) : Prop where
  params : ∀ j, (a.params j).key = []
  hash : ∀ j, ∃ x, a.hash j = some x
  spParams : ∀ j, (a.spParams j).key = []
  spState : ∀ j, ∃ x, a.spState j = some x ∧ x.key = [] ∧ x.fed.length ≤ n

theorem assign_all {α : Type} {P : α → Prop} {f : Nat → α} (h : ∀ j, P (f j)) {x : α} (hx : P x)
    (i : Nat) : ∀ j, P (assign f i x j) :=
  assign_rel (P := fun a (_ : Unit) => P a) (g := fun _ => ()) h (b := ()) hx i

theorem assignAll_all {α : Type} {P : α → Prop} {n : Nat} {f : Nat → α} (h : ∀ j, P (f j))
    (is : Vector Nat n) {xs : Vector α n} (hx : ∀ i : Fin n, P xs[i]) :
    ∀ j, P (assignAll f is xs j) := by
  have := assignAll_rel (P := fun a (_ : Unit) => P a) (g := fun _ => ()) h is (xs := xs)
    (ys := Vector.replicate n ()) hx
  exact this

theorem Clean.mono {m n : Nat} {a : AWorld} (h : Clean m a) (hl : m ≤ n) : Clean n a :=
  ⟨h.params, h.hash, h.spParams, fun j => by
    obtain ⟨x, h1, h2, h3⟩ := h.spState j
    exact ⟨x, h1, h2, by omega⟩⟩

theorem Clean.setHashes {n : Nat} {a : AWorld} (h : Clean n a) {k : Nat} (is : Vector Nat k)
    {xs : Vector (Option (List U8)) k} (hx : ∀ i : Fin k, ∃ x, xs[i] = some x) :
    Clean n { a with hash := assignAll a.hash is xs } :=
  ⟨h.params, assignAll_all (P := fun x => ∃ y, x = some y) h.hash is hx, h.spParams, h.spState⟩

theorem Clean.setHash {n : Nat} {a : AWorld} (h : Clean n a) (i : Nat) {x : Option (List U8)}
    (hx : ∃ y, x = some y) : Clean n { a with hash := assign a.hash i x } :=
  ⟨h.params, assign_all (P := fun x => ∃ y, x = some y) h.hash hx i, h.spParams, h.spState⟩

theorem exactDigest_some {v : View} (h : v.key = []) (b : List U8) :
    ∃ x, exactDigest v b = some x := by
  unfold exactDigest; rw [if_pos h]; exact ⟨_, rfl⟩

theorem clean_call {b : Build} {n : Nat} {a : AWorld} (h : Clean n a) (c : Call) (hp : Plain c)
    (hf : b.overflowChecks = true → n + (c.slices.map List.length).sum < 2 ^ 64) :
    a.call b c = .panics ∨ ∃ a' x, a.call b c = .returns a' (some x) true ∧
      Clean (n + (c.slices.map List.length).sum) a' := by
  have st : ∀ {x : Nat → AState} {m : Nat}, Clean (n + m) { a with state := x } := fun {x m} =>
    have h := h.mono (Nat.le_add_right n m)
    ⟨h.params, h.hash, h.spParams, h.spState⟩
  have same : ∀ {m : Nat}, Clean (n + m) a := h.mono (Nat.le_add_right _ _)
  have spu : ∀ (s : Nat) (input : List U8), (b.overflowChecks = true → n + input.length < 2 ^ 64) →
      ∃ x, Abstract.spUpdate b (a.spState s) input = .returns (some x) true ∧ x.key = [] ∧
        x.fed.length ≤ n + input.length := by
    intro s input hf
    obtain ⟨x, h1, h2, h3⟩ := h.spState s
    refine ⟨{ x with fed := x.fed ++ input }, ?_, h2, by rw [List.length_append]; omega⟩
    unfold Abstract.spUpdate
    rw [h1]
    simp only
    rw [if_neg (fun q => q.1 h2), if_neg]
    rintro ⟨q1, q2⟩
    have := hf q1
    omega
  have spset : ∀ (s : Nat) (x : Option ASpState) (m : Nat),
      (∃ y, x = some y ∧ y.key = [] ∧ y.fed.length ≤ n + m) →
      Clean (n + m) { a with spState := assign a.spState s x } := by
    intro s x m hx
    have h := h.mono (Nat.le_add_right n m)
    exact ⟨h.params, h.hash, h.spParams, assign_all
      (P := fun x => ∃ y : ASpState, x = some y ∧ y.key = [] ∧ y.fed.length ≤ n + m) h.spState hx s⟩
  have q1 : ∀ (m : Nat) (i : Nat) (x : View), x.key = [] →
      Clean (n + m) { a with params := assign a.params i x } := by
    intro m i x hx
    have h := h.mono (Nat.le_add_right n m)
    exact ⟨assign_all (P := fun v : View => v.key = []) h.params hx i, h.hash, h.spParams, h.spState⟩
  have q2 : ∀ (m : Nat) (i : Nat) (x : Sp.View), x.key = [] →
      Clean (n + m) { a with spParams := assign a.spParams i x } := by
    intro m i x hx
    have h := h.mono (Nat.le_add_right n m)
    exact ⟨h.params, h.hash, assign_all (P := fun v : Sp.View => v.key = []) h.spParams hx i,
      h.spState⟩
  cases c with
  | newParams p => exact .inr ⟨_, _, rfl, q1 _ _ _ rfl⟩
  | cloneParams dst src => exact .inr ⟨_, _, rfl, q1 _ _ _ (h.params src)⟩
  | set p c =>
    simp only [AWorld.call]
    split
    · refine .inr ⟨_, _, rfl, q1 _ _ _ ?_⟩
      cases c with
      | key k => exact hp
      | _ => exact h.params p
    · exact .inl rfl
  | newState s => exact .inr ⟨_, _, rfl, st⟩
  | toState s p => exact .inr ⟨_, _, rfl, st⟩
  | cloneState dst src => exact .inr ⟨_, _, rfl, st⟩
  | update s input =>
    simp only [AWorld.call]
    split
    · exact .inl rfl
    · exact .inr ⟨_, _, rfl, st⟩
  | write s input =>
    simp only [AWorld.call]
    split
    · exact .inl rfl
    · exact .inr ⟨_, _, rfl, st⟩
  | flush s => exact .inr ⟨_, _, rfl, same⟩
  | setLastNode s b => exact .inr ⟨_, _, rfl, st⟩
  | finalize s h' => exact .inr ⟨_, _, rfl, same.setHash _ ⟨_, rfl⟩⟩
  | count s => exact .inr ⟨_, _, rfl, same⟩
  | debugState s => exact .inr ⟨_, _, rfl, same⟩
  | forcePortable s => exact .inr ⟨_, _, rfl, same⟩
  | blake2s input h' => exact .inr ⟨_, _, rfl, same.setHash _ ⟨_, rfl⟩⟩
  | update8 s input =>
    simp only [AWorld.call]
    split
    · exact .inl rfl
    · exact .inr ⟨_, _, rfl, st⟩
  | finalize8 s h' =>
    exact .inr ⟨_, _, rfl, same.setHashes _ fun i => ⟨_, by simp; rfl⟩⟩
  | hash4Exact p input h' =>
    simp only [AWorld.call]
    split
    · refine .inr ⟨_, _, rfl, same.setHashes _ fun i => ?_⟩
      obtain ⟨x, hx⟩ := exactDigest_some (h.params p) input[i]
      exact ⟨x, by simpa using hx⟩
    · exact .inl rfl
  | hash8Exact p input h' =>
    simp only [AWorld.call]
    split
    · refine .inr ⟨_, _, rfl, same.setHashes _ fun i => ?_⟩
      obtain ⟨x, hx⟩ := exactDigest_some (h.params p) input[i]
      exact ⟨x, by simpa using hx⟩
    · exact .inl rfl
  | hash8 p input h' =>
    simp only [AWorld.call]
    split
    · exact .inr ⟨_, _, rfl, same.setHashes _ fun i => ⟨_, by simp; rfl⟩⟩
    · exact .inl rfl
  | cloneHash dst src => exact .inr ⟨_, _, rfl, same.setHash _ (h.hash src)⟩
  | asBytes x =>
    obtain ⟨y, hy⟩ := h.hash x
    simp only [AWorld.call, hy]
    exact .inr ⟨_, _, rfl, same⟩
  | toHex x =>
    obtain ⟨y, hy⟩ := h.hash x
    simp only [AWorld.call, hy]
    exact .inr ⟨_, _, rfl, same⟩
  | debugHash x =>
    obtain ⟨y, hy⟩ := h.hash x
    simp only [AWorld.call, hy]
    exact .inr ⟨_, _, rfl, same⟩
  | eqHash x x' =>
    obtain ⟨y, hy⟩ := h.hash x
    obtain ⟨y', hy'⟩ := h.hash x'
    simp only [AWorld.call, hy, hy']
    exact .inr ⟨_, _, rfl, same⟩
  | eqSlice x s =>
    obtain ⟨y, hy⟩ := h.hash x
    simp only [AWorld.call, hy]
    exact .inr ⟨_, _, rfl, same⟩
  | blake2sp input h' => exact .inr ⟨_, _, rfl, same.setHash _ ⟨_, rfl⟩⟩
  | spNewParams p => exact .inr ⟨_, _, rfl, q2 _ _ _ rfl⟩
  | spCloneParams dst src => exact .inr ⟨_, _, rfl, q2 _ _ _ (h.spParams src)⟩
  | spSet p c =>
    simp only [AWorld.call]
    split
    · refine .inr ⟨_, _, rfl, q2 _ _ _ ?_⟩
      cases c with
      | key k => exact hp
      | _ => exact h.spParams p
    · exact .inl rfl
  | spDebugParams p => exact .inr ⟨_, _, rfl, same⟩
  | spNewState s => exact .inr ⟨_, _, rfl, spset _ _ _ ⟨_, rfl, rfl, Nat.zero_le _⟩⟩
  | spToState s p => exact .inr ⟨_, _, rfl, spset _ _ _ ⟨_, rfl, h.spParams p, Nat.zero_le _⟩⟩
  | spUpdate s input =>
    simp only [Call.slices, List.map_cons, List.map_nil, List.sum_cons, List.sum_nil, Nat.add_zero] at hf ⊢
    obtain ⟨x, e, hk, hx⟩ := spu s input hf
    simp only [AWorld.call, e]
    exact .inr ⟨_, _, rfl, spset _ _ _ ⟨_, rfl, hk, hx⟩⟩
  | spWrite s input =>
    simp only [Call.slices, List.map_cons, List.map_nil, List.sum_cons, List.sum_nil, Nat.add_zero] at hf ⊢
    obtain ⟨x, e, hk, hx⟩ := spu s input hf
    simp only [AWorld.call, e]
    exact .inr ⟨_, _, rfl, spset _ _ _ ⟨_, rfl, hk, hx⟩⟩
  | spFlush s => exact .inr ⟨_, _, rfl, same⟩
  | spFinalize s h' =>
    obtain ⟨x, hx, -⟩ := h.spState s
    simp only [AWorld.call, hx]
    exact .inr ⟨_, _, rfl, same.setHash _ ⟨_, rfl⟩⟩
  | spCount s =>
    obtain ⟨x, hx, -⟩ := h.spState s
    simp only [AWorld.call, hx]
    exact .inr ⟨_, _, rfl, same⟩
  | spDebugState s => exact hp.elim
  | spForcePortable s => exact .inr ⟨_, _, rfl, same⟩

theorem clean_run {b : Build} (cs : List Call) (hp : ∀ c ∈ cs, Plain c) {n : Nat} {a : AWorld}
    (h : Clean n a) (hf : b.overflowChecks = true → n + bytesPassed cs < 2 ^ 64) :
    (a.run b cs).sure = true ∧ ∃ outs : List Out, (a.run b cs).outs = outs.map some := by
  induction cs generalizing n a with
  | nil => exact ⟨rfl, [], rfl⟩
  | cons c cs ih =>
    have hb : bytesPassed (c :: cs) = (c.slices.map List.length).sum + bytesPassed cs := by
      simp [bytesPassed]
    rw [hb] at hf
    unfold AWorld.run
    rcases clean_call (b := b) h c (hp c List.mem_cons_self) (fun q => by have := hf q; omega) with
      e | ⟨a', x, e, h'⟩
    · rw [e]; exact ⟨rfl, [], rfl⟩
    · rw [e]
      obtain ⟨h1, outs, h2⟩ := ih (fun c hc => hp c (List.mem_cons_of_mem _ hc)) h'
        (fun q => by have := hf q; omega)
      refine ⟨by simp only [h1, Bool.and_self], x :: outs, ?_⟩
      simp only [h2, List.map_cons]

theorem init_clean : Clean 0 AWorld.init :=
  ⟨fun _ => rfl, fun _ => ⟨_, rfl⟩, fun _ => rfl, fun _ => ⟨_, rfl, rfl, Nat.le_refl 0⟩⟩

theorem allows_map {os outs : List Out} (h : Allows (os.map some) outs) : os = outs := by
  induction os generalizing outs with
  | nil =>
    cases outs with
    | nil => rfl
    | cons x xs => exact h.elim
  | cons o os ih =>
    cases outs with
    | nil => exact h.elim
    | cons x xs => rw [h.1, ih h.2]

end Blake2s.Abstract
