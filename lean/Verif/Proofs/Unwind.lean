import Verif.Model.Unwind
/-!
# The statement-by-statement model agrees with the model proper
-/

namespace Blake2s

open M (lift get modify lane)

namespace M

variable {σ α β : Type}

/-- `x` is what the computation `r` of the model proper says: the same result and, if it is a value, the
same object. -/
def Agree (x : R α × σ) : R (σ × α) → Prop
  | .ok (s, a) => x = (.ok a, s)
  | .error e => x.1 = .error e

theorem get_bind (k : σ → M σ β) (s : σ) : (get >>= k) s = k s s := rfl

theorem modify_bind (f : σ → σ) (k : Unit → M σ β) (s : σ) : (modify f >>= k) s = k () (f s) := rfl

theorem pure_apply (a : α) (s : σ) : (pure a : M σ α) s = (.ok a, s) := rfl

theorem lift_bind_ok (a : α) (k : α → M σ β) (s : σ) : (lift (.ok a) >>= k) s = k a s := rfl

theorem lift_bind_error (e : Fault) (k : α → M σ β) (s : σ) :
    (lift (.error e) >>= k) s = (.error e, s) := rfl

theorem bind_ok {m : M σ α} {s s' : σ} {a : α} (h : m s = (.ok a, s')) (k : α → M σ β) :
    (m >>= k) s = k a s' := by
  show (match m s with | (.ok a, s') => k a s' | (.error e, s') => (.error e, s')) = _
  rw [h]

theorem bind_error {m : M σ α} {s : σ} {e : Fault} (h : (m s).1 = .error e) (k : α → M σ β) :
    (m >>= k) s = (.error e, (m s).2) := by
  show (match m s with | (.ok a, s') => k a s' | (.error e, s') => (.error e, s')) = _
  have : m s = (.error e, (m s).2) := by rw [← h]
  rw [this]

theorem Agree.ret {s : σ} {a : α} : Agree ((pure a : M σ α) s) (.ok (s, a)) := rfl

theorem Agree.lift (r : R α) {k : α → M σ β} {g : α → R (σ × β)} {s : σ}
    (h : ∀ a, r = .ok a → Agree (k a s) (g a)) : Agree ((M.lift r >>= k) s) (r >>= g) := by
  cases r with
  | error e => rfl
  | ok a => exact h a rfl

theorem Agree.last (r : R α) {s : σ} : Agree (M.lift r s) (r >>= fun a => pure (s, a)) := by
  cases r <;> rfl

theorem Agree.bind {m : M σ α} {r : R (σ × α)} {k : α → M σ β} {g : σ × α → R (σ × β)} {s : σ}
    (h : Agree (m s) r) (h2 : ∀ s' a, r = .ok (s', a) → Agree (k a s') (g (s', a))) :
    Agree ((m >>= k) s) (r >>= g) := by
  cases r with
  | error e => exact (congrArg Prod.fst (bind_error h k))
  | ok x =>
    obtain ⟨s', a⟩ := x
    rw [bind_ok h]
    exact h2 s' a rfl

end M

open M

/-! ## One state -/

namespace State

theorem addCount_agree (E : Env) (n : Nat) (s : State) :
    Agree (addCountU E n s)
      (addChk E s.count (BitVec.ofNat 64 n) >>= fun c => pure ({ s with count := c }, ())) :=
  Agree.lift _ fun _ _ => rfl

theorem fillBuf_agree (E : Env) (s : State) (input : List U8) :
    Agree (fillBufU E input s) (s.fillBuf E input) := by
  unfold fillBufU fillBuf
  rw [get_bind]
  refine Agree.lift _ fun n _ => ?_
  refine Agree.lift _ fun part _ => ?_
  rw [get_bind]
  refine Agree.lift _ fun buf _ => ?_
  rw [modify_bind, get_bind]
  refine Agree.lift _ fun buflen _ => ?_
  rw [modify_bind]
  unfold addCountU
  cases h : addChk E s.count (BitVec.ofNat 64 (min n input.length)) with
  | error e =>
    show Agree (((M.lift (addChk E s.count (BitVec.ofNat 64 (min n input.length))) >>= _) >>= _) _) _
    rw [h]
    rfl
  | ok c =>
    show Agree (((M.lift (addChk E s.count (BitVec.ofNat 64 (min n input.length))) >>= _) >>= _) _) _
    rw [h]
    exact Agree.last _

theorem compressBuffer_agree (E : Env) (s : State) (input : List U8) :
    Agree (compressBufferIfPossibleU E input s) (s.compressBufferIfPossible E input) := by
  unfold compressBufferIfPossibleU compressBufferIfPossible
  rw [get_bind]
  split
  · refine Agree.bind (fillBuf_agree E s input) fun s' rest _ => ?_
    cases rest with
    | nil => rfl
    | cons b bs =>
      refine Agree.lift (s'.compressFn.call E s'.h s'.buf s'.count 0 0)
        (k := fun h => (modify fun s : State => { s with h := h }) >>= fun _ =>
          (modify fun s : State => { s with buflen := 0 }) >>= fun _ => pure (b :: bs))
        (g := fun h => pure ({ s' with h := h, buflen := 0 }, b :: bs)) fun h _ => rfl
  · rfl

theorem updateLoop_agree (E : Env) (fuel : Nat) : ∀ (s : State) (input : List U8),
    Agree (updateLoopU E fuel input s) (s.updateLoop E fuel input) := by
  induction fuel with
  | zero => intro s input; rfl
  | succ fuel ih =>
    intro s input
    unfold updateLoopU updateLoop
    split
    · unfold addCountU
      cases h : addChk E s.count (BitVec.ofNat 64 BLOCKBYTES) with
      | error e =>
        show Agree (((M.lift (addChk E s.count (BitVec.ofNat 64 BLOCKBYTES)) >>= _) >>= _) _) _
        rw [h]
        rfl
      | ok c =>
        show Agree (((M.lift (addChk E s.count (BitVec.ofNat 64 BLOCKBYTES)) >>= _) >>= _) _) _
        rw [h]
        refine Agree.lift _ fun block _ => ?_
        rw [get_bind]
        refine Agree.lift _ fun h _ => ?_
        rw [modify_bind]
        refine Agree.lift _ fun rest _ => ?_
        exact ih _ _
    · rfl

theorem update_agree (E : Env) (s : State) (input : List U8) :
    Agree (updateU E input s) (s.update E input >>= fun s => pure (s, ())) := by
  have h : (s.update E input >>= fun s => (pure (s, ()) : R (State × Unit))) =
      (s.compressBufferIfPossible E input >>= fun x =>
        updateLoop E (x.2.length + 1) x.1 x.2 >>= fun y =>
          y.1.fillBuf E y.2 >>= fun z => pure (z.1, ())) := by
    unfold update
    simp only [bind_assoc, pure_bind]
  rw [h]
  refine Agree.bind (compressBuffer_agree E s input) fun s' rest _ => ?_
  refine Agree.bind (updateLoop_agree E _ _ _) fun s' rest _ => ?_
  exact Agree.bind (fillBuf_agree E _ _) fun s' rest _ => rfl

theorem finalize_agree (E : Env) (s : State) : Agree (finalizeU E s) (s.finalize E) := by
  unfold finalizeU finalize
  rw [modify_bind, get_bind]
  exact Agree.lift _ fun h _ => rfl

end State

/-! ## Parameters -/

theorem Params.set_agree (p : Params) (c : Setter) :
    Agree (Params.setU c p) (p.set c >>= fun p => pure (p, ())) := by
  cases c <;> simp only [Params.setU, Params.set, setHashLength, setKey, setSalt, setPersonal,
    setFanout, setMaxDepth, setMaxLeafLength, setNodeOffset, setNodeDepth, setInnerHashLength,
    setLastNode, bind_assoc, pure_bind]
  all_goals first
    | rfl
    | exact Agree.lift _ fun _ _ => rfl
    | (refine Agree.lift _ fun _ _ => ?_
       exact Agree.lift _ fun _ _ => rfl)

theorem Sp.Params.set_agree (p : Sp.Params) (c : Sp.Setter) :
    Agree (Sp.Params.setU c p) (p.set c >>= fun p => pure (p, ())) := by
  cases c <;> simp only [Sp.Params.setU, Sp.Params.set, setHashLength, setKey, bind_assoc, pure_bind]
  all_goals first
    | exact Agree.lift _ fun _ _ => rfl
    | (refine Agree.lift _ fun _ _ => ?_
       exact Agree.lift _ fun _ _ => rfl)

/-! ## Eight states -/

theorem eight {α : Type} (v : Vector α 8) :
    v = #v[v[0], v[1], v[2], v[3], v[4], v[5], v[6], v[7]] := by
  apply Vector.ext
  intro i hi
  match i, hi with
  | 0, _ | 1, _ | 2, _ | 3, _ | 4, _ | 5, _ | 6, _ | 7, _ => rfl

section

variable {α β : Type} {m : M State α} {r : R (State × α)} {k : α → M (Vector State 8) β}
  {g : State × α → R (Vector State 8 × β)} {s0 s1 s2 s3 s4 s5 s6 s7 : State}

theorem lane_0 (h : Agree (m s0) r)
    (h2 : ∀ s' a, r = .ok (s', a) → Agree (k a #v[s', s1, s2, s3, s4, s5, s6, s7]) (g (s', a))) :
    Agree ((lane 0 m >>= k) #v[s0, s1, s2, s3, s4, s5, s6, s7]) (r >>= g) := by
  cases r with
  | error e =>
    have : (lane 0 m #v[s0, s1, s2, s3, s4, s5, s6, s7]).1 = .error e := h
    exact congrArg Prod.fst (bind_error this k)
  | ok x =>
    obtain ⟨s', a⟩ := x
    have h' : m s0 = (.ok a, s') := h
    have : lane 0 m #v[s0, s1, s2, s3, s4, s5, s6, s7] = (.ok a, #v[s', s1, s2, s3, s4, s5, s6, s7]) := by
      show ((m s0).1, _) = _
      have e : (#v[s0, s1, s2, s3, s4, s5, s6, s7] : Vector State 8)[(0 : Fin 8)] = s0 := rfl
      rw [e, h']
      rfl
    rw [bind_ok this]
    exact h2 s' a rfl

theorem lane_1 (h : Agree (m s1) r)
    (h2 : ∀ s' a, r = .ok (s', a) → Agree (k a #v[s0, s', s2, s3, s4, s5, s6, s7]) (g (s', a))) :
    Agree ((lane 1 m >>= k) #v[s0, s1, s2, s3, s4, s5, s6, s7]) (r >>= g) := by
  cases r with
  | error e =>
    have : (lane 1 m #v[s0, s1, s2, s3, s4, s5, s6, s7]).1 = .error e := h
    exact congrArg Prod.fst (bind_error this k)
  | ok x =>
    obtain ⟨s', a⟩ := x
    have h' : m s1 = (.ok a, s') := h
    have : lane 1 m #v[s0, s1, s2, s3, s4, s5, s6, s7] = (.ok a, #v[s0, s', s2, s3, s4, s5, s6, s7]) := by
      show ((m s1).1, _) = _
      have e : (#v[s0, s1, s2, s3, s4, s5, s6, s7] : Vector State 8)[(1 : Fin 8)] = s1 := rfl
      rw [e, h']
      rfl
    rw [bind_ok this]
    exact h2 s' a rfl

theorem lane_2 (h : Agree (m s2) r)
    (h2 : ∀ s' a, r = .ok (s', a) → Agree (k a #v[s0, s1, s', s3, s4, s5, s6, s7]) (g (s', a))) :
    Agree ((lane 2 m >>= k) #v[s0, s1, s2, s3, s4, s5, s6, s7]) (r >>= g) := by
  cases r with
  | error e =>
    have : (lane 2 m #v[s0, s1, s2, s3, s4, s5, s6, s7]).1 = .error e := h
    exact congrArg Prod.fst (bind_error this k)
  | ok x =>
    obtain ⟨s', a⟩ := x
    have h' : m s2 = (.ok a, s') := h
    have : lane 2 m #v[s0, s1, s2, s3, s4, s5, s6, s7] = (.ok a, #v[s0, s1, s', s3, s4, s5, s6, s7]) := by
      show ((m s2).1, _) = _
      have e : (#v[s0, s1, s2, s3, s4, s5, s6, s7] : Vector State 8)[(2 : Fin 8)] = s2 := rfl
      rw [e, h']
      rfl
    rw [bind_ok this]
    exact h2 s' a rfl

theorem lane_3 (h : Agree (m s3) r)
    (h2 : ∀ s' a, r = .ok (s', a) → Agree (k a #v[s0, s1, s2, s', s4, s5, s6, s7]) (g (s', a))) :
    Agree ((lane 3 m >>= k) #v[s0, s1, s2, s3, s4, s5, s6, s7]) (r >>= g) := by
  cases r with
  | error e =>
    have : (lane 3 m #v[s0, s1, s2, s3, s4, s5, s6, s7]).1 = .error e := h
    exact congrArg Prod.fst (bind_error this k)
  | ok x =>
    obtain ⟨s', a⟩ := x
    have h' : m s3 = (.ok a, s') := h
    have : lane 3 m #v[s0, s1, s2, s3, s4, s5, s6, s7] = (.ok a, #v[s0, s1, s2, s', s4, s5, s6, s7]) := by
      show ((m s3).1, _) = _
      have e : (#v[s0, s1, s2, s3, s4, s5, s6, s7] : Vector State 8)[(3 : Fin 8)] = s3 := rfl
      rw [e, h']
      rfl
    rw [bind_ok this]
    exact h2 s' a rfl

theorem lane_4 (h : Agree (m s4) r)
    (h2 : ∀ s' a, r = .ok (s', a) → Agree (k a #v[s0, s1, s2, s3, s', s5, s6, s7]) (g (s', a))) :
    Agree ((lane 4 m >>= k) #v[s0, s1, s2, s3, s4, s5, s6, s7]) (r >>= g) := by
  cases r with
  | error e =>
    have : (lane 4 m #v[s0, s1, s2, s3, s4, s5, s6, s7]).1 = .error e := h
    exact congrArg Prod.fst (bind_error this k)
  | ok x =>
    obtain ⟨s', a⟩ := x
    have h' : m s4 = (.ok a, s') := h
    have : lane 4 m #v[s0, s1, s2, s3, s4, s5, s6, s7] = (.ok a, #v[s0, s1, s2, s3, s', s5, s6, s7]) := by
      show ((m s4).1, _) = _
      have e : (#v[s0, s1, s2, s3, s4, s5, s6, s7] : Vector State 8)[(4 : Fin 8)] = s4 := rfl
      rw [e, h']
      rfl
    rw [bind_ok this]
    exact h2 s' a rfl

theorem lane_5 (h : Agree (m s5) r)
    (h2 : ∀ s' a, r = .ok (s', a) → Agree (k a #v[s0, s1, s2, s3, s4, s', s6, s7]) (g (s', a))) :
    Agree ((lane 5 m >>= k) #v[s0, s1, s2, s3, s4, s5, s6, s7]) (r >>= g) := by
  cases r with
  | error e =>
    have : (lane 5 m #v[s0, s1, s2, s3, s4, s5, s6, s7]).1 = .error e := h
    exact congrArg Prod.fst (bind_error this k)
  | ok x =>
    obtain ⟨s', a⟩ := x
    have h' : m s5 = (.ok a, s') := h
    have : lane 5 m #v[s0, s1, s2, s3, s4, s5, s6, s7] = (.ok a, #v[s0, s1, s2, s3, s4, s', s6, s7]) := by
      show ((m s5).1, _) = _
      have e : (#v[s0, s1, s2, s3, s4, s5, s6, s7] : Vector State 8)[(5 : Fin 8)] = s5 := rfl
      rw [e, h']
      rfl
    rw [bind_ok this]
    exact h2 s' a rfl

theorem lane_6 (h : Agree (m s6) r)
    (h2 : ∀ s' a, r = .ok (s', a) → Agree (k a #v[s0, s1, s2, s3, s4, s5, s', s7]) (g (s', a))) :
    Agree ((lane 6 m >>= k) #v[s0, s1, s2, s3, s4, s5, s6, s7]) (r >>= g) := by
  cases r with
  | error e =>
    have : (lane 6 m #v[s0, s1, s2, s3, s4, s5, s6, s7]).1 = .error e := h
    exact congrArg Prod.fst (bind_error this k)
  | ok x =>
    obtain ⟨s', a⟩ := x
    have h' : m s6 = (.ok a, s') := h
    have : lane 6 m #v[s0, s1, s2, s3, s4, s5, s6, s7] = (.ok a, #v[s0, s1, s2, s3, s4, s5, s', s7]) := by
      show ((m s6).1, _) = _
      have e : (#v[s0, s1, s2, s3, s4, s5, s6, s7] : Vector State 8)[(6 : Fin 8)] = s6 := rfl
      rw [e, h']
      rfl
    rw [bind_ok this]
    exact h2 s' a rfl

theorem lane_7 (h : Agree (m s7) r)
    (h2 : ∀ s' a, r = .ok (s', a) → Agree (k a #v[s0, s1, s2, s3, s4, s5, s6, s']) (g (s', a))) :
    Agree ((lane 7 m >>= k) #v[s0, s1, s2, s3, s4, s5, s6, s7]) (r >>= g) := by
  cases r with
  | error e =>
    have : (lane 7 m #v[s0, s1, s2, s3, s4, s5, s6, s7]).1 = .error e := h
    exact congrArg Prod.fst (bind_error this k)
  | ok x =>
    obtain ⟨s', a⟩ := x
    have h' : m s7 = (.ok a, s') := h
    have : lane 7 m #v[s0, s1, s2, s3, s4, s5, s6, s7] = (.ok a, #v[s0, s1, s2, s3, s4, s5, s6, s']) := by
      show ((m s7).1, _) = _
      have e : (#v[s0, s1, s2, s3, s4, s5, s6, s7] : Vector State 8)[(7 : Fin 8)] = s7 := rfl
      rw [e, h']
      rfl
    rw [bind_ok this]
    exact h2 s' a rfl

variable {E : Env} {n : Nat} {k' : Unit → M (Vector State 8) β} {g' : U64 → R (Vector State 8 × β)}

theorem addCount_0
    (h2 : ∀ c, addChk E s0.count (BitVec.ofNat 64 n) = .ok c →
      Agree (k' () #v[{ s0 with count := c }, s1, s2, s3, s4, s5, s6, s7]) (g' c)) :
    Agree ((lane 0 (State.addCountU E n) >>= k') #v[s0, s1, s2, s3, s4, s5, s6, s7])
      (addChk E s0.count (BitVec.ofNat 64 n) >>= g') := by
  cases e : addChk E s0.count (BitVec.ofNat 64 n) with
  | error f =>
    refine lane_0 (r := .error f) (g := fun x => g' 0) ?_ fun _ _ h => nomatch h
    have := State.addCount_agree E n s0
    rw [e] at this
    exact this
  | ok c =>
    refine lane_0 (r := .ok ({ s0 with count := c }, ())) (g := fun x => g' c) ?_ ?_
    · have := State.addCount_agree E n s0
      rw [e] at this
      exact this
    · intro s' a h
      cases h
      exact h2 c e

theorem addCount_1
    (h2 : ∀ c, addChk E s1.count (BitVec.ofNat 64 n) = .ok c →
      Agree (k' () #v[s0, { s1 with count := c }, s2, s3, s4, s5, s6, s7]) (g' c)) :
    Agree ((lane 1 (State.addCountU E n) >>= k') #v[s0, s1, s2, s3, s4, s5, s6, s7])
      (addChk E s1.count (BitVec.ofNat 64 n) >>= g') := by
  cases e : addChk E s1.count (BitVec.ofNat 64 n) with
  | error f =>
    refine lane_1 (r := .error f) (g := fun x => g' 0) ?_ fun _ _ h => nomatch h
    have := State.addCount_agree E n s1
    rw [e] at this
    exact this
  | ok c =>
    refine lane_1 (r := .ok ({ s1 with count := c }, ())) (g := fun x => g' c) ?_ ?_
    · have := State.addCount_agree E n s1
      rw [e] at this
      exact this
    · intro s' a h
      cases h
      exact h2 c e

theorem addCount_2
    (h2 : ∀ c, addChk E s2.count (BitVec.ofNat 64 n) = .ok c →
      Agree (k' () #v[s0, s1, { s2 with count := c }, s3, s4, s5, s6, s7]) (g' c)) :
    Agree ((lane 2 (State.addCountU E n) >>= k') #v[s0, s1, s2, s3, s4, s5, s6, s7])
      (addChk E s2.count (BitVec.ofNat 64 n) >>= g') := by
  cases e : addChk E s2.count (BitVec.ofNat 64 n) with
  | error f =>
    refine lane_2 (r := .error f) (g := fun x => g' 0) ?_ fun _ _ h => nomatch h
    have := State.addCount_agree E n s2
    rw [e] at this
    exact this
  | ok c =>
    refine lane_2 (r := .ok ({ s2 with count := c }, ())) (g := fun x => g' c) ?_ ?_
    · have := State.addCount_agree E n s2
      rw [e] at this
      exact this
    · intro s' a h
      cases h
      exact h2 c e

theorem addCount_3
    (h2 : ∀ c, addChk E s3.count (BitVec.ofNat 64 n) = .ok c →
      Agree (k' () #v[s0, s1, s2, { s3 with count := c }, s4, s5, s6, s7]) (g' c)) :
    Agree ((lane 3 (State.addCountU E n) >>= k') #v[s0, s1, s2, s3, s4, s5, s6, s7])
      (addChk E s3.count (BitVec.ofNat 64 n) >>= g') := by
  cases e : addChk E s3.count (BitVec.ofNat 64 n) with
  | error f =>
    refine lane_3 (r := .error f) (g := fun x => g' 0) ?_ fun _ _ h => nomatch h
    have := State.addCount_agree E n s3
    rw [e] at this
    exact this
  | ok c =>
    refine lane_3 (r := .ok ({ s3 with count := c }, ())) (g := fun x => g' c) ?_ ?_
    · have := State.addCount_agree E n s3
      rw [e] at this
      exact this
    · intro s' a h
      cases h
      exact h2 c e

theorem addCount_4
    (h2 : ∀ c, addChk E s4.count (BitVec.ofNat 64 n) = .ok c →
      Agree (k' () #v[s0, s1, s2, s3, { s4 with count := c }, s5, s6, s7]) (g' c)) :
    Agree ((lane 4 (State.addCountU E n) >>= k') #v[s0, s1, s2, s3, s4, s5, s6, s7])
      (addChk E s4.count (BitVec.ofNat 64 n) >>= g') := by
  cases e : addChk E s4.count (BitVec.ofNat 64 n) with
  | error f =>
    refine lane_4 (r := .error f) (g := fun x => g' 0) ?_ fun _ _ h => nomatch h
    have := State.addCount_agree E n s4
    rw [e] at this
    exact this
  | ok c =>
    refine lane_4 (r := .ok ({ s4 with count := c }, ())) (g := fun x => g' c) ?_ ?_
    · have := State.addCount_agree E n s4
      rw [e] at this
      exact this
    · intro s' a h
      cases h
      exact h2 c e

theorem addCount_5
    (h2 : ∀ c, addChk E s5.count (BitVec.ofNat 64 n) = .ok c →
      Agree (k' () #v[s0, s1, s2, s3, s4, { s5 with count := c }, s6, s7]) (g' c)) :
    Agree ((lane 5 (State.addCountU E n) >>= k') #v[s0, s1, s2, s3, s4, s5, s6, s7])
      (addChk E s5.count (BitVec.ofNat 64 n) >>= g') := by
  cases e : addChk E s5.count (BitVec.ofNat 64 n) with
  | error f =>
    refine lane_5 (r := .error f) (g := fun x => g' 0) ?_ fun _ _ h => nomatch h
    have := State.addCount_agree E n s5
    rw [e] at this
    exact this
  | ok c =>
    refine lane_5 (r := .ok ({ s5 with count := c }, ())) (g := fun x => g' c) ?_ ?_
    · have := State.addCount_agree E n s5
      rw [e] at this
      exact this
    · intro s' a h
      cases h
      exact h2 c e

theorem addCount_6
    (h2 : ∀ c, addChk E s6.count (BitVec.ofNat 64 n) = .ok c →
      Agree (k' () #v[s0, s1, s2, s3, s4, s5, { s6 with count := c }, s7]) (g' c)) :
    Agree ((lane 6 (State.addCountU E n) >>= k') #v[s0, s1, s2, s3, s4, s5, s6, s7])
      (addChk E s6.count (BitVec.ofNat 64 n) >>= g') := by
  cases e : addChk E s6.count (BitVec.ofNat 64 n) with
  | error f =>
    refine lane_6 (r := .error f) (g := fun x => g' 0) ?_ fun _ _ h => nomatch h
    have := State.addCount_agree E n s6
    rw [e] at this
    exact this
  | ok c =>
    refine lane_6 (r := .ok ({ s6 with count := c }, ())) (g := fun x => g' c) ?_ ?_
    · have := State.addCount_agree E n s6
      rw [e] at this
      exact this
    · intro s' a h
      cases h
      exact h2 c e

theorem addCount_7
    (h2 : ∀ c, addChk E s7.count (BitVec.ofNat 64 n) = .ok c →
      Agree (k' () #v[s0, s1, s2, s3, s4, s5, s6, { s7 with count := c }]) (g' c)) :
    Agree ((lane 7 (State.addCountU E n) >>= k') #v[s0, s1, s2, s3, s4, s5, s6, s7])
      (addChk E s7.count (BitVec.ofNat 64 n) >>= g') := by
  cases e : addChk E s7.count (BitVec.ofNat 64 n) with
  | error f =>
    refine lane_7 (r := .error f) (g := fun x => g' 0) ?_ fun _ _ h => nomatch h
    have := State.addCount_agree E n s7
    rw [e] at this
    exact this
  | ok c =>
    refine lane_7 (r := .ok ({ s7 with count := c }, ())) (g := fun x => g' c) ?_ ?_
    · have := State.addCount_agree E n s7
      rw [e] at this
      exact this
    · intro s' a h
      cases h
      exact h2 c e

end

section

variable {β : Type} {m : M State Unit} {r : R State} {k : Unit → M (Vector State 8) β}
  {g : State → R (Vector State 8 × β)} {s0 s1 s2 s3 s4 s5 s6 s7 : State}

theorem unit_0 (h : Agree (m s0) (r >>= fun s => pure (s, ())))
    (h2 : ∀ s', r = .ok s' → Agree (k () #v[s', s1, s2, s3, s4, s5, s6, s7]) (g s')) :
    Agree ((lane 0 m >>= k) #v[s0, s1, s2, s3, s4, s5, s6, s7]) (r >>= g) := by
  cases r with
  | error f => exact lane_0 (r := .error f) (g := fun x => g x.1) h fun _ _ h => nomatch h
  | ok s' =>
    refine lane_0 (r := .ok (s', ())) (g := fun x => g x.1) h ?_
    intro t a e
    cases e
    exact h2 s' rfl

theorem unit_1 (h : Agree (m s1) (r >>= fun s => pure (s, ())))
    (h2 : ∀ s', r = .ok s' → Agree (k () #v[s0, s', s2, s3, s4, s5, s6, s7]) (g s')) :
    Agree ((lane 1 m >>= k) #v[s0, s1, s2, s3, s4, s5, s6, s7]) (r >>= g) := by
  cases r with
  | error f => exact lane_1 (r := .error f) (g := fun x => g x.1) h fun _ _ h => nomatch h
  | ok s' =>
    refine lane_1 (r := .ok (s', ())) (g := fun x => g x.1) h ?_
    intro t a e
    cases e
    exact h2 s' rfl

theorem unit_2 (h : Agree (m s2) (r >>= fun s => pure (s, ())))
    (h2 : ∀ s', r = .ok s' → Agree (k () #v[s0, s1, s', s3, s4, s5, s6, s7]) (g s')) :
    Agree ((lane 2 m >>= k) #v[s0, s1, s2, s3, s4, s5, s6, s7]) (r >>= g) := by
  cases r with
  | error f => exact lane_2 (r := .error f) (g := fun x => g x.1) h fun _ _ h => nomatch h
  | ok s' =>
    refine lane_2 (r := .ok (s', ())) (g := fun x => g x.1) h ?_
    intro t a e
    cases e
    exact h2 s' rfl

theorem unit_3 (h : Agree (m s3) (r >>= fun s => pure (s, ())))
    (h2 : ∀ s', r = .ok s' → Agree (k () #v[s0, s1, s2, s', s4, s5, s6, s7]) (g s')) :
    Agree ((lane 3 m >>= k) #v[s0, s1, s2, s3, s4, s5, s6, s7]) (r >>= g) := by
  cases r with
  | error f => exact lane_3 (r := .error f) (g := fun x => g x.1) h fun _ _ h => nomatch h
  | ok s' =>
    refine lane_3 (r := .ok (s', ())) (g := fun x => g x.1) h ?_
    intro t a e
    cases e
    exact h2 s' rfl

theorem unit_4 (h : Agree (m s4) (r >>= fun s => pure (s, ())))
    (h2 : ∀ s', r = .ok s' → Agree (k () #v[s0, s1, s2, s3, s', s5, s6, s7]) (g s')) :
    Agree ((lane 4 m >>= k) #v[s0, s1, s2, s3, s4, s5, s6, s7]) (r >>= g) := by
  cases r with
  | error f => exact lane_4 (r := .error f) (g := fun x => g x.1) h fun _ _ h => nomatch h
  | ok s' =>
    refine lane_4 (r := .ok (s', ())) (g := fun x => g x.1) h ?_
    intro t a e
    cases e
    exact h2 s' rfl

theorem unit_5 (h : Agree (m s5) (r >>= fun s => pure (s, ())))
    (h2 : ∀ s', r = .ok s' → Agree (k () #v[s0, s1, s2, s3, s4, s', s6, s7]) (g s')) :
    Agree ((lane 5 m >>= k) #v[s0, s1, s2, s3, s4, s5, s6, s7]) (r >>= g) := by
  cases r with
  | error f => exact lane_5 (r := .error f) (g := fun x => g x.1) h fun _ _ h => nomatch h
  | ok s' =>
    refine lane_5 (r := .ok (s', ())) (g := fun x => g x.1) h ?_
    intro t a e
    cases e
    exact h2 s' rfl

theorem unit_6 (h : Agree (m s6) (r >>= fun s => pure (s, ())))
    (h2 : ∀ s', r = .ok s' → Agree (k () #v[s0, s1, s2, s3, s4, s5, s', s7]) (g s')) :
    Agree ((lane 6 m >>= k) #v[s0, s1, s2, s3, s4, s5, s6, s7]) (r >>= g) := by
  cases r with
  | error f => exact lane_6 (r := .error f) (g := fun x => g x.1) h fun _ _ h => nomatch h
  | ok s' =>
    refine lane_6 (r := .ok (s', ())) (g := fun x => g x.1) h ?_
    intro t a e
    cases e
    exact h2 s' rfl

theorem unit_7 (h : Agree (m s7) (r >>= fun s => pure (s, ())))
    (h2 : ∀ s', r = .ok s' → Agree (k () #v[s0, s1, s2, s3, s4, s5, s6, s']) (g s')) :
    Agree ((lane 7 m >>= k) #v[s0, s1, s2, s3, s4, s5, s6, s7]) (r >>= g) := by
  cases r with
  | error f => exact lane_7 (r := .error f) (g := fun x => g x.1) h fun _ _ h => nomatch h
  | ok s' =>
    refine lane_7 (r := .ok (s', ())) (g := fun x => g x.1) h ?_
    intro t a e
    cases e
    exact h2 s' rfl

end

theorem M.bind_unit {σ : Type} (m : M σ Unit) (s : σ) : (m >>= fun _ => pure ()) s = m s := by
  cases h : m s with
  | mk r s' =>
    cases r with
    | error e => rw [bind_error (by rw [h])]; rw [h]
    | ok a => rw [bind_ok h]; rfl

theorem M.Agree.unit {σ : Type} {m : M σ Unit} {s : σ} {r : R (σ × Unit)}
    (h : Agree ((m >>= fun _ => pure ()) s) r) : Agree (m s) r := by
  rw [M.bind_unit] at h
  exact h

theorem M.lane_modify {β : Type} (i : Fin 8) (f : State → State) (k : Unit → M (Vector State 8) β)
    (v : Vector State 8) : (lane i (modify f) >>= k) v = k () (v.set i (f v[i])) := rfl

theorem update8Loop_agree (E : Env) (fn : Compress8Fn) (fuel : Nat) :
    ∀ (st : Vector State 8) (input : Vector (List U8) 8),
      Agree (update8LoopU E fn fuel input st) (update8Loop E fn fuel st input) := by
  induction fuel with
  | zero => intro st input; rfl
  | succ fuel ih =>
    intro st input
    rw [eight st]
    generalize st[0] = s0, st[1] = s1, st[2] = s2, st[3] = s3, st[4] = s4, st[5] = s5, st[6] = s6,
      st[7] = s7
    unfold update8LoopU update8Loop
    split
    · refine addCount_0 fun c0 _ => ?_
      refine addCount_1 fun c1 _ => ?_
      refine addCount_2 fun c2 _ => ?_
      refine addCount_3 fun c3 _ => ?_
      refine addCount_4 fun c4 _ => ?_
      refine addCount_5 fun c5 _ => ?_
      refine addCount_6 fun c6 _ => ?_
      refine addCount_7 fun c7 _ => ?_
      refine Agree.lift _ fun m0 _ => ?_
      refine Agree.lift _ fun m1 _ => ?_
      refine Agree.lift _ fun m2 _ => ?_
      refine Agree.lift _ fun m3 _ => ?_
      refine Agree.lift _ fun m4 _ => ?_
      refine Agree.lift _ fun m5 _ => ?_
      refine Agree.lift _ fun m6 _ => ?_
      refine Agree.lift _ fun m7 _ => ?_
      rw [get_bind]
      refine Agree.lift _ fun h _ => ?_
      rw [modify_bind]
      refine Agree.lift _ fun i0 _ => ?_
      refine Agree.lift _ fun i1 _ => ?_
      refine Agree.lift _ fun i2 _ => ?_
      refine Agree.lift _ fun i3 _ => ?_
      refine Agree.lift _ fun i4 _ => ?_
      refine Agree.lift _ fun i5 _ => ?_
      refine Agree.lift _ fun i6 _ => ?_
      refine Agree.lift _ fun i7 _ => ?_
      exact ih _ _
    · rfl

theorem update8_agree (E : Env) (st : Vector State 8) (input : Vector (List U8) 8) :
    Agree (update8U E input st) (update8 E st input >>= fun st => pure (st, ())) := by
  rw [eight st]
  generalize st[0] = s0, st[1] = s1, st[2] = s2, st[3] = s3, st[4] = s4, st[5] = s5, st[6] = s6,
    st[7] = s7
  unfold update8U update8
  simp only [bind_assoc]
  refine lane_0 (State.compressBuffer_agree E _ _) fun s0 i0 _ => ?_
  refine lane_1 (State.compressBuffer_agree E _ _) fun s1 i1 _ => ?_
  refine lane_2 (State.compressBuffer_agree E _ _) fun s2 i2 _ => ?_
  refine lane_3 (State.compressBuffer_agree E _ _) fun s3 i3 _ => ?_
  refine lane_4 (State.compressBuffer_agree E _ _) fun s4 i4 _ => ?_
  refine lane_5 (State.compressBuffer_agree E _ _) fun s5 i5 _ => ?_
  refine lane_6 (State.compressBuffer_agree E _ _) fun s6 i6 _ => ?_
  refine lane_7 (State.compressBuffer_agree E _ _) fun s7 i7 _ => ?_
  refine Agree.bind (update8Loop_agree E _ _ _ _) fun st i _ => ?_
  rw [eight st]
  generalize st[0] = s0, st[1] = s1, st[2] = s2, st[3] = s3, st[4] = s4, st[5] = s5, st[6] = s6,
    st[7] = s7
  refine unit_0 (State.update_agree E _ _) fun s0 _ => ?_
  refine unit_1 (State.update_agree E _ _) fun s1 _ => ?_
  refine unit_2 (State.update_agree E _ _) fun s2 _ => ?_
  refine unit_3 (State.update_agree E _ _) fun s3 _ => ?_
  refine unit_4 (State.update_agree E _ _) fun s4 _ => ?_
  refine unit_5 (State.update_agree E _ _) fun s5 _ => ?_
  refine unit_6 (State.update_agree E _ _) fun s6 _ => ?_
  refine Agree.unit ?_
  exact unit_7 (State.update_agree E _ _) fun s7 _ => rfl

seal State.zeroTail stateWordsToBytes Compress8Fn.call State.flagWord in
theorem finalize8_agree (E : Env) (st : Vector State 8) :
    Agree (finalize8U E st) (finalize8 E st) := by
  rw [eight st]
  generalize st[0] = s0, st[1] = s1, st[2] = s2, st[3] = s3, st[4] = s4, st[5] = s5, st[6] = s6,
    st[7] = s7
  unfold finalize8U finalize8
  rw [lane_modify, lane_modify, lane_modify, lane_modify, lane_modify, lane_modify, lane_modify,
    lane_modify, get_bind]
  exact Agree.lift _ fun h _ => rfl

/-! ## BLAKE2sp -/

namespace Sp.State

theorem fillBuf_agree (E : Env) (s : Sp.State) (input : List U8) :
    Agree (fillBufU E input s) (s.fillBuf E input) := by
  unfold fillBufU fillBuf
  rw [get_bind]
  refine Agree.lift _ fun n _ => ?_
  refine Agree.lift _ fun part _ => ?_
  rw [get_bind]
  refine Agree.lift _ fun buf _ => ?_
  rw [modify_bind, get_bind]
  refine Agree.lift _ fun buflen _ => ?_
  rw [modify_bind]
  exact Agree.last _

theorem compress8_agree (E : Env) (input : Vector U8 512) (fn : Compress8Fn)
    (lf : Vector Blake2s.State 8) :
    Agree (compress8U E input fn lf) (compress8 E input lf fn >>= fun lf => pure (lf, ())) := by
  rw [eight lf]
  generalize lf[0] = s0, lf[1] = s1, lf[2] = s2, lf[3] = s3, lf[4] = s4, lf[5] = s5, lf[6] = s6,
    lf[7] = s7
  unfold compress8U compress8
  simp only [bind_assoc]
  rw [get_bind]
  refine Agree.lift _ fun _ _ => ?_
  refine Agree.lift _ fun _ _ => ?_
  refine Agree.lift _ fun _ _ => ?_
  refine Agree.lift _ fun _ _ => ?_
  refine Agree.lift _ fun _ _ => ?_
  refine Agree.lift _ fun _ _ => ?_
  refine Agree.lift _ fun _ _ => ?_
  refine Agree.lift _ fun _ _ => ?_
  refine Agree.lift _ fun _ _ => ?_
  refine Agree.lift _ fun _ _ => ?_
  refine Agree.lift _ fun _ _ => ?_
  refine Agree.lift _ fun _ _ => ?_
  refine Agree.lift _ fun _ _ => ?_
  refine Agree.lift _ fun _ _ => ?_
  refine Agree.lift _ fun _ _ => ?_
  refine addCount_0 fun c0 _ => ?_
  refine addCount_1 fun c1 _ => ?_
  refine addCount_2 fun c2 _ => ?_
  refine addCount_3 fun c3 _ => ?_
  refine addCount_4 fun c4 _ => ?_
  refine addCount_5 fun c5 _ => ?_
  refine addCount_6 fun c6 _ => ?_
  refine addCount_7 fun c7 _ => ?_
  rw [get_bind]
  exact Agree.lift _ fun h _ => rfl

theorem leaves_agree {α : Type} {m : M (Vector Blake2s.State 8) Unit}
    {r : R (Vector Blake2s.State 8)} {k : Unit → M Sp.State α}
    {g : Vector Blake2s.State 8 → R (Sp.State × α)} {s : Sp.State}
    (h : Agree (m s.leaves) (r >>= fun lf => pure (lf, ())))
    (h2 : ∀ lf, r = .ok lf → Agree (k () { s with leaves := lf }) (g lf)) :
    Agree ((leavesU m >>= k) s) (r >>= g) := by
  cases r with
  | error e =>
    have : (leavesU m s).1 = .error e := h
    exact congrArg Prod.fst (bind_error this k)
  | ok lf =>
    have h' : m s.leaves = (.ok (), lf) := h
    have : leavesU m s = (.ok (), { s with leaves := lf }) := by
      unfold leavesU
      rw [h']
    rw [bind_ok this]
    exact h2 lf rfl

theorem updateBuffered_agree (E : Env) (s : Sp.State) (input : List U8) :
    Agree (updateBufferedU E input s) (s.updateBuffered E input) := by
  unfold updateBufferedU updateBuffered
  rw [get_bind]
  split
  · refine Agree.bind (fillBuf_agree E s input) fun s' rest _ => ?_
    cases rest with
    | nil => rfl
    | cons b bs =>
      simp only [List.isEmpty_cons, Bool.not_false, if_true]
      rw [get_bind]
      refine leaves_agree (compress8_agree E _ _ _) fun lf _ => ?_
      rw [get_bind]
      refine Agree.lift _ fun n _ => ?_
      rw [modify_bind]
      split
      · rw [get_bind]
        exact leaves_agree (compress8_agree E _ _ _) fun lf _ => rfl
      · rw [get_bind]
        refine Agree.lift _ fun part _ => ?_
        exact Agree.lift _ fun left _ => rfl
  · rfl

theorem updateLoop_agree (E : Env) (fuel : Nat) : ∀ (s : Sp.State) (input : List U8),
    Agree (updateLoopU E fuel input s) (updateLoop E s.compress8Fn fuel s.leaves input >>= fun x =>
      pure ({ s with leaves := x.1 }, x.2)) := by
  induction fuel with
  | zero => intro s input; rfl
  | succ fuel ih =>
    intro s input
    unfold updateLoopU updateLoop
    split
    · simp only [bind_assoc]
      refine Agree.lift _ fun block _ => ?_
      rw [get_bind]
      refine leaves_agree (compress8_agree E _ _ _) fun lf _ => ?_
      refine Agree.lift _ fun rest _ => ?_
      exact ih { s with leaves := lf } rest
    · rfl

theorem update_agree (E : Env) (s : Sp.State) (input : List U8) :
    Agree (updateU E input s) (s.update E input >>= fun s => pure (s, ())) := by
  unfold update updateU
  simp only [bind_assoc]
  refine Agree.bind (updateBuffered_agree E s input) fun s' rest _ => ?_
  have h : (updateLoop E s'.compress8Fn (rest.length + 1) s'.leaves rest >>= fun x =>
      ({ s' with leaves := x.1 } : Sp.State).fillBuf E x.2 >>= fun y =>
        debugAssert E (decide (0 = y.2.length)) >>= fun _ => pure y.1 >>= fun s =>
          (pure (s, ()) : R (Sp.State × Unit))) =
      ((updateLoop E s'.compress8Fn (rest.length + 1) s'.leaves rest >>= fun x =>
        pure (({ s' with leaves := x.1 } : Sp.State), x.2)) >>= fun x => x.1.fillBuf E x.2 >>= fun y =>
        debugAssert E (decide (0 = y.2.length)) >>= fun _ => pure y.1 >>= fun s => pure (s, ())) := by
    rw [bind_assoc]
    rfl
  refine Eq.mpr (congrArg (Agree _) h) ?_
  refine Agree.bind (updateLoop_agree E _ _ _) fun s' rest _ => ?_
  refine Agree.bind (fillBuf_agree E _ _) fun s' rest _ => ?_
  refine Agree.unit ?_
  exact Agree.lift _ fun _ _ => rfl

end Sp.State

end Blake2s
