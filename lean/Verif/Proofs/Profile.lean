import Verif.Exact
/-!
# Fewer run-time checks, same behaviour
-/

namespace Blake2s.Exact

open Abstract (AState)

/-- `b'` is as `b`, with possibly fewer checks. -/
structure Fewer (b b' : Build) : Prop where
  vector : b.vector = b'.vector
  overflow : b'.overflowChecks = true → b.overflowChecks = true
  debug : b'.debugAssertions = true → b.debugAssertions = true

/-- The same, or a panic by a check that `b'` does not make. -/
def Same (b b' : Build) {α : Type} (x y : R α) : Prop :=
  x = y ∨ (x = .error .overflow ∧ b.overflowChecks = true ∧ b'.overflowChecks = false) ∨
    (x = .error .debugAssertFailed ∧ b.debugAssertions = true ∧ b'.debugAssertions = false)

variable {b b' : Build} {α β : Type}

theorem Same.refl (x : R α) : Same b b' x x := .inl rfl

theorem Same.bind {x y : R α} (h : Same b b' x y) {f g : α → R β} (hf : ∀ a, Same b b' (f a) (g a)) :
    Same b b' (x >>= f) (y >>= g) := by
  rcases h with rfl | ⟨rfl, h⟩ | ⟨rfl, h⟩
  · cases x with
    | error e => exact .inl rfl
    | ok a => exact hf a
  · exact .inr (.inl ⟨rfl, h⟩)
  · exact .inr (.inr ⟨rfl, h⟩)

theorem Same.overflow (hb : Fewer b b') (P : Prop) [Decidable P] {x y : R α} (h : Same b b' x y) :
    Same b b' (if b.overflowChecks ∧ P then .error .overflow else x)
      (if b'.overflowChecks ∧ P then .error .overflow else y) := by
  by_cases p : P
  · cases o : b'.overflowChecks with
    | true =>
      rw [if_pos ⟨hb.overflow o, p⟩, if_pos ⟨rfl, p⟩]
      exact .inl rfl
    | false =>
      rw [if_neg (c := false = true ∧ P) (by simp)]
      by_cases o' : b.overflowChecks = true
      · rw [if_pos ⟨o', p⟩]
        exact .inr (.inl ⟨rfl, o', o⟩)
      · rw [if_neg (fun h => o' h.1)]
        exact h
  · rw [if_neg (fun h => p h.2), if_neg (fun h => p h.2)]
    exact h

theorem Same.debug (hb : Fewer b b') (P : Prop) [Decidable P] {x y : R α} (h : Same b b' x y) :
    Same b b' (if b.debugAssertions ∧ P then .error .debugAssertFailed else x)
      (if b'.debugAssertions ∧ P then .error .debugAssertFailed else y) := by
  by_cases p : P
  · cases o : b'.debugAssertions with
    | true =>
      rw [if_pos ⟨hb.debug o, p⟩, if_pos ⟨rfl, p⟩]
      exact .inl rfl
    | false =>
      rw [if_neg (c := false = true ∧ P) (by simp)]
      by_cases o' : b.debugAssertions = true
      · rw [if_pos ⟨o', p⟩]
        exact .inr (.inr ⟨rfl, o', o⟩)
      · rw [if_neg (fun h => o' h.1)]
        exact h
  · rw [if_neg (fun h => p h.2), if_neg (fun h => p h.2)]
    exact h

theorem sp_update_same (hb : Fewer b b') (s : SpState) (input : List U8) :
    Same b b' (s.update b input) (s.update b' input) :=
  Same.debug hb _ (Same.overflow hb _ (Same.refl _))

theorem sp_digest_same (hb : Fewer b b') (s : SpState) :
    Same b b' (s.digest b) (s.digest b') :=
  Same.overflow hb _ (Same.refl _)

theorem sp_count_same (hb : Fewer b b') (s : SpState) : Same b b' (s.count b) (s.count b') :=
  Same.overflow hb _ (Same.refl _)

theorem sp_debug_same (hb : Fewer b b') (s : SpState) : Same b b' (s.debug b) (s.debug b') :=
  Same.bind (sp_count_same hb s) fun _ => Same.refl _

theorem exactDigest_same (hb : Fewer b b') : exactDigest b = exactDigest b' := by
  funext v input
  unfold exactDigest
  rw [hb.vector]

theorem overflows_same (hb : Fewer b b') (s : AState) (input : List U8) {x : R α} :
    Same b b' (if s.overflows b.toBuild input then .error .overflow else x)
      (if s.overflows b'.toBuild input then .error .overflow else x) := by
  simp only [AState.overflows, Bool.and_eq_true]
  exact Same.overflow hb _ (Same.refl _)

theorem call_same (hb : Fewer b b') (w : XWorld) (c : Call) :
    Same b b' (w.call b c) (w.call b' c) := by
  cases c with
  | update s i => exact overflows_same hb _ _
  | write s i => exact overflows_same hb _ _
  | update8 s i =>
    simp only [XWorld.call, AState.overflows, Bool.and_eq_true, exists_and_left]
    exact Same.overflow hb _ (Same.refl _)
  | hash4Exact p i h =>
    simp only [XWorld.call, exactDigest_same hb]
    exact Same.refl _
  | hash8Exact p i h =>
    simp only [XWorld.call, exactDigest_same hb]
    exact Same.refl _
  | spUpdate s i => exact Same.bind (sp_update_same hb _ _) fun _ => Same.refl _
  | spWrite s i => exact Same.bind (sp_update_same hb _ _) fun _ => Same.refl _
  | spFinalize s h => exact Same.bind (sp_digest_same hb _) fun _ => Same.refl _
  | spCount s => exact Same.bind (sp_count_same hb _) fun _ => Same.refl _
  | spDebugState s => exact Same.bind (sp_debug_same hb _) fun _ => Same.refl _
  | _ => exact Same.refl _

theorem run_same (hb : Fewer b b') (w : XWorld) (cs : List Call) :
    Same b b' (w.run b cs) (w.run b' cs) := by
  induction cs generalizing w with
  | nil => exact Same.refl _
  | cons c cs ih =>
    exact Same.bind (call_same hb w c) fun x => Same.bind (ih x.1) fun _ => Same.refl _

theorem program_fewer (hb : Fewer b b') (cs : List Call) :
    Same b b' (program b cs) (program b' cs) := run_same hb _ cs

end Blake2s.Exact
