import Verif.Model.State
/-!
# Generic facts about the model's run-time primitives
-/

namespace Blake2s

/-- The computation ends either normally with a value satisfying `post`, or with an arithmetic overflow
panic and then `bad` holds. -/
def Ends {α : Type} (r : R α) (bad : Prop) (post : α → Prop) : Prop :=
  (∃ a, r = .ok a ∧ post a) ∨ (r = .error .overflow ∧ bad)

theorem Ends.ok {α : Type} {a : α} {bad : Prop} {post : α → Prop} (h : post a) :
    Ends (.ok a) bad post := .inl ⟨a, rfl, h⟩

theorem Ends.pure {α : Type} {a : α} {bad : Prop} {post : α → Prop} (h : post a) :
    Ends (pure a) bad post := .inl ⟨a, rfl, h⟩

theorem Ends.bind {α β : Type} {r : R α} {f : α → R β} {bad : Prop} {post : α → Prop}
    {post' : β → Prop} (h : Ends r bad post) (hf : ∀ a, post a → Ends (f a) bad post') :
    Ends (r >>= f) bad post' := by
  rcases h with ⟨a, e, h⟩ | ⟨e, h⟩
  · rw [e]; exact hf a h
  · rw [e]; exact .inr ⟨rfl, h⟩

theorem Ends.mono {α : Type} {r : R α} {bad bad' : Prop} {post post' : α → Prop}
    (h : Ends r bad post) (hb : bad → bad') (hp : ∀ a, post a → post' a) : Ends r bad' post' := by
  rcases h with ⟨a, e, h⟩ | ⟨e, h⟩
  · exact .inl ⟨a, e, hp a h⟩
  · exact .inr ⟨e, hb h⟩

theorem Ends.elim {α : Type} {r : R α} {bad : Prop} {post : α → Prop} (h : Ends r bad post)
    (hb : ¬ bad) : ∃ a, r = .ok a ∧ post a := by
  rcases h with h | ⟨_, h⟩
  · exact h
  · exact absurd h hb

theorem addChk_ends {w : Nat} (E : Env) (a b : Nat) (ha : E.overflowChecks = true → a < 2 ^ w)
    (hb : b < 2 ^ w) :
    Ends (addChk E (BitVec.ofNat w a) (BitVec.ofNat w b)) (E.overflowChecks = true ∧ 2 ^ w ≤ a + b)
      (fun r => r = BitVec.ofNat w (a + b) ∧ (E.overflowChecks = true → a + b < 2 ^ w)) := by
  unfold addChk
  have hb' : (BitVec.ofNat w b).toNat = b := by simp [Nat.mod_eq_of_lt hb]
  by_cases ho : E.overflowChecks = true
  · have ha' : (BitVec.ofNat w a).toNat = a := by simp [Nat.mod_eq_of_lt (ha ho)]
    rw [ha', hb', ho]
    by_cases h : 2 ^ w ≤ a + b
    · rw [if_pos (by simpa using h)]
      exact .inr ⟨rfl, rfl, h⟩
    · rw [if_neg (by simpa using h)]
      exact Ends.pure ⟨by simp [BitVec.ofNat_add], fun _ => by omega⟩
  · rw [if_neg (by simp [ho])]
    exact Ends.pure ⟨by simp [BitVec.ofNat_add], fun h => absurd h ho⟩

theorem sliceTo_ok (s : List U8) (n : Nat) (h : n ≤ s.length) : sliceTo s n = .ok (s.take n) := by
  unfold sliceTo; rw [if_pos h]; rfl

theorem sliceFrom_ok (s : List U8) (n : Nat) (h : n ≤ s.length) :
    sliceFrom s n = .ok (s.drop n) := by
  unfold sliceFrom; rw [if_pos h]; rfl

theorem usizeSub_ok (a b : Nat) (h : b ≤ a) : usizeSub a b = .ok (a - b) := by
  unfold usizeSub; rw [if_pos h]; rfl

theorem copyFromSlice_ok {n : Nat} (dst : Vector U8 n) (a b : Nat) (src : List U8) (h1 : a ≤ b)
    (h2 : b ≤ n) (h3 : src.length = b - a) :
    ∃ v, copyFromSlice dst a b src = .ok v ∧ v.toList = dst.toList.take a ++ src ++ dst.toList.drop b := by
  unfold copyFromSlice
  rw [dif_pos ⟨h1, h2, h3⟩]
  exact ⟨_, rfl, by simp⟩

theorem arrayRef_ok (s : List U8) (off n : Nat) (h : off + n ≤ s.length) :
    ∃ v, arrayRef s off n = .ok v ∧ v.toList = (s.drop off).take n := by
  unfold arrayRef
  rw [dif_pos h]
  exact ⟨_, rfl, by simp⟩

theorem readBlockPtr_ok (s : List U8) (off : Nat) (h : off + 64 ≤ s.length) :
    ∃ v, readBlockPtr s off = .ok v ∧ v.toList = (s.drop off).take 64 := by
  unfold readBlockPtr
  rw [dif_pos h]
  exact ⟨_, rfl, by simp⟩

end Blake2s
