import Verif.Extension
import Verif.Proofs.Collision

namespace Spec

/-- The shape of a trace: all compressions but the last are not final and hand on their output. -/
theorem absorbTrace_shape (h : Fin 8 → Word) (off : Nat) (data : List Byte) (ln : Bool) :
    (∃ y l, absorbTrace h off data ln = y :: l ∧ y.h = h) ∧
    (∃ l x, absorbTrace h off data ln = l ++ [x] ∧ x.final = true ∧ x.lastNode = ln ∧ x.output = absorb h off data ln) ∧
    ∀ before x y after, absorbTrace h off data ln = before ++ x :: y :: after →
      x.final = false ∧ x.lastNode = false ∧ y.h = x.output := by
  rw [absorbTrace, absorb]
  by_cases c : data.length ≤ 64
  · rw [if_pos c, if_pos c]
    refine ⟨⟨_, _, rfl, rfl⟩, ⟨[], _, rfl, rfl, rfl, output_mk ..⟩, ?_⟩
    intro before x y after e
    have := congrArg List.length e
    simp at this
    omega
  · rw [if_neg c, if_neg c]
    obtain ⟨⟨y0, l0, e0, h0⟩, ⟨l, x, e, h1, h2, h3⟩, h4⟩ := absorbTrace_shape
      (F h (blockWords (data.take 64)) (off + 64) false false) (off + 64) (data.drop 64) ln
    dsimp only
    refine ⟨⟨_, _, rfl, rfl⟩,
      ⟨⟨h, blockWords (data.take 64), BitVec.ofNat 64 (off + 64), false, false⟩ :: l, x, ?_, h1, h2, h3⟩, ?_⟩
    · rw [output_mk, e]; rfl
    · intro before x y after q
      rw [output_mk] at q
      cases before with
      | nil =>
        rw [List.nil_append, e0] at q
        injection q with q1 q2
        injection q2 with q3 q4
        rw [← q1, ← q3, h0, output_mk]
        exact ⟨rfl, rfl, rfl⟩
      | cons b before =>
        injection q with q1 q2
        exact h4 before x y after q2
termination_by data.length
decreasing_by simp; omega

theorem absorbTrace_prefix (h h' : Fin 8 → Word) (off : Nat) (d d' : List Byte) (ln ln' : Bool)
    (hd : off + d.length < 2 ^ 64) (hd' : off + d'.length < 2 ^ 64)
    (e : (absorbTrace h off d ln).map FInput.message <+: (absorbTrace h' off d' ln').map FInput.message) :
    d = d' ∧ ln = ln' := by
  rw [absorbTrace.eq_def h off d ln, absorbTrace.eq_def h' off d' ln'] at e
  by_cases c : d.length ≤ 64
  · rw [if_pos c] at e
    by_cases c' : d'.length ≤ 64
    · rw [if_pos c'] at e
      simp only [List.map_cons, List.map_nil, List.cons_prefix_cons, FInput.message, Prod.mk.injEq] at e
      obtain ⟨⟨e1, e2, _, e3⟩, _⟩ := e
      have := congrArg BitVec.toNat e2
      simp only [BitVec.toNat_ofNat] at this
      rw [Nat.mod_eq_of_lt hd, Nat.mod_eq_of_lt hd'] at this
      exact ⟨blockWords_inj (by omega) c e1, e3⟩
    · rw [if_neg c'] at e
      simp [FInput.message] at e
  · rw [if_neg c] at e
    by_cases c' : d'.length ≤ 64
    · rw [if_pos c'] at e
      simp [FInput.message] at e
    · rw [if_neg c'] at e
      simp only [List.map_cons, List.cons_prefix_cons] at e
      obtain ⟨e1, e2⟩ := e
      simp only [FInput.message, Prod.mk.injEq] at e1
      have := blockWords_inj (by simp; omega) (by simp; omega) e1.1
      obtain ⟨e3, e4⟩ := absorbTrace_prefix _ _ (off + 64) (d.drop 64) (d'.drop 64) ln ln'
        (by simp; omega) (by simp; omega) e2
      refine ⟨?_, e4⟩
      rw [← List.take_append_drop 64 d, ← List.take_append_drop 64 d', this, e3]
termination_by d.length
decreasing_by simp; omega

theorem absorbTrace_counters (h : Fin 8 → Word) (off : Nat) (d : List Byte) (ln : Bool)
    (hd : off + d.length < 2 ^ 64) :
    (absorbTrace h off d ln).Pairwise (fun x y => x.t.toNat < y.t.toNat) ∧
    ∀ x ∈ absorbTrace h off d ln, off + min d.length 64 ≤ x.t.toNat := by
  rw [absorbTrace]
  by_cases c : d.length ≤ 64
  · rw [if_pos c]
    refine ⟨by simp, ?_⟩
    intro x hx
    rw [List.mem_singleton.mp hx]
    simp only [BitVec.toNat_ofNat]
    rw [Nat.mod_eq_of_lt hd]
    omega
  · rw [if_neg c]
    obtain ⟨h1, h2⟩ := absorbTrace_counters (F h (blockWords (d.take 64)) (off + 64) false false) (off + 64)
      (d.drop 64) ln (by simp; omega)
    dsimp only
    rw [output_mk]
    have ht : (BitVec.ofNat 64 (off + 64)).toNat = off + 64 := by
      rw [BitVec.toNat_ofNat, Nat.mod_eq_of_lt (by omega)]
    rw [List.length_drop] at h2
    refine ⟨List.pairwise_cons.mpr ⟨fun x hx => ?_, h1⟩, fun x hx => ?_⟩
    · have := h2 x hx
      rw [ht]
      omega
    · rcases List.mem_cons.mp hx with rfl | hx
      · rw [ht]
        omega
      · have := h2 x hx
        omega
termination_by d.length
decreasing_by simp; omega

/-- The last output of one trace is handed on in another one. -/
theorem collide_of_passes {h h' g : Fin 8 → Word} {d d' : List Byte} {ln ln' : Bool}
    (hp : PassesThrough (absorbTrace h' 0 d' ln') g) (e : digestBytes (absorb h 0 d ln) 32 = digestBytes g 32) :
    Collide (absorbTrace h 0 d ln) (absorbTrace h' 0 d' ln') := by
  obtain ⟨before, x, y, after, e1, e2, _⟩ := hp
  obtain ⟨_, ⟨l, z, e3, e4, _, e5⟩, _⟩ := absorbTrace_shape h 0 d ln
  obtain ⟨_, _, h5⟩ := absorbTrace_shape h' 0 d' ln'
  obtain ⟨f, _⟩ := h5 before x y after e1
  refine ⟨z, by rw [e3]; simp, x, by rw [e1]; simp, ?_, ?_⟩
  · intro e
    rw [e, f] at e4
    cases e4
  · rw [e2, e5]
    exact digest32_inj e

end Spec
