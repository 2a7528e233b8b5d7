import Verif.Proofs.Undo
/-!
# C64: the rounds lose nothing

The rounds of RFC 7693 (`Spec.round`) and those of the four implementations in the crate, whatever the message words.
-/

namespace Blake2s

open X86

/-- **C64**: a round of the portable code can be undone. -/
theorem C64_portable (r : Fin 12) (m : Vector U32 16) : Undoable (Portable.round r m) := undoable_round r m

example : ∃ v w : Vector U32 16, v ≠ w ∧
    Portable.round 3 (Vector.replicate 16 7) v ≠ Portable.round 3 (Vector.replicate 16 7) w := by
  refine ⟨Vector.replicate 16 0, Vector.replicate 16 1, by decide, fun e => ?_⟩
  obtain ⟨undo, h, -⟩ := C64_portable 3 (Vector.replicate 16 7)
  have : Vector.replicate 16 (0 : U32) = Vector.replicate 16 1 := by rw [← h (Vector.replicate 16 0), e, h]
  exact absurd this (by decide)

/-- **C64**: each of the ten rounds written out in the SSE4.1 code can be undone, whatever the message vectors. -/
theorem C64_sse41 (m0 m1 m2 m3 : M128) :
    Undoable (Sse41.round1 m0 m1 m2 m3) ∧ Undoable (Sse41.round2 m0 m1 m2 m3) ∧
    Undoable (Sse41.round3 m0 m1 m2 m3) ∧ Undoable (Sse41.round4 m0 m1 m2 m3) ∧
    Undoable (Sse41.round5 m0 m1 m2 m3) ∧ Undoable (Sse41.round6 m0 m1 m2 m3) ∧
    Undoable (Sse41.round7 m0 m1 m2 m3) ∧ Undoable (Sse41.round8 m0 m1 m2 m3) ∧
    Undoable (Sse41.round9 m0 m1 m2 m3) ∧ Undoable (Sse41.round10 m0 m1 m2 m3) := by
  obtain ⟨m, hm⟩ := holds_words m0 m1 m2 m3
  exact ⟨undoable_rows (toV_round1 hm) (undoable_round _ m), undoable_rows (toV_round2 hm) (undoable_round _ m),
    undoable_rows (toV_round3 hm) (undoable_round _ m), undoable_rows (toV_round4 hm) (undoable_round _ m),
    undoable_rows (toV_round5 hm) (undoable_round _ m), undoable_rows (toV_round6 hm) (undoable_round _ m),
    undoable_rows (toV_round7 hm) (undoable_round _ m), undoable_rows (toV_round8 hm) (undoable_round _ m),
    undoable_rows (toV_round9 hm) (undoable_round _ m), undoable_rows (toV_round10 hm) (undoable_round _ m)⟩

example : Undoable (Sse41.round7 1 2 3 4) := (C64_sse41 1 2 3 4).2.2.2.2.2.2.1

/-- **C64**: a round of the four-way SSE4.1 code and of the eight-way AVX2 code can be undone. -/
theorem C64_many (r : Fin 12) (m : Vector M128 16) (m' : Vector M256 16) :
    Undoable (fun v => Sse41.round_4 v m r) ∧ Undoable (fun v => Avx2.blake2sRound8x v m' r) :=
  ⟨undoable_lanes (k := 4) (fun i => Portable.round r (m.map (lane 32 i.val)))
      (fun i v => lane_round_4 i.isLt v m r) (fun _ => undoable_round _ _),
    undoable_lanes (k := 8) (fun i => Portable.round r (m'.map (lane 32 i.val)))
      (fun i v => lane_round8x i.isLt v m' r) (fun _ => undoable_round _ _)⟩

example : Undoable (fun v => Avx2.blake2sRound8x v (Vector.replicate 16 5) 9) :=
  (C64_many 9 (Vector.replicate 16 0) (Vector.replicate 16 5)).2

/-- **C64**: the rounds of RFC 7693 can be undone, one by one and all ten together. -/
theorem C64_spec (m : Fin 16 → Spec.Word) :
    (∀ r, Undoable (fun v => Spec.round m v r)) ∧
    Undoable (fun v => (List.finRange 10).foldl (Spec.round m) v) := by
  have h : ∀ r, Undoable (fun v => Spec.round m v r) := fun r => by
    have e : toFn (Vector.ofFn m) = m := funext fun i => by simp [toFn]
    exact undoable_toFn (fun v => by rw [toFn_round, e]) (undoable_round ⟨r.val, by omega⟩ (Vector.ofFn m))
  refine ⟨h, ?_⟩
  simp only [foldl_rounds]
  exact (h 0).comp <| (h 1).comp <| (h 2).comp <| (h 3).comp <| (h 4).comp <| (h 5).comp <| (h 6).comp <|
    (h 7).comp <| (h 8).comp (h 9)

example : Undoable (fun v => Spec.round (fun i => BitVec.ofNat 32 i.val) v 4) :=
  (C64_spec fun i => BitVec.ofNat 32 i.val).1 4

/-- **C64**: every round of the crate's table uses every message word, and none of them twice. -/
theorem C64_schedule (r : Fin 12) :
    (∀ word : Fin 16, ∃ i : Fin 16, SIGMA[r][i] = word) ∧ ∀ i j : Fin 16, SIGMA[r][i] = SIGMA[r][j] → i = j := by
  revert r
  decide +kernel

example : ∃ i : Fin 16, SIGMA[(5 : Fin 12)][i] = 13 := (C64_schedule 5).1 13

end Blake2s
