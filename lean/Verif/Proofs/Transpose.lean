import Verif.Proofs.Rounds
/-!
# Transpositions, message loading, and the 4-way and 8-way compressions lane by lane
-/

namespace Blake2s

open X86

/-! ## 32-bit lanes of the unpack instructions -/

theorem lane_unpacklo32 (a b : M128) :
    lane 32 0 (mm_unpacklo_epi32 a b) = lane 32 0 a ∧ lane 32 1 (mm_unpacklo_epi32 a b) = lane 32 0 b ∧
    lane 32 2 (mm_unpacklo_epi32 a b) = lane 32 1 a ∧ lane 32 3 (mm_unpacklo_epi32 a b) = lane 32 1 b :=
  ⟨lane_pack (k := 4) _ (by decide), lane_pack (k := 4) _ (by decide),
   lane_pack (k := 4) _ (by decide), lane_pack (k := 4) _ (by decide)⟩

theorem lane_unpackhi32 (a b : M128) :
    lane 32 0 (mm_unpackhi_epi32 a b) = lane 32 2 a ∧ lane 32 1 (mm_unpackhi_epi32 a b) = lane 32 2 b ∧
    lane 32 2 (mm_unpackhi_epi32 a b) = lane 32 3 a ∧ lane 32 3 (mm_unpackhi_epi32 a b) = lane 32 3 b :=
  ⟨lane_pack (k := 4) _ (by decide), lane_pack (k := 4) _ (by decide),
   lane_pack (k := 4) _ (by decide), lane_pack (k := 4) _ (by decide)⟩

theorem lane_unpacklo64 (a b : M128) :
    lane 32 0 (mm_unpacklo_epi64 a b) = lane 32 0 a ∧ lane 32 1 (mm_unpacklo_epi64 a b) = lane 32 1 a ∧
    lane 32 2 (mm_unpacklo_epi64 a b) = lane 32 0 b ∧ lane 32 3 (mm_unpacklo_epi64 a b) = lane 32 1 b := by
  refine ⟨?_, ?_, ?_, ?_⟩
  · exact (lane_pack_wide (w := 32) (m := 2) (k := 2) _ (by decide)).trans
      (lane_lane (w := 32) (m := 2) _ (by decide))
  · exact (lane_pack_wide (w := 32) (m := 2) (k := 2) _ (by decide)).trans
      (lane_lane (w := 32) (m := 2) _ (by decide))
  · exact (lane_pack_wide (w := 32) (m := 2) (k := 2) _ (by decide)).trans
      (lane_lane (w := 32) (m := 2) _ (by decide))
  · exact (lane_pack_wide (w := 32) (m := 2) (k := 2) _ (by decide)).trans
      (lane_lane (w := 32) (m := 2) _ (by decide))

theorem lane_unpackhi64 (a b : M128) :
    lane 32 0 (mm_unpackhi_epi64 a b) = lane 32 2 a ∧ lane 32 1 (mm_unpackhi_epi64 a b) = lane 32 3 a ∧
    lane 32 2 (mm_unpackhi_epi64 a b) = lane 32 2 b ∧ lane 32 3 (mm_unpackhi_epi64 a b) = lane 32 3 b := by
  refine ⟨?_, ?_, ?_, ?_⟩
  · exact (lane_pack_wide (w := 32) (m := 2) (k := 2) _ (by decide)).trans
      (lane_lane (w := 32) (m := 2) _ (by decide))
  · exact (lane_pack_wide (w := 32) (m := 2) (k := 2) _ (by decide)).trans
      (lane_lane (w := 32) (m := 2) _ (by decide))
  · exact (lane_pack_wide (w := 32) (m := 2) (k := 2) _ (by decide)).trans
      (lane_lane (w := 32) (m := 2) _ (by decide))
  · exact (lane_pack_wide (w := 32) (m := 2) (k := 2) _ (by decide)).trans
      (lane_lane (w := 32) (m := 2) _ (by decide))

/-- A 32-bit lane of a 256-bit register made of two 128-bit halves. -/
theorem lane_halves {i : Nat} (f : Nat → M128) (h : i < 8) :
    lane 32 i (pack 128 2 f) = lane 32 (i % 4) (f (i / 4)) :=
  lane_pack_wide (w := 32) (m := 4) (k := 2) f h

theorem lane_half {i j : Nat} (x : M256) (h : i < 4) :
    lane 32 i (lane 128 j x) = lane 32 (4 * j + i) x :=
  lane_lane (w := 32) (m := 4) x h

/-! ## 4-way -/

/-- Lane `i` of vector `j` of a transposition is lane `j` of vector `i`. -/
theorem sse_transpose (v : Vector M128 4) (i j : Nat) (hi : i < 4) (hj : j < 4) :
    lane 32 i (Sse41.transposeVecs v[0] v[1] v[2] v[3])[j] = lane 32 j v[i] := by
  have hi' : i = 0 ∨ i = 1 ∨ i = 2 ∨ i = 3 := by omega
  have hj' : j = 0 ∨ j = 1 ∨ j = 2 ∨ j = 3 := by omega
  rcases hi' with rfl | rfl | rfl | rfl <;> rcases hj' with rfl | rfl | rfl | rfl <;>
    simp [Sse41.transposeVecs, lane_unpacklo32, lane_unpackhi32, lane_unpacklo64, lane_unpackhi64]

/-! ## 8-way -/

theorem lane_permute20 (a b : M256) {i : Nat} (h : i < 8) :
    lane 32 i (mm256_permute2x128_si256 a b 32#8) =
      if i < 4 then lane 32 i a else lane 32 (i - 4) b := by
  rw [mm256_permute2x128_si256, lane_halves _ h]
  have hi : i = 0 ∨ i = 1 ∨ i = 2 ∨ i = 3 ∨ i = 4 ∨ i = 5 ∨ i = 6 ∨ i = 7 := by omega
  rcases hi with rfl | rfl | rfl | rfl | rfl | rfl | rfl | rfl <;>
    simp [select4, lane_half]

theorem lane_permute31 (a b : M256) {i : Nat} (h : i < 8) :
    lane 32 i (mm256_permute2x128_si256 a b 49#8) =
      if i < 4 then lane 32 (i + 4) a else lane 32 i b := by
  rw [mm256_permute2x128_si256, lane_halves _ h]
  have hi : i = 0 ∨ i = 1 ∨ i = 2 ∨ i = 3 ∨ i = 4 ∨ i = 5 ∨ i = 6 ∨ i = 7 := by omega
  rcases hi with rfl | rfl | rfl | rfl | rfl | rfl | rfl | rfl <;>
    simp [select4, lane_half]

theorem lane_mm256_unpacklo_epi32 (a b : M256) {i : Nat} (h : i < 8) :
    lane 32 i (mm256_unpacklo_epi32 a b) =
      lane 32 (i % 4) (mm_unpacklo_epi32 (lane 128 (i / 4) a) (lane 128 (i / 4) b)) :=
  lane_halves _ h

theorem lane_mm256_unpackhi_epi32 (a b : M256) {i : Nat} (h : i < 8) :
    lane 32 i (mm256_unpackhi_epi32 a b) =
      lane 32 (i % 4) (mm_unpackhi_epi32 (lane 128 (i / 4) a) (lane 128 (i / 4) b)) :=
  lane_halves _ h

theorem lane_mm256_unpacklo_epi64 (a b : M256) {i : Nat} (h : i < 8) :
    lane 32 i (mm256_unpacklo_epi64 a b) =
      lane 32 (i % 4) (mm_unpacklo_epi64 (lane 128 (i / 4) a) (lane 128 (i / 4) b)) :=
  lane_halves _ h

theorem lane_mm256_unpackhi_epi64 (a b : M256) {i : Nat} (h : i < 8) :
    lane 32 i (mm256_unpackhi_epi64 a b) =
      lane 32 (i % 4) (mm_unpackhi_epi64 (lane 128 (i / 4) a) (lane 128 (i / 4) b)) :=
  lane_halves _ h

theorem avx_transpose (v : Vector M256 8) (i j : Nat) (hi : i < 8) (hj : j < 8) :
    lane 32 i (Avx2.transposeVecs v)[j] = lane 32 j v[i] := by
  have hi' : i = 0 ∨ i = 1 ∨ i = 2 ∨ i = 3 ∨ i = 4 ∨ i = 5 ∨ i = 6 ∨ i = 7 := by omega
  have hj' : j = 0 ∨ j = 1 ∨ j = 2 ∨ j = 3 ∨ j = 4 ∨ j = 5 ∨ j = 6 ∨ j = 7 := by omega
  rcases hi' with rfl | rfl | rfl | rfl | rfl | rfl | rfl | rfl <;>
  rcases hj' with rfl | rfl | rfl | rfl | rfl | rfl | rfl | rfl <;>
    simp [Avx2.transposeVecs, Avx2.interleave128, lane_permute20, lane_permute31,
      lane_mm256_unpacklo_epi32, lane_mm256_unpackhi_epi32, lane_mm256_unpacklo_epi64,
      lane_mm256_unpackhi_epi64, lane_half,
      lane_unpacklo32, lane_unpackhi32, lane_unpacklo64, lane_unpackhi64]

end Blake2s
