import Verif.Proofs.Lanes
/-!
# The intrinsics in terms of 32-bit lanes
-/

namespace Blake2s.X86

/-! ## Lane-wise arithmetic -/

theorem lane_mm_add {i : Nat} (a b : M128) (h : i < 4) :
    lane 32 i (mm_add_epi32 a b) = lane 32 i a + lane 32 i b :=
  lane_pack (k := 4) _ h
theorem lane_mm256_add {i : Nat} (a b : M256) (h : i < 8) :
    lane 32 i (mm256_add_epi32 a b) = lane 32 i a + lane 32 i b :=
  lane_pack (k := 8) _ h
theorem lane_mm_srli {i n : Nat} (a : M128) (h : i < 4) :
    lane 32 i (mm_srli_epi32 a n) = lane 32 i a >>> n :=
  lane_pack (k := 4) _ h
theorem lane_mm_slli {i n : Nat} (a : M128) (h : i < 4) :
    lane 32 i (mm_slli_epi32 a n) = lane 32 i a <<< n :=
  lane_pack (k := 4) _ h
theorem lane_mm256_srli {i n : Nat} (a : M256) (h : i < 8) :
    lane 32 i (mm256_srli_epi32 a n) = lane 32 i a >>> n :=
  lane_pack (k := 8) _ h
theorem lane_mm256_slli {i n : Nat} (a : M256) (h : i < 8) :
    lane 32 i (mm256_slli_epi32 a n) = lane 32 i a <<< n :=
  lane_pack (k := 8) _ h
theorem lane_mm_set1 {i : Nat} (a : U32) (h : i < 4) : lane 32 i (mm_set1_epi32 a) = a :=
  lane_pack (k := 4) _ h
theorem lane_mm256_set1 {i : Nat} (a : U32) (h : i < 8) : lane 32 i (mm256_set1_epi32 a) = a :=
  lane_pack (k := 8) _ h

/-! ## Byte shuffles -/

theorem lane32_pack8_16 {i : Nat} (f : Nat → BitVec 8) (h : i < 4) :
    lane 32 i (pack 8 16 f) = f (4 * i + 3) ++ f (4 * i + 2) ++ f (4 * i + 1) ++ f (4 * i) := by
  have := lane_pack_narrow (w := 8) (m := 4) (k := 4) f h
  exact this.trans (pack4 _)
theorem lane32_pack8_32 {i : Nat} (f : Nat → BitVec 8) (h : i < 8) :
    lane 32 i (pack 8 32 f) = f (4 * i + 3) ++ f (4 * i + 2) ++ f (4 * i + 1) ++ f (4 * i) := by
  have := lane_pack_narrow (w := 8) (m := 4) (k := 8) f h
  exact this.trans (pack4 _)

/-- Byte `4*i+t` of a register is byte `t` of its 32-bit lane `i`. -/
theorem lane8_eq {n i t : Nat} (x : BitVec n) (h : t < 4) :
    lane 8 (4 * i + t) x = lane 8 t (lane 32 i x) :=
  (lane_lane (w := 8) (m := 4) x h).symm

theorem rot16_bytes (x : U32) :
    (lane 8 1 x ++ lane 8 0 x ++ lane 8 3 x ++ lane 8 2 x : BitVec 32) = x.rotateRight 16 := by
  apply BitVec.eq_of_getLsbD_eq
  intro b hb
  simp only [BitVec.getLsbD_append, getLsbD_lane, BitVec.getLsbD_rotateRight]
  rcases Nat.lt_or_ge b 8 with h | h
  · simp [h, show b < 16 by omega, show (16 + b) = 8 * 2 + b by omega]
  rcases Nat.lt_or_ge b 16 with h' | h'
  · simp [show ¬ b < 8 by omega, show b - 8 < 8 by omega, h',
      show 24 + (b - 8) = 16 + b by omega]
  rcases Nat.lt_or_ge b 24 with h'' | h''
  · simp [show ¬ b < 8 by omega, show ¬ b - 8 < 8 by omega, show b - 16 < 8 by omega,
      show ¬ b < 16 by omega, show b - 8 - 8 = b - 16 by omega, hb]
  · simp [show ¬ b < 8 by omega, show ¬ b - 8 < 8 by omega, show ¬ b - 8 - 8 < 8 by omega,
      show ¬ b < 16 by omega, show 8 + (b - 8 - 8 - 8) = b - 16 by omega, hb]
    omega

theorem rot8_bytes (x : U32) :
    (lane 8 0 x ++ lane 8 3 x ++ lane 8 2 x ++ lane 8 1 x : BitVec 32) = x.rotateRight 8 := by
  apply BitVec.eq_of_getLsbD_eq
  intro b hb
  simp only [BitVec.getLsbD_append, getLsbD_lane, BitVec.getLsbD_rotateRight]
  rcases Nat.lt_or_ge b 8 with h | h
  · simp [h, show b < 24 by omega]
  rcases Nat.lt_or_ge b 16 with h' | h'
  · simp [show ¬ b < 8 by omega, show b - 8 < 8 by omega, show b < 24 by omega,
      show 16 + (b - 8) = 8 + b by omega]
  rcases Nat.lt_or_ge b 24 with h'' | h''
  · simp [show ¬ b < 8 by omega, show ¬ b - 8 < 8 by omega, show b - 8 - 8 < 8 by omega,
      h'', show 24 + (b - 8 - 8) = 8 + b by omega]
  · simp [show ¬ b < 8 by omega, show ¬ b - 8 < 8 by omega, show ¬ b - 8 - 8 < 8 by omega,
      show ¬ b < 24 by omega, show b - 8 - 8 - 8 = b - 24 by omega, hb]
    omega

theorem rot_xor (x : U32) (r : Nat) (hr : r < 32) :
    (x >>> r) ^^^ (x <<< (32 - r)) = x.rotateRight r := by
  apply BitVec.eq_of_getLsbD_eq
  intro b hb
  simp only [BitVec.getLsbD_xor, BitVec.getLsbD_ushiftRight, BitVec.getLsbD_shiftLeft,
    BitVec.getLsbD_rotateRight, hb, decide_true, Bool.true_and, Nat.mod_eq_of_lt hr]
  by_cases h : b < 32 - r
  · simp [h]
  · have : x.getLsbD (r + b) = false := BitVec.getLsbD_of_ge _ _ (by omega)
    simp [h, this]

theorem rot_or (x : U32) (r : Nat) (hr : r < 32) :
    (x >>> r) ||| (x <<< (32 - r)) = x.rotateRight r := by
  apply BitVec.eq_of_getLsbD_eq
  intro b hb
  simp only [BitVec.getLsbD_or, BitVec.getLsbD_ushiftRight, BitVec.getLsbD_shiftLeft,
    BitVec.getLsbD_rotateRight, hb, decide_true, Bool.true_and, Nat.mod_eq_of_lt hr]
  by_cases h : b < 32 - r
  · simp [h]
  · have : x.getLsbD (r + b) = false := BitVec.getLsbD_of_ge _ _ (by omega)
    simp [h, this]

end Blake2s.X86
