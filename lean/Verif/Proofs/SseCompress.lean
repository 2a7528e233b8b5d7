import Verif.Proofs.Ways
/-!
# The SSE4.1 single-block compression equals the portable one
-/

namespace Blake2s

open X86

/-! ## Lanes of the shuffles used to permute the message -/

theorem lane_blend {i : Nat} (a b : M128) (imm : BitVec 8) (hi : i < 4)
    (h : imm.getLsbD (2 * i) = imm.getLsbD (2 * i + 1)) :
    lane 32 i (mm_blend_epi16 a b imm) = if imm.getLsbD (2 * i) then lane 32 i b else lane 32 i a := by
  have h1 : lane 32 i (mm_blend_epi16 a b imm) =
      pack 16 2 (fun j => if imm.getLsbD (2 * i + j) then lane 16 (2 * i + j) b
        else lane 16 (2 * i + j) a) :=
    lane_pack_narrow (w := 16) (m := 2) (k := 4) _ hi
  rw [h1]
  by_cases hb : imm.getLsbD (2 * i) = true
  · rw [if_pos hb, ← pack_lane (w := 16) (m := 2) b]
    simp only [pack, Nat.add_zero, hb, ← h, if_true]
  · rw [if_neg hb, ← pack_lane (w := 16) (m := 2) a]
    simp only [pack, Nat.add_zero, hb, ← h]
    rfl

theorem lane_shuffle32 {i : Nat} (a : M128) (imm : BitVec 8) (hi : i < 4) :
    lane 32 i (mm_shuffle_epi32 a imm) = lane 32 (imm2 imm i) a := lane_pack (k := 4) _ hi

theorem lane_shuffle_ps (a b : M128) (imm : BitVec 8) :
    lane 32 0 (mm_shuffle_ps a b imm) = lane 32 (imm2 imm 0) a ∧
    lane 32 1 (mm_shuffle_ps a b imm) = lane 32 (imm2 imm 1) a ∧
    lane 32 2 (mm_shuffle_ps a b imm) = lane 32 (imm2 imm 2) b ∧
    lane 32 3 (mm_shuffle_ps a b imm) = lane 32 (imm2 imm 3) b :=
  ⟨lane_pack (k := 4) _ (by decide), lane_pack (k := 4) _ (by decide),
   lane_pack (k := 4) _ (by decide), lane_pack (k := 4) _ (by decide)⟩

theorem lane_shufflehi_low {i : Nat} (a : M128) (imm : BitVec 8) (hi : i < 2) :
    lane 32 i (mm_shufflehi_epi16 a imm) = lane 32 i a := by
  have h1 : lane 32 i (mm_shufflehi_epi16 a imm) =
      pack 16 2 (fun j => if 2 * i + j < 4 then lane 16 (2 * i + j) a
        else lane 16 (4 + imm2 imm (2 * i + j - 4)) a) :=
    lane_pack_narrow (w := 16) (m := 2) (k := 4) _ (by omega)
  rw [h1, ← pack_lane (w := 16) (m := 2) a]
  simp only [pack, show 2 * i + 0 < 4 by omega, show 2 * i + 1 < 4 by omega, if_true]

theorem lane_shufflehi_swap (a : M128) :
    lane 32 2 (mm_shufflehi_epi16 a (MM_SHUFFLE 1#8 0#8 3#8 2#8)) = lane 32 3 a ∧
    lane 32 3 (mm_shufflehi_epi16 a (MM_SHUFFLE 1#8 0#8 3#8 2#8)) = lane 32 2 a := by
  constructor
  · have h1 := lane_pack_narrow (w := 16) (m := 2) (k := 4) (i := 2)
      (fun i => if i < 4 then lane 16 i a else lane 16 (4 + imm2 (MM_SHUFFLE 1#8 0#8 3#8 2#8) (i - 4)) a)
      (by decide)
    refine h1.trans ?_
    rw [← pack_lane (w := 16) (m := 2) a]
    simp [pack, imm2, MM_SHUFFLE]
  · have h1 := lane_pack_narrow (w := 16) (m := 2) (k := 4) (i := 3)
      (fun i => if i < 4 then lane 16 i a else lane 16 (4 + imm2 (MM_SHUFFLE 1#8 0#8 3#8 2#8) (i - 4)) a)
      (by decide)
    refine h1.trans ?_
    rw [← pack_lane (w := 16) (m := 2) a]
    simp [pack, imm2, MM_SHUFFLE]

theorem lane_slli4 (a : M128) :
    lane 32 0 (mm_slli_si128 a 4) = 0 ∧ lane 32 1 (mm_slli_si128 a 4) = lane 32 0 a ∧
    lane 32 2 (mm_slli_si128 a 4) = lane 32 1 a ∧ lane 32 3 (mm_slli_si128 a 4) = lane 32 2 a :=
  ⟨lane_shl (q := 1) a (by decide), lane_shl (q := 1) a (by decide),
   lane_shl (q := 1) a (by decide), lane_shl (q := 1) a (by decide)⟩

theorem lane_slli8 (a : M128) :
    lane 32 0 (mm_slli_si128 a 8) = 0 ∧ lane 32 1 (mm_slli_si128 a 8) = 0 ∧
    lane 32 2 (mm_slli_si128 a 8) = lane 32 0 a ∧ lane 32 3 (mm_slli_si128 a 8) = lane 32 1 a :=
  ⟨lane_shl (q := 2) a (by decide), lane_shl (q := 2) a (by decide),
   lane_shl (q := 2) a (by decide), lane_shl (q := 2) a (by decide)⟩

theorem lane_slli12 (a : M128) :
    lane 32 0 (mm_slli_si128 a 12) = 0 ∧ lane 32 1 (mm_slli_si128 a 12) = 0 ∧
    lane 32 2 (mm_slli_si128 a 12) = 0 ∧ lane 32 3 (mm_slli_si128 a 12) = lane 32 0 a :=
  ⟨lane_shl (q := 3) a (by decide), lane_shl (q := 3) a (by decide),
   lane_shl (q := 3) a (by decide), lane_shl (q := 3) a (by decide)⟩

theorem lane_srli4 (a : M128) :
    lane 32 0 (mm_srli_si128 a 4) = lane 32 1 a ∧ lane 32 1 (mm_srli_si128 a 4) = lane 32 2 a ∧
    lane 32 2 (mm_srli_si128 a 4) = lane 32 3 a :=
  ⟨lane_shr (q := 1) a, lane_shr (q := 1) a, lane_shr (q := 1) a⟩

theorem lane_srli12 (a : M128) : lane 32 0 (mm_srli_si128 a 12) = lane 32 3 a :=
  lane_shr (q := 3) a

/-! ## Rows -/

/-- Lane `i` of the four rows. -/
def quad (i : Nat) (r : Sse41.Rows) : Quad U32 :=
  ⟨lane 32 i r.row1, lane 32 i r.row2, lane 32 i r.row3, lane 32 i r.row4⟩

theorem quad_g1 {i : Nat} (h : i < 4) (r : Sse41.Rows) (m : M128) :
    quad i (Sse41.g1 r m) = u32.g1 (quad i r) (lane 32 i m) := by
  have H := sse_hom h
  have e : Sse41.g1 r m = ⟨(sse.g1 ⟨r.row1, r.row2, r.row3, r.row4⟩ m).a,
    (sse.g1 ⟨r.row1, r.row2, r.row3, r.row4⟩ m).b, (sse.g1 ⟨r.row1, r.row2, r.row3, r.row4⟩ m).c,
    (sse.g1 ⟨r.row1, r.row2, r.row3, r.row4⟩ m).d⟩ := rfl
  rw [e]
  simp only [quad, Alg.g1, H.add, H.xor, H.r16, H.r12]

theorem quad_g2 {i : Nat} (h : i < 4) (r : Sse41.Rows) (m : M128) :
    quad i (Sse41.g2 r m) = u32.g2 (quad i r) (lane 32 i m) := by
  have H := sse_hom h
  have e : Sse41.g2 r m = ⟨(sse.g2 ⟨r.row1, r.row2, r.row3, r.row4⟩ m).a,
    (sse.g2 ⟨r.row1, r.row2, r.row3, r.row4⟩ m).b, (sse.g2 ⟨r.row1, r.row2, r.row3, r.row4⟩ m).c,
    (sse.g2 ⟨r.row1, r.row2, r.row3, r.row4⟩ m).d⟩ := rfl
  rw [e]
  simp only [quad, Alg.g2, H.add, H.xor, H.r8, H.r7]

/-- The sixteen words held by four quads (columns). -/
def ofQuads (q0 q1 q2 q3 : Quad U32) : Vector U32 16 :=
  #v[q0.a, q1.a, q2.a, q3.a, q0.b, q1.b, q2.b, q3.b, q0.c, q1.c, q2.c, q3.c, q0.d, q1.d, q2.d, q3.d]

/-- The working vector held in the four rows. -/
def toV (r : Sse41.Rows) : Vector U32 16 := ofQuads (quad 0 r) (quad 1 r) (quad 2 r) (quad 3 r)

/-- The shape common to the ten rounds. -/
def genRound (b1 b2 b3 b4 : M128) (row : Sse41.Rows) : Sse41.Rows :=
  Sse41.undiagonalize (Sse41.g2 (Sse41.g1 (Sse41.diagonalize (Sse41.g2 (Sse41.g1 row b1) b2)) b3) b4)

theorem quad_diagonalize (r : Sse41.Rows) :
    quad 0 (Sse41.diagonalize r) = ⟨(quad 0 r).a, (quad 1 r).b, (quad 2 r).c, (quad 3 r).d⟩ ∧
    quad 1 (Sse41.diagonalize r) = ⟨(quad 1 r).a, (quad 2 r).b, (quad 3 r).c, (quad 0 r).d⟩ ∧
    quad 2 (Sse41.diagonalize r) = ⟨(quad 2 r).a, (quad 3 r).b, (quad 0 r).c, (quad 1 r).d⟩ ∧
    quad 3 (Sse41.diagonalize r) = ⟨(quad 3 r).a, (quad 0 r).b, (quad 1 r).c, (quad 2 r).d⟩ := by
  refine ⟨?_, ?_, ?_, ?_⟩ <;> simp [quad, Sse41.diagonalize, lane_shuffle32, MM_SHUFFLE, imm2]

theorem quad_undiagonalize (r : Sse41.Rows) :
    quad 0 (Sse41.undiagonalize r) = ⟨(quad 0 r).a, (quad 3 r).b, (quad 2 r).c, (quad 1 r).d⟩ ∧
    quad 1 (Sse41.undiagonalize r) = ⟨(quad 1 r).a, (quad 0 r).b, (quad 3 r).c, (quad 2 r).d⟩ ∧
    quad 2 (Sse41.undiagonalize r) = ⟨(quad 2 r).a, (quad 1 r).b, (quad 0 r).c, (quad 3 r).d⟩ ∧
    quad 3 (Sse41.undiagonalize r) = ⟨(quad 3 r).a, (quad 2 r).b, (quad 1 r).c, (quad 0 r).d⟩ := by
  refine ⟨?_, ?_, ?_, ?_⟩ <;> simp [quad, Sse41.undiagonalize, lane_shuffle32, MM_SHUFFLE, imm2]

theorem toV_genRound (b1 b2 b3 b4 : M128) (row : Sse41.Rows) (s : Fin 16 → U32)
    (h1 : lane 32 0 b1 = s 0 ∧ lane 32 1 b1 = s 2 ∧ lane 32 2 b1 = s 4 ∧ lane 32 3 b1 = s 6)
    (h2 : lane 32 0 b2 = s 1 ∧ lane 32 1 b2 = s 3 ∧ lane 32 2 b2 = s 5 ∧ lane 32 3 b2 = s 7)
    (h3 : lane 32 0 b3 = s 8 ∧ lane 32 1 b3 = s 10 ∧ lane 32 2 b3 = s 12 ∧ lane 32 3 b3 = s 14)
    (h4 : lane 32 0 b4 = s 9 ∧ lane 32 1 b4 = s 11 ∧ lane 32 2 b4 = s 13 ∧ lane 32 3 b4 = s 15) :
    toV (genRound b1 b2 b3 b4 row) = u32.round (toV row) s := by
  have hg : ∀ {i : Nat} (h : i < 4) (r : Sse41.Rows) (x y : M128),
      quad i (Sse41.g2 (Sse41.g1 r x) y) = u32.G (quad i r).a (quad i r).b (quad i r).c (quad i r).d
        (lane 32 i x) (lane 32 i y) := by
    intro i h r x y
    rw [quad_g2 h, quad_g1 h, Alg.G]
  simp only [toV, genRound, quad_undiagonalize, hg (show 0 < 4 by decide), hg (show 1 < 4 by decide),
    hg (show 2 < 4 by decide), hg (show 3 < 4 by decide), quad_diagonalize, h1, h2, h3, h4]
  rfl

/-! ## The ten rounds -/

set_option linter.unusedSimpArgs false

/-- `m0` … `m3` hold the sixteen message words `m`. -/
structure Holds (m : Vector U32 16) (m0 m1 m2 m3 : M128) : Prop where
  l0 : lane 32 0 m0 = m[0] ∧ lane 32 1 m0 = m[1] ∧ lane 32 2 m0 = m[2] ∧ lane 32 3 m0 = m[3]
  l1 : lane 32 0 m1 = m[4] ∧ lane 32 1 m1 = m[5] ∧ lane 32 2 m1 = m[6] ∧ lane 32 3 m1 = m[7]
  l2 : lane 32 0 m2 = m[8] ∧ lane 32 1 m2 = m[9] ∧ lane 32 2 m2 = m[10] ∧ lane 32 3 m2 = m[11]
  l3 : lane 32 0 m3 = m[12] ∧ lane 32 1 m3 = m[13] ∧ lane 32 2 m3 = m[14] ∧ lane 32 3 m3 = m[15]

theorem imm2_shuffle (z y x w : BitVec 8) (hz : z < 4) (hy : y < 4) (hx : x < 4) (hw : w < 4) :
    imm2 (MM_SHUFFLE z y x w) 0 = w.toNat ∧ imm2 (MM_SHUFFLE z y x w) 1 = x.toNat ∧
    imm2 (MM_SHUFFLE z y x w) 2 = y.toNat ∧ imm2 (MM_SHUFFLE z y x w) 3 = z.toNat := by
  have hz : z = 0 ∨ z = 1 ∨ z = 2 ∨ z = 3 := by bv_omega
  have hy : y = 0 ∨ y = 1 ∨ y = 2 ∨ y = 3 := by bv_omega
  have hx : x = 0 ∨ x = 1 ∨ x = 2 ∨ x = 3 := by bv_omega
  have hw : w = 0 ∨ w = 1 ∨ w = 2 ∨ w = 3 := by bv_omega
  rcases hz with rfl | rfl | rfl | rfl <;> rcases hy with rfl | rfl | rfl | rfl <;>
    rcases hx with rfl | rfl | rfl | rfl <;> rcases hw with rfl | rfl | rfl | rfl <;> decide

theorem toV_round1 {m : Vector U32 16} {m0 m1 m2 m3 : M128} (hm : Holds m m0 m1 m2 m3)
    (row : Sse41.Rows) : toV (Sse41.round1 m0 m1 m2 m3 row) = Portable.round 0 m (toV row) := by
  rw [portable_round_eq]
  refine toV_genRound _ _ _ _ row _ ?_ ?_ ?_ ?_ <;>
    simp [lane_blend, lane_shuffle32, lane_shuffle_ps, lane_shufflehi_low, lane_shufflehi_swap,
      lane_slli4, lane_slli8, lane_slli12, lane_srli4, lane_srli12, lane_unpacklo32, lane_unpackhi32,
      lane_unpacklo64, lane_unpackhi64, imm2_shuffle, hm.l0, hm.l1, hm.l2, hm.l3] <;>
    exact ⟨rfl, rfl, rfl, rfl⟩

theorem toV_round2 {m : Vector U32 16} {m0 m1 m2 m3 : M128} (hm : Holds m m0 m1 m2 m3)
    (row : Sse41.Rows) : toV (Sse41.round2 m0 m1 m2 m3 row) = Portable.round 1 m (toV row) := by
  rw [portable_round_eq]
  refine toV_genRound _ _ _ _ row _ ?_ ?_ ?_ ?_ <;>
    simp [lane_blend, lane_shuffle32, lane_shuffle_ps, lane_shufflehi_low, lane_shufflehi_swap,
      lane_slli4, lane_slli8, lane_slli12, lane_srli4, lane_srli12, lane_unpacklo32, lane_unpackhi32,
      lane_unpacklo64, lane_unpackhi64, imm2_shuffle, hm.l0, hm.l1, hm.l2, hm.l3] <;>
    exact ⟨rfl, rfl, rfl, rfl⟩

theorem toV_round3 {m : Vector U32 16} {m0 m1 m2 m3 : M128} (hm : Holds m m0 m1 m2 m3)
    (row : Sse41.Rows) : toV (Sse41.round3 m0 m1 m2 m3 row) = Portable.round 2 m (toV row) := by
  rw [portable_round_eq]
  refine toV_genRound _ _ _ _ row _ ?_ ?_ ?_ ?_ <;>
    simp [lane_blend, lane_shuffle32, lane_shuffle_ps, lane_shufflehi_low, lane_shufflehi_swap,
      lane_slli4, lane_slli8, lane_slli12, lane_srli4, lane_srli12, lane_unpacklo32, lane_unpackhi32,
      lane_unpacklo64, lane_unpackhi64, imm2_shuffle, hm.l0, hm.l1, hm.l2, hm.l3] <;>
    exact ⟨rfl, rfl, rfl, rfl⟩

theorem toV_round4 {m : Vector U32 16} {m0 m1 m2 m3 : M128} (hm : Holds m m0 m1 m2 m3)
    (row : Sse41.Rows) : toV (Sse41.round4 m0 m1 m2 m3 row) = Portable.round 3 m (toV row) := by
  rw [portable_round_eq]
  refine toV_genRound _ _ _ _ row _ ?_ ?_ ?_ ?_ <;>
    simp [lane_blend, lane_shuffle32, lane_shuffle_ps, lane_shufflehi_low, lane_shufflehi_swap,
      lane_slli4, lane_slli8, lane_slli12, lane_srli4, lane_srli12, lane_unpacklo32, lane_unpackhi32,
      lane_unpacklo64, lane_unpackhi64, imm2_shuffle, hm.l0, hm.l1, hm.l2, hm.l3] <;>
    exact ⟨rfl, rfl, rfl, rfl⟩

theorem toV_round5 {m : Vector U32 16} {m0 m1 m2 m3 : M128} (hm : Holds m m0 m1 m2 m3)
    (row : Sse41.Rows) : toV (Sse41.round5 m0 m1 m2 m3 row) = Portable.round 4 m (toV row) := by
  rw [portable_round_eq]
  refine toV_genRound _ _ _ _ row _ ?_ ?_ ?_ ?_ <;>
    simp [lane_blend, lane_shuffle32, lane_shuffle_ps, lane_shufflehi_low, lane_shufflehi_swap,
      lane_slli4, lane_slli8, lane_slli12, lane_srli4, lane_srli12, lane_unpacklo32, lane_unpackhi32,
      lane_unpacklo64, lane_unpackhi64, imm2_shuffle, hm.l0, hm.l1, hm.l2, hm.l3] <;>
    exact ⟨rfl, rfl, rfl, rfl⟩

theorem toV_round6 {m : Vector U32 16} {m0 m1 m2 m3 : M128} (hm : Holds m m0 m1 m2 m3)
    (row : Sse41.Rows) : toV (Sse41.round6 m0 m1 m2 m3 row) = Portable.round 5 m (toV row) := by
  rw [portable_round_eq]
  refine toV_genRound _ _ _ _ row _ ?_ ?_ ?_ ?_ <;>
    simp [lane_blend, lane_shuffle32, lane_shuffle_ps, lane_shufflehi_low, lane_shufflehi_swap,
      lane_slli4, lane_slli8, lane_slli12, lane_srli4, lane_srli12, lane_unpacklo32, lane_unpackhi32,
      lane_unpacklo64, lane_unpackhi64, imm2_shuffle, hm.l0, hm.l1, hm.l2, hm.l3] <;>
    exact ⟨rfl, rfl, rfl, rfl⟩

theorem toV_round7 {m : Vector U32 16} {m0 m1 m2 m3 : M128} (hm : Holds m m0 m1 m2 m3)
    (row : Sse41.Rows) : toV (Sse41.round7 m0 m1 m2 m3 row) = Portable.round 6 m (toV row) := by
  rw [portable_round_eq]
  refine toV_genRound _ _ _ _ row _ ?_ ?_ ?_ ?_ <;>
    simp [lane_blend, lane_shuffle32, lane_shuffle_ps, lane_shufflehi_low, lane_shufflehi_swap,
      lane_slli4, lane_slli8, lane_slli12, lane_srli4, lane_srli12, lane_unpacklo32, lane_unpackhi32,
      lane_unpacklo64, lane_unpackhi64, imm2_shuffle, hm.l0, hm.l1, hm.l2, hm.l3] <;>
    exact ⟨rfl, rfl, rfl, rfl⟩

theorem toV_round8 {m : Vector U32 16} {m0 m1 m2 m3 : M128} (hm : Holds m m0 m1 m2 m3)
    (row : Sse41.Rows) : toV (Sse41.round8 m0 m1 m2 m3 row) = Portable.round 7 m (toV row) := by
  rw [portable_round_eq]
  refine toV_genRound _ _ _ _ row _ ?_ ?_ ?_ ?_ <;>
    simp [lane_blend, lane_shuffle32, lane_shuffle_ps, lane_shufflehi_low, lane_shufflehi_swap,
      lane_slli4, lane_slli8, lane_slli12, lane_srli4, lane_srli12, lane_unpacklo32, lane_unpackhi32,
      lane_unpacklo64, lane_unpackhi64, imm2_shuffle, hm.l0, hm.l1, hm.l2, hm.l3] <;>
    exact ⟨rfl, rfl, rfl, rfl⟩

theorem toV_round9 {m : Vector U32 16} {m0 m1 m2 m3 : M128} (hm : Holds m m0 m1 m2 m3)
    (row : Sse41.Rows) : toV (Sse41.round9 m0 m1 m2 m3 row) = Portable.round 8 m (toV row) := by
  rw [portable_round_eq]
  refine toV_genRound _ _ _ _ row _ ?_ ?_ ?_ ?_ <;>
    simp [lane_blend, lane_shuffle32, lane_shuffle_ps, lane_shufflehi_low, lane_shufflehi_swap,
      lane_slli4, lane_slli8, lane_slli12, lane_srli4, lane_srli12, lane_unpacklo32, lane_unpackhi32,
      lane_unpacklo64, lane_unpackhi64, imm2_shuffle, hm.l0, hm.l1, hm.l2, hm.l3] <;>
    exact ⟨rfl, rfl, rfl, rfl⟩

theorem toV_round10 {m : Vector U32 16} {m0 m1 m2 m3 : M128} (hm : Holds m m0 m1 m2 m3)
    (row : Sse41.Rows) : toV (Sse41.round10 m0 m1 m2 m3 row) = Portable.round 9 m (toV row) := by
  rw [portable_round_eq]
  refine toV_genRound _ _ _ _ row _ ?_ ?_ ?_ ?_ <;>
    simp [lane_blend, lane_shuffle32, lane_shuffle_ps, lane_shufflehi_low, lane_shufflehi_swap,
      lane_slli4, lane_slli8, lane_slli12, lane_srli4, lane_srli12, lane_unpacklo32, lane_unpackhi32,
      lane_unpacklo64, lane_unpackhi64, imm2_shuffle, hm.l0, hm.l1, hm.l2, hm.l3] <;>
    exact ⟨rfl, rfl, rfl, rfl⟩

/-! ## The compression function -/

theorem lane_words (a b c d : U32) :
    lane 32 0 (mm_loadu_words a b c d) = a ∧ lane 32 1 (mm_loadu_words a b c d) = b ∧
    lane 32 2 (mm_loadu_words a b c d) = c ∧ lane 32 3 (mm_loadu_words a b c d) = d :=
  ⟨lane_pack (k := 4) _ (by decide), lane_pack (k := 4) _ (by decide),
   lane_pack (k := 4) _ (by decide), lane_pack (k := 4) _ (by decide)⟩

theorem lane_setr (a b c d : U32) :
    lane 32 0 (Sse41.setr a b c d) = a ∧ lane 32 1 (Sse41.setr a b c d) = b ∧
    lane 32 2 (Sse41.setr a b c d) = c ∧ lane 32 3 (Sse41.setr a b c d) = d := by
  unfold Sse41.setr
  exact lane_words a b c d

theorem holds_block (msg : Block) : Holds (Portable.msgWords msg)
    (mm_loadu_bytes (subArray msg 0 16)) (mm_loadu_bytes (subArray msg 16 16))
    (mm_loadu_bytes (subArray msg 32 16)) (mm_loadu_bytes (subArray msg 48 16)) := by
  constructor
  · refine ⟨?_, ?_, ?_, ?_⟩ <;> rw [msgWords_get, lane_mm_loadu_block msg 0 _ (by decide) (by decide)]
  · refine ⟨?_, ?_, ?_, ?_⟩ <;> rw [msgWords_get, lane_mm_loadu_block msg 1 _ (by decide) (by decide)]
  · refine ⟨?_, ?_, ?_, ?_⟩ <;> rw [msgWords_get, lane_mm_loadu_block msg 2 _ (by decide) (by decide)]
  · refine ⟨?_, ?_, ?_, ?_⟩ <;> rw [msgWords_get, lane_mm_loadu_block msg 3 _ (by decide) (by decide)]

/-- Rows before the first round. -/
def initRows (h : StateWords) (c0 c1 lb ln : U32) : Sse41.Rows :=
  ⟨mm_loadu_words h[0] h[1] h[2] h[3], mm_loadu_words h[4] h[5] h[6] h[7],
   mm_loadu_words IV[0] IV[1] IV[2] IV[3],
   Sse41.xor (mm_loadu_words IV[4] IV[5] IV[6] IV[7]) (Sse41.setr c0 c1 lb ln)⟩

/-- Ten rounds. -/
def sseRounds (m0 m1 m2 m3 : M128) (row : Sse41.Rows) : Sse41.Rows :=
  Sse41.round10 m0 m1 m2 m3 (Sse41.round9 m0 m1 m2 m3 (Sse41.round8 m0 m1 m2 m3
    (Sse41.round7 m0 m1 m2 m3 (Sse41.round6 m0 m1 m2 m3 (Sse41.round5 m0 m1 m2 m3
      (Sse41.round4 m0 m1 m2 m3 (Sse41.round3 m0 m1 m2 m3 (Sse41.round2 m0 m1 m2 m3
        (Sse41.round1 m0 m1 m2 m3 row)))))))))

/-- Feed-forward and store. -/
def finRows (h : StateWords) (row : Sse41.Rows) : StateWords :=
  mm_storeu_words (Sse41.xor (mm_loadu_words h[0] h[1] h[2] h[3]) (Sse41.xor row.row1 row.row3)) ++
  mm_storeu_words (Sse41.xor (mm_loadu_words h[4] h[5] h[6] h[7]) (Sse41.xor row.row2 row.row4))

theorem sse_compress_pieces (h : StateWords) (msg : Block) (count : U64) (lb ln : U32) :
    Sse41.compress h msg count lb ln = finRows h (sseRounds
      (mm_loadu_bytes (subArray msg 0 16)) (mm_loadu_bytes (subArray msg 16 16))
      (mm_loadu_bytes (subArray msg 32 16)) (mm_loadu_bytes (subArray msg 48 16))
      (initRows h (count.setWidth 32) ((count >>> 32).setWidth 32) lb ln)) := rfl

theorem toV_sseRounds {m : Vector U32 16} {m0 m1 m2 m3 : M128} (hm : Holds m m0 m1 m2 m3)
    (row : Sse41.Rows) :
    toV (sseRounds m0 m1 m2 m3 row) = rounds (fun r => Portable.round r m) (toV row) := by
  simp only [sseRounds, rounds, toV_round1 hm, toV_round2 hm, toV_round3 hm, toV_round4 hm,
    toV_round5 hm, toV_round6 hm, toV_round7 hm, toV_round8 hm, toV_round9 hm, toV_round10 hm]

theorem toV_initRows (h : StateWords) (c0 c1 lb ln : U32) :
    toV (initRows h c0 c1 lb ln) = initV (· ^^^ ·) id h c0 c1 lb ln := by
  simp only [toV, ofQuads, quad, initRows, initV, lane_words, lane_setr, Sse41.xor, mm_xor_si128,
    lane_xor, id]

theorem storeu_words_eq (x : M128) :
    mm_storeu_words x = #v[lane 32 0 x, lane 32 1 x, lane 32 2 x, lane 32 3 x] := by
  rw [eta4 (mm_storeu_words x)]
  simp [mm_storeu_words]

theorem append44 {α : Type} (a b c d e f g h : α) :
    (#v[a, b, c, d] : Vector α 4) ++ (#v[e, f, g, h] : Vector α 4) = #v[a, b, c, d, e, f, g, h] := rfl

theorem finRows_eq (h : StateWords) (row : Sse41.Rows) : finRows h row = finV x3 h (toV row) := by
  simp only [finRows, storeu_words_eq, Sse41.xor, mm_xor_si128, lane_xor, lane_words]
  rw [append44]
  rfl

theorem sse_compress (h : StateWords) (msg : Block) (count : U64) (lb ln : U32) :
    Sse41.compress h msg count lb ln = Portable.compress h msg count lb ln := by
  rw [sse_compress_pieces, finRows_eq, toV_sseRounds (holds_block msg), toV_initRows,
    compress_eq_core, core_pieces]

end Blake2s
