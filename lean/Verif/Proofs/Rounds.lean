import Verif.Proofs.Alg
import Verif.Spec
/-!
# The portable round as an instance of the abstract round, and the lanes of the SIMD rounds
-/

namespace Blake2s

/-- Take apart a vector of sixteen. -/
theorem eta16 {α : Type} (v : Vector α 16) :
    v = #v[v[0], v[1], v[2], v[3], v[4], v[5], v[6], v[7], v[8], v[9], v[10], v[11], v[12], v[13],
      v[14], v[15]] := by
  ext i hi
  match i, hi with
  | 0, _ | 1, _ | 2, _ | 3, _ | 4, _ | 5, _ | 6, _ | 7, _ | 8, _ | 9, _ | 10, _ | 11, _ | 12, _
  | 13, _ | 14, _ | 15, _ => rfl
  | n + 16, h => exact absurd h (by omega)

/-- Take apart a vector of eight. -/
theorem eta8 {α : Type} (v : Vector α 8) :
    v = #v[v[0], v[1], v[2], v[3], v[4], v[5], v[6], v[7]] := by
  ext i hi
  match i, hi with
  | 0, _ | 1, _ | 2, _ | 3, _ | 4, _ | 5, _ | 6, _ | 7, _ => rfl

/-- Take apart a vector of four. -/
theorem eta4 {α : Type} (v : Vector α 4) : v = #v[v[0], v[1], v[2], v[3]] := by
  ext i hi
  match i, hi with
  | 0, _ | 1, _ | 2, _ | 3, _ => rfl

/-- G in the operation order of the portable code. -/
def Gp (a b c d x y : U32) : Quad U32 :=
  let a := a + b + x
  let d := (d ^^^ a).rotateRight 16
  let c := c + d
  let b := (b ^^^ c).rotateRight 12
  let a := a + b + y
  let d := (d ^^^ a).rotateRight 8
  let c := c + d
  let b := (b ^^^ c).rotateRight 7
  ⟨a, b, c, d⟩

theorem Gp_eq (a b c d x y : U32) : Gp a b c d x y = u32.G a b c d x y := by
  have h : ∀ p q r : U32, p + q + r = p + r + q := fun p q r => by
    rw [BitVec.add_assoc, BitVec.add_comm q r, ← BitVec.add_assoc]
  simp only [Gp, Alg.G, Alg.g1, Alg.g2, u32]
  rw [h a b x]
  simp only [h _ _ y]

theorem portable_g0 (v0 v1 v2 v3 v4 v5 v6 v7 v8 v9 v10 v11 v12 v13 v14 v15 x y : U32) :
    Portable.g #v[v0, v1, v2, v3, v4, v5, v6, v7, v8, v9, v10, v11, v12, v13, v14, v15] 0 4 8 12 x y =
      #v[(Gp v0 v4 v8 v12 x y).a, v1, v2, v3, (Gp v0 v4 v8 v12 x y).b, v5, v6, v7, (Gp v0 v4 v8 v12 x y).c, v9, v10, v11, (Gp v0 v4 v8 v12 x y).d, v13, v14, v15] := rfl

theorem portable_g1 (v0 v1 v2 v3 v4 v5 v6 v7 v8 v9 v10 v11 v12 v13 v14 v15 x y : U32) :
    Portable.g #v[v0, v1, v2, v3, v4, v5, v6, v7, v8, v9, v10, v11, v12, v13, v14, v15] 1 5 9 13 x y =
      #v[v0, (Gp v1 v5 v9 v13 x y).a, v2, v3, v4, (Gp v1 v5 v9 v13 x y).b, v6, v7, v8, (Gp v1 v5 v9 v13 x y).c, v10, v11, v12, (Gp v1 v5 v9 v13 x y).d, v14, v15] := rfl

theorem portable_g2 (v0 v1 v2 v3 v4 v5 v6 v7 v8 v9 v10 v11 v12 v13 v14 v15 x y : U32) :
    Portable.g #v[v0, v1, v2, v3, v4, v5, v6, v7, v8, v9, v10, v11, v12, v13, v14, v15] 2 6 10 14 x y =
      #v[v0, v1, (Gp v2 v6 v10 v14 x y).a, v3, v4, v5, (Gp v2 v6 v10 v14 x y).b, v7, v8, v9, (Gp v2 v6 v10 v14 x y).c, v11, v12, v13, (Gp v2 v6 v10 v14 x y).d, v15] := rfl

theorem portable_g3 (v0 v1 v2 v3 v4 v5 v6 v7 v8 v9 v10 v11 v12 v13 v14 v15 x y : U32) :
    Portable.g #v[v0, v1, v2, v3, v4, v5, v6, v7, v8, v9, v10, v11, v12, v13, v14, v15] 3 7 11 15 x y =
      #v[v0, v1, v2, (Gp v3 v7 v11 v15 x y).a, v4, v5, v6, (Gp v3 v7 v11 v15 x y).b, v8, v9, v10, (Gp v3 v7 v11 v15 x y).c, v12, v13, v14, (Gp v3 v7 v11 v15 x y).d] := rfl

theorem portable_g4 (v0 v1 v2 v3 v4 v5 v6 v7 v8 v9 v10 v11 v12 v13 v14 v15 x y : U32) :
    Portable.g #v[v0, v1, v2, v3, v4, v5, v6, v7, v8, v9, v10, v11, v12, v13, v14, v15] 0 5 10 15 x y =
      #v[(Gp v0 v5 v10 v15 x y).a, v1, v2, v3, v4, (Gp v0 v5 v10 v15 x y).b, v6, v7, v8, v9, (Gp v0 v5 v10 v15 x y).c, v11, v12, v13, v14, (Gp v0 v5 v10 v15 x y).d] := rfl

theorem portable_g5 (v0 v1 v2 v3 v4 v5 v6 v7 v8 v9 v10 v11 v12 v13 v14 v15 x y : U32) :
    Portable.g #v[v0, v1, v2, v3, v4, v5, v6, v7, v8, v9, v10, v11, v12, v13, v14, v15] 1 6 11 12 x y =
      #v[v0, (Gp v1 v6 v11 v12 x y).a, v2, v3, v4, v5, (Gp v1 v6 v11 v12 x y).b, v7, v8, v9, v10, (Gp v1 v6 v11 v12 x y).c, (Gp v1 v6 v11 v12 x y).d, v13, v14, v15] := rfl

theorem portable_g6 (v0 v1 v2 v3 v4 v5 v6 v7 v8 v9 v10 v11 v12 v13 v14 v15 x y : U32) :
    Portable.g #v[v0, v1, v2, v3, v4, v5, v6, v7, v8, v9, v10, v11, v12, v13, v14, v15] 2 7 8 13 x y =
      #v[v0, v1, (Gp v2 v7 v8 v13 x y).a, v3, v4, v5, v6, (Gp v2 v7 v8 v13 x y).b, (Gp v2 v7 v8 v13 x y).c, v9, v10, v11, v12, (Gp v2 v7 v8 v13 x y).d, v14, v15] := rfl

theorem portable_g7 (v0 v1 v2 v3 v4 v5 v6 v7 v8 v9 v10 v11 v12 v13 v14 v15 x y : U32) :
    Portable.g #v[v0, v1, v2, v3, v4, v5, v6, v7, v8, v9, v10, v11, v12, v13, v14, v15] 3 4 9 14 x y =
      #v[v0, v1, v2, (Gp v3 v4 v9 v14 x y).a, (Gp v3 v4 v9 v14 x y).b, v5, v6, v7, v8, (Gp v3 v4 v9 v14 x y).c, v10, v11, v12, v13, (Gp v3 v4 v9 v14 x y).d, v15] := rfl

theorem portable_round_eq (r : Fin 12) (m v : Vector U32 16) :
    Portable.round r m v = u32.round v (fun i => m[SIGMA[r][i]]) := by
  rw [eta16 v]
  simp only [Portable.round, portable_g0, portable_g1, portable_g2, portable_g3, portable_g4,
    portable_g5, portable_g6, portable_g7, Gp_eq]
  rfl

/-! ## Lanes -/

open X86

theorem sse_rot16 {i : Nat} (x : M128) (h : i < 4) :
    lane 32 i (Sse41.rot16 x) = (lane 32 i x).rotateRight 16 := by
  rw [← rot16_bytes, Sse41.rot16, mm_shuffle_epi8, lane32_pack8_16 _ h]
  simp only [mm_set_epi8]
  have : i = 0 ∨ i = 1 ∨ i = 2 ∨ i = 3 := by omega
  rcases this with rfl | rfl | rfl | rfl <;>
    simp [lane_pack, ← lane8_eq]

theorem sse_rot8 {i : Nat} (x : M128) (h : i < 4) :
    lane 32 i (Sse41.rot8 x) = (lane 32 i x).rotateRight 8 := by
  rw [← rot8_bytes, Sse41.rot8, mm_shuffle_epi8, lane32_pack8_16 _ h]
  simp only [mm_set_epi8]
  have : i = 0 ∨ i = 1 ∨ i = 2 ∨ i = 3 := by omega
  rcases this with rfl | rfl | rfl | rfl <;>
    simp [lane_pack, ← lane8_eq]

theorem avx_rot16 {i : Nat} (x : M256) (h : i < 8) :
    lane 32 i (Avx2.rot16 x) = (lane 32 i x).rotateRight 16 := by
  rw [← rot16_bytes, Avx2.rot16, mm256_shuffle_epi8, lane32_pack8_32 _ h]
  simp only [mm256_set_epi8]
  have : i = 0 ∨ i = 1 ∨ i = 2 ∨ i = 3 ∨ i = 4 ∨ i = 5 ∨ i = 6 ∨ i = 7 := by omega
  rcases this with rfl | rfl | rfl | rfl | rfl | rfl | rfl | rfl <;>
    simp [lane_pack, ← lane8_eq]

theorem avx_rot8 {i : Nat} (x : M256) (h : i < 8) :
    lane 32 i (Avx2.rot8 x) = (lane 32 i x).rotateRight 8 := by
  rw [← rot8_bytes, Avx2.rot8, mm256_shuffle_epi8, lane32_pack8_32 _ h]
  simp only [mm256_set_epi8]
  have : i = 0 ∨ i = 1 ∨ i = 2 ∨ i = 3 ∨ i = 4 ∨ i = 5 ∨ i = 6 ∨ i = 7 := by omega
  rcases this with rfl | rfl | rfl | rfl | rfl | rfl | rfl | rfl <;>
    simp [lane_pack, ← lane8_eq]

theorem sse_hom {i : Nat} (h : i < 4) : Alg.Hom sse u32 (lane 32 i) where
  add a b := lane_mm_add a b h
  xor a b := lane_xor a b
  r16 a := sse_rot16 a h
  r12 a := by
    simp only [sse, u32, Sse41.rot12, Sse41.xor, mm_xor_si128, lane_xor, lane_mm_srli _ h,
      lane_mm_slli _ h]
    exact rot_xor _ 12 (by decide)
  r8 a := sse_rot8 a h
  r7 a := by
    simp only [sse, u32, Sse41.rot7, Sse41.xor, mm_xor_si128, lane_xor, lane_mm_srli _ h,
      lane_mm_slli _ h]
    exact rot_xor _ 7 (by decide)

theorem avx_hom {i : Nat} (h : i < 8) : Alg.Hom avx u32 (lane 32 i) where
  add a b := lane_mm256_add a b h
  xor a b := lane_xor a b
  r16 a := avx_rot16 a h
  r12 a := by
    simp only [avx, u32, Avx2.rot12, mm256_or_si256, lane_or, lane_mm256_srli _ h,
      lane_mm256_slli _ h]
    exact rot_or _ 12 (by decide)
  r8 a := avx_rot8 a h
  r7 a := by
    simp only [avx, u32, Avx2.rot7, mm256_or_si256, lane_or, lane_mm256_srli _ h,
      lane_mm256_slli _ h]
    exact rot_or _ 7 (by decide)

theorem lane_round_4 {i : Nat} (h : i < 4) (v m : Vector M128 16) (r : Fin 12) :
    (Sse41.round_4 v m r).map (lane 32 i) = Portable.round r (m.map (lane 32 i)) (v.map (lane 32 i)) := by
  rw [round_4_eq, (sse_hom h).round, portable_round_eq]
  simp

theorem lane_round8x {i : Nat} (h : i < 8) (v m : Vector M256 16) (r : Fin 12) :
    (Avx2.blake2sRound8x v m r).map (lane 32 i) =
      Portable.round r (m.map (lane 32 i)) (v.map (lane 32 i)) := by
  rw [round8x_eq, (avx_hom h).round, portable_round_eq]
  simp

end Blake2s
