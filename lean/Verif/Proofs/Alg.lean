import Verif.Model.Portable
import Verif.Model.Sse41
import Verif.Model.Avx2
import Verif.Proofs.Intrinsics
/-!
# The BLAKE2s round over an abstract word type

`Alg W` packages the operations of a round. The portable, the 4-way and the 8-way round are all
instances, and taking a lane is a homomorphism.
-/

namespace Blake2s

/-- The word operations of the BLAKE2s round. -/
structure Alg (W : Type) where
  add : W → W → W
  xor : W → W → W
  r16 : W → W
  r12 : W → W
  r8 : W → W
  r7 : W → W

/-- Four working words. -/
structure Quad (W : Type) where
  a : W
  b : W
  c : W
  d : W

namespace Alg
variable {W V : Type}

/-- First half of G, in the operation order of the SIMD code. -/
def g1 (A : Alg W) (q : Quad W) (x : W) : Quad W :=
  let a := A.add (A.add q.a x) q.b
  let d := A.r16 (A.xor q.d a)
  let c := A.add q.c d
  let b := A.r12 (A.xor q.b c)
  ⟨a, b, c, d⟩

/-- Second half of G. -/
def g2 (A : Alg W) (q : Quad W) (y : W) : Quad W :=
  let a := A.add (A.add q.a y) q.b
  let d := A.r8 (A.xor q.d a)
  let c := A.add q.c d
  let b := A.r7 (A.xor q.b c)
  ⟨a, b, c, d⟩

/-- G. -/
def G (A : Alg W) (a b c d x y : W) : Quad W := A.g2 (A.g1 ⟨a, b, c, d⟩ x) y

/-- The column half of a round. -/
def cols (A : Alg W) (v : Vector W 16) (s : Fin 16 → W) : Vector W 16 :=
  let q0 := A.G v[0] v[4] v[8] v[12] (s 0) (s 1)
  let q1 := A.G v[1] v[5] v[9] v[13] (s 2) (s 3)
  let q2 := A.G v[2] v[6] v[10] v[14] (s 4) (s 5)
  let q3 := A.G v[3] v[7] v[11] v[15] (s 6) (s 7)
  #v[q0.a, q1.a, q2.a, q3.a, q0.b, q1.b, q2.b, q3.b, q0.c, q1.c, q2.c, q3.c, q0.d, q1.d, q2.d, q3.d]

/-- The diagonal half of a round. -/
def diags (A : Alg W) (v : Vector W 16) (s : Fin 16 → W) : Vector W 16 :=
  let q0 := A.G v[0] v[5] v[10] v[15] (s 8) (s 9)
  let q1 := A.G v[1] v[6] v[11] v[12] (s 10) (s 11)
  let q2 := A.G v[2] v[7] v[8] v[13] (s 12) (s 13)
  let q3 := A.G v[3] v[4] v[9] v[14] (s 14) (s 15)
  #v[q0.a, q1.a, q2.a, q3.a, q3.b, q0.b, q1.b, q2.b, q2.c, q3.c, q0.c, q1.c, q1.d, q2.d, q3.d, q0.d]

/-- One round. -/
def round (A : Alg W) (v : Vector W 16) (s : Fin 16 → W) : Vector W 16 := A.diags (A.cols v s) s

/-- A homomorphism of word types. -/
structure Hom (A : Alg W) (B : Alg V) (φ : W → V) : Prop where
  add : ∀ a b, φ (A.add a b) = B.add (φ a) (φ b)
  xor : ∀ a b, φ (A.xor a b) = B.xor (φ a) (φ b)
  r16 : ∀ a, φ (A.r16 a) = B.r16 (φ a)
  r12 : ∀ a, φ (A.r12 a) = B.r12 (φ a)
  r8 : ∀ a, φ (A.r8 a) = B.r8 (φ a)
  r7 : ∀ a, φ (A.r7 a) = B.r7 (φ a)

theorem Hom.round {A : Alg W} {B : Alg V} {φ : W → V} (H : Hom A B φ) (v : Vector W 16)
    (s : Fin 16 → W) : (A.round v s).map φ = B.round (v.map φ) (fun i => φ (s i)) := by
  have hcols : ∀ v : Vector W 16, (A.cols v s).map φ = B.cols (v.map φ) (fun i => φ (s i)) := by
    intro v
    simp [cols, G, g1, g2, H.add, H.xor, H.r16, H.r12, H.r8, H.r7]
  have hdiags : ∀ v : Vector W 16, (A.diags v s).map φ = B.diags (v.map φ) (fun i => φ (s i)) := by
    intro v
    simp [diags, G, g1, g2, H.add, H.xor, H.r16, H.r12, H.r8, H.r7]
  rw [Alg.round, hdiags, hcols, Alg.round]

end Alg

/-- 32-bit words. -/
def u32 : Alg U32 where
  add := (· + ·)
  xor := (· ^^^ ·)
  r16 x := x.rotateRight 16
  r12 x := x.rotateRight 12
  r8 x := x.rotateRight 8
  r7 x := x.rotateRight 7

/-- Four words in an SSE register. -/
def sse : Alg X86.M128 where
  add := Sse41.add
  xor := Sse41.xor
  r16 := Sse41.rot16
  r12 := Sse41.rot12
  r8 := Sse41.rot8
  r7 := Sse41.rot7

/-- Eight words in an AVX register. -/
def avx : Alg X86.M256 where
  add := Avx2.add
  xor := Avx2.xor
  r16 := Avx2.rot16
  r12 := Avx2.rot12
  r8 := Avx2.rot8
  r7 := Avx2.rot7

theorem round_4_eq (v m : Vector X86.M128 16) (r : Fin 12) :
    Sse41.round_4 v m r = sse.round v (fun i => m[SIGMA[r][i]]) := by
  have h1 : ∀ v, Sse41.round_4_columns v m r = sse.cols v (fun i => m[SIGMA[r][i]]) := fun _ => rfl
  have h2 : ∀ v, Sse41.round_4_diagonals v m r = sse.diags v (fun i => m[SIGMA[r][i]]) :=
    fun _ => rfl
  rw [Sse41.round_4, h1, h2, Alg.round]

theorem round8x_eq (v m : Vector X86.M256 16) (r : Fin 12) :
    Avx2.blake2sRound8x v m r = avx.round v (fun i => m[SIGMA[r][i]]) := by
  have h1 : ∀ v, Avx2.blake2sRound8x_columns v m r = avx.cols v (fun i => m[SIGMA[r][i]]) :=
    fun _ => rfl
  have h2 : ∀ v, Avx2.blake2sRound8x_diagonals v m r = avx.diags v (fun i => m[SIGMA[r][i]]) :=
    fun _ => rfl
  rw [Avx2.blake2sRound8x, h1, h2, Alg.round]

end Blake2s
