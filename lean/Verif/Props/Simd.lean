import Verif.Proofs.Avx
import Verif.Proofs.SpecF
/-!
# The SIMD compression functions: C07 - C10
-/

namespace Blake2s

open X86

/-! ## C07 -/

/-- C07: the SSE4.1 compression function is the portable one, for all arguments. -/
theorem C07_sse41 (h : StateWords) (msg : Block) (count : U64) (lastblock lastnode : U32) :
    Sse41.compress h msg count lastblock lastnode =
      Portable.compress h msg count lastblock lastnode := sse_compress h msg count lastblock lastnode

example : Sse41.compress IV (Vector.ofFn fun i => BitVec.ofNat 8 i.val) (2 ^ 40 + 64) 0xffffffff 7 =
    Portable.compress IV (Vector.ofFn fun i => BitVec.ofNat 8 i.val) (2 ^ 40 + 64) 0xffffffff 7 :=
  C07_sse41 _ _ _ _ _

/-- C07: and both are the function F of RFC 7693, when the flag words are all-ones or all-zeros. -/
theorem C07_rfc (h : StateWords) (msg : Block) (t : Nat) (final lastNode : Bool) (i : Fin 8) :
    (Sse41.compress h msg (BitVec.ofNat 64 t) (if final then 0xffffffff else 0)
      (if lastNode then 0xffffffff else 0))[i] =
    Spec.F (fun j => h[j]) (Spec.blockWords msg.toList) t final lastNode i := by
  rw [C07_sse41]
  have h1 : ∀ b : Bool, (if b then 0xffffffff else 0 : U32) = State.flagWord b := by decide
  rw [h1, h1]
  exact congrFun (compress_spec h msg t final lastNode) i

example : (Sse41.compress IV (Vector.ofFn fun i => BitVec.ofNat 8 i.val) (BitVec.ofNat 64 (2 ^ 40 + 64)) 0xffffffff
      0)[(3 : Fin 8)] =
    Spec.F (fun j => IV[j]) (Spec.blockWords
      (Vector.ofFn fun i : Fin 64 => BitVec.ofNat 8 i.val).toList) (2 ^ 40 + 64) true false 3 :=
  C07_rfc IV (Vector.ofFn fun i => BitVec.ofNat 8 i.val) (2 ^ 40 + 64) true false 3

/-- The compression function is not constant: RFC 7693 appendix B, "abc". -/
example : Portable.compress (IV.set 0 (IV[0] ^^^ 0x01010020))
    (Vector.ofFn fun i => if i = 0 then 0x61 else if i = 1 then 0x62 else if i = 2 then 0x63 else 0)
    3 0xffffffff 0 =
    #v[0x8C5E8C50, 0xE2147C32, 0xA32BA7E1, 0x2F45EB4E, 0x208B4537, 0x293AD69E, 0x4C9B994D, 0x82596786] := by
  decide +kernel

/-! ## C08 -/

/-- C08: AVX2 `compress8` is eight separate portable compressions, lane by lane. -/
theorem C08_avx2 (h : Vector StateWords 8) (msg : Vector Block 8) (count : Vector U64 8)
    (lastblock lastnode : Vector U32 8) (i : Nat) (hi : i < 8) :
    (Avx2.compress8 h msg count lastblock lastnode)[i] =
      Portable.compress h[i] msg[i] count[i] lastblock[i] lastnode[i] :=
  avx_compress8_get h msg count lastblock lastnode i hi

/-- C08: so is the portable `compress8`. -/
theorem C08_portable (h : Vector StateWords 8) (msg : Vector Block 8) (count : Vector U64 8)
    (lastblock lastnode : Vector U32 8) (i : Nat) (hi : i < 8) :
    (Portable.compress8 h msg count lastblock lastnode)[i] =
      Portable.compress h[i] msg[i] count[i] lastblock[i] lastnode[i] :=
  portable_compress8_get h msg count lastblock lastnode i hi

/-- Eight different states, blocks, counters and flag words. -/
def someWords : Vector StateWords 8 := Vector.ofFn fun i => Vector.ofFn fun j => BitVec.ofNat 32 (100 * i.val + j.val)
def someBlocks : Vector Block 8 := Vector.ofFn fun i => Vector.ofFn fun j => BitVec.ofNat 8 (100 * i.val + j.val)
def someCounts : Vector U64 8 := Vector.ofFn fun i => BitVec.ofNat 64 (2 ^ (4 * i.val) * 64)
def someFlags : Vector U32 8 := Vector.ofFn fun i => if i.val % 3 = 0 then 0xffffffff else 0

example : (Avx2.compress8 someWords someBlocks someCounts someFlags (someFlags.map (~~~ ·)))[5] =
      Portable.compress someWords[5] someBlocks[5] someCounts[5] someFlags[5] (someFlags.map (~~~ ·))[5] ∧
    (Portable.compress8 someWords someBlocks someCounts someFlags (someFlags.map (~~~ ·)))[5] =
      Portable.compress someWords[5] someBlocks[5] someCounts[5] someFlags[5] (someFlags.map (~~~ ·))[5] :=
  ⟨C08_avx2 _ _ _ _ _ 5 (by decide), C08_portable _ _ _ _ _ 5 (by decide)⟩

/-! ## C09 -/

/-- A 128-bit vector with the given 32-bit lanes, lowest first. -/
def vec4 (x : Vector U32 4) : M128 := mm_loadu_words x[0] x[1] x[2] x[3]

theorem lane_vec4 (x : Vector U32 4) (i : Nat) (hi : i < 4) : lane 32 i (vec4 x) = x[i] := by
  have := lane_pack (w := 32) (k := 4) (i := i)
    (fun | 0 => x[0] | 1 => x[1] | 2 => x[2] | _ => x[3]) hi
  refine this.trans ?_
  match i, hi with
  | 0, _ => rfl
  | 1, _ => rfl
  | 2, _ => rfl
  | 3, _ => rfl

/-- C09: `compress4_transposed` on four transposed states is four separate portable compressions:
state `i` is read off lane `i`. -/
theorem C09_sse41 (st : Vector StateWords 4) (msg : Vector Block 4) (count : Vector U64 4)
    (lastblock lastnode : Vector U32 4) (i : Nat) (hi : i < 4) :
    (Sse41.compress4Transposed
        (Vector.ofFn fun j : Fin 8 => vec4 #v[st[0][j], st[1][j], st[2][j], st[3][j]]) msg
        (vec4 (count.map fun c : U64 => c.setWidth 32)) (vec4 (count.map fun c : U64 => (c >>> 32).setWidth 32))
        (vec4 lastblock) (vec4 lastnode)).map (lane 32 i) =
      Portable.compress st[i] msg[i] count[i] lastblock[i] lastnode[i] := by
  rw [lane_compress4 _ _ _ _ _ _ _ hi, compress_eq_core, lane_vec4 _ _ hi, lane_vec4 _ _ hi,
    lane_vec4 _ _ hi, lane_vec4 _ _ hi, Vector.getElem_map, Vector.getElem_map]
  congr 1
  apply Vector.ext
  intro j hj
  rw [Vector.getElem_map, Vector.getElem_ofFn, lane_vec4 _ _ hi]
  match i, hi with
  | 0, _ => rfl
  | 1, _ => rfl
  | 2, _ => rfl
  | 3, _ => rfl

/-- Four of them. -/
def fourWords : Vector StateWords 4 := #v[someWords[4], someWords[5], someWords[6], someWords[7]]
def fourBlocks : Vector Block 4 := #v[someBlocks[4], someBlocks[5], someBlocks[6], someBlocks[7]]
def fourCounts : Vector U64 4 := #v[64, 128, 0xffffffc0, 2 ^ 32]

example : (Sse41.compress4Transposed
      (Vector.ofFn fun j : Fin 8 => vec4 #v[fourWords[0][j], fourWords[1][j], fourWords[2][j], fourWords[3][j]])
      fourBlocks (vec4 (fourCounts.map fun c : U64 => c.setWidth 32))
      (vec4 (fourCounts.map fun c : U64 => (c >>> 32).setWidth 32)) (vec4 #v[0xffffffff, 0, 1, 2])
      (vec4 #v[3, 4, 5, 6])).map (lane 32 3) =
    Portable.compress fourWords[3] fourBlocks[3] fourCounts[3] 2 6 :=
  C09_sse41 fourWords fourBlocks fourCounts #v[0xffffffff, 0, 1, 2] #v[3, 4, 5, 6] 3 (by decide)

/-! ## C10 -/

/-- One step: eight blocks with their counters and flag words. -/
structure Step where
  msg : Vector Block 8
  count : Vector U64 8
  lastblock : Vector U32 8
  lastnode : Vector U32 8

/-- Which pair of routines is used. -/
inductive Kind where
  | portable
  | avx2

def Kind.vectorize : Kind → Vectorize8Fn
  | .portable => .portable
  | .avx2 => .avx2

def Kind.compress : Kind → Compress8VectorizedFn
  | .portable => .portable
  | .avx2 => .avx2

/-- `compress8_vectorized` on every step in turn. -/
def runSteps (E : Env) (k : Kind) : Vector StateWords 8 → List Step → R (Vector StateWords 8)
  | w, [] => pure w
  | w, s :: ss => do
    let w ← k.compress.call E w s.msg (s.count.map fun c : U64 => c.setWidth 32)
      (s.count.map fun c : U64 => (c >>> 32).setWidth 32) s.lastblock s.lastnode
    runSteps E k w ss

/-- The separate compressions of state number `i`. -/
def separate (i : Fin 8) (h : StateWords) (ss : List Step) : StateWords :=
  ss.foldl (fun h s => Portable.compress h s.msg[i] s.count[i] s.lastblock[i] s.lastnode[i]) h

/-- C10: `vectorize_words8` is an involution, in both implementations. -/
theorem C10_involution (w : Vector StateWords 8) :
    Avx2.vectorizeWords8 (Avx2.vectorizeWords8 w) = w ∧
      Portable.vectorizeWords8 (Portable.vectorizeWords8 w) = w := by
  constructor
  · rw [avx_vectorize, avx_vectorize, transpose8_transpose8]
  · rfl

seal core Portable.compress Portable.compress8Vectorized in
theorem runSteps_portable (E : Env) (ss : List Step) (w : Vector StateWords 8) :
    runSteps E .portable w ss = .ok (Vector.ofFn fun i : Fin 8 => separate i w[i] ss) := by
  induction ss generalizing w with
  | nil =>
    show Except.ok w = _
    congr 1
    apply Vector.ext; intro i hi
    simp [separate]
  | cons s ss ih =>
    simp only [runSteps, Kind.compress, Compress8VectorizedFn.call, portable_compress8Vectorized,
      bind, Except.bind]
    rw [ih]
    congr 1
    apply Vector.ext; intro i hi
    simp only [Vector.getElem_ofFn, Fin.getElem_fin, Vector.getElem_map, separate, List.foldl_cons,
      compress_eq_core]

seal core Portable.compress Avx2.compress8Vectorized in
theorem runSteps_avx2 (E : Env) (h1 : E.x86 = true) (h2 : E.avx2 = true) (ss : List Step)
    (w : Vector StateWords 8) :
    runSteps E .avx2 (transpose8 w) ss =
      .ok (transpose8 (Vector.ofFn fun i : Fin 8 => separate i w[i] ss)) := by
  induction ss generalizing w with
  | nil =>
    show Except.ok (transpose8 w) = _
    congr 2
    apply Vector.ext; intro i hi
    simp [separate]
  | cons s ss ih =>
    simp only [runSteps, Kind.compress, Compress8VectorizedFn.call, h1, h2, Bool.and_self, if_true,
      avx_compress8Vectorized, pure, Except.pure, bind, Except.bind]
    rw [ih]
    congr 2
    apply Vector.ext; intro i hi
    simp only [Vector.getElem_ofFn, Fin.getElem_fin, Vector.getElem_map, separate, List.foldl_cons,
      compress_eq_core]

/-- Transposing is not the identity, unlike the portable routine, which leaves the states alone. -/
example : Avx2.vectorizeWords8 someWords ≠ someWords ∧
    Avx2.vectorizeWords8 (Avx2.vectorizeWords8 someWords) = someWords ∧
    Portable.vectorizeWords8 someWords = someWords :=
  ⟨by decide +kernel, (C10_involution _).1, rfl⟩

/-- C10: vectorise, any number of vectorised compressions, vectorise again: the same as that many
separate compressions of each of the eight states. -/
theorem C10_steps (E : Env) (k : Kind) (hk : k = .avx2 → E.x86 = true ∧ E.avx2 = true)
    (w : Vector StateWords 8) (ss : List Step) :
    (do let v ← k.vectorize.call E w
        let v ← runSteps E k v ss
        k.vectorize.call E v) = .ok (Vector.ofFn fun i : Fin 8 => separate i w[i] ss) := by
  cases k with
  | portable =>
    show (runSteps E .portable w ss >>= fun v => pure v) = _
    rw [runSteps_portable]
    rfl
  | avx2 =>
    obtain ⟨h1, h2⟩ := hk rfl
    simp only [Kind.vectorize, Vectorize8Fn.call, h1, h2, Bool.and_self, if_true, avx_vectorize]
    show (runSteps E .avx2 (transpose8 w) ss >>= fun v => pure (transpose8 v)) = _
    rw [runSteps_avx2 E h1 h2]
    show Except.ok (transpose8 (transpose8 _)) = _
    rw [transpose8_transpose8]

example : (do
      let v ← Kind.avx2.vectorize.call ⟨true, true, true, true, true, true⟩ someWords
      let v ← runSteps ⟨true, true, true, true, true, true⟩ .avx2 v
        [⟨someBlocks, someCounts, someFlags, someFlags⟩, ⟨someBlocks.reverse, someCounts, someFlags, someFlags⟩]
      Kind.avx2.vectorize.call ⟨true, true, true, true, true, true⟩ v) =
    .ok (Vector.ofFn fun i : Fin 8 => separate i someWords[i]
      [⟨someBlocks, someCounts, someFlags, someFlags⟩, ⟨someBlocks.reverse, someCounts, someFlags, someFlags⟩]) :=
  C10_steps _ .avx2 (fun _ => ⟨rfl, rfl⟩) someWords _

end Blake2s
