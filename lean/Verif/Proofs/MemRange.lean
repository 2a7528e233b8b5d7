import Verif.Proofs.MemAvx
/-! # Memory: slices of wrong lengths, pointers to elements, transposed states -/

namespace Blake2s.Mem

open X86

/-! ## Slices of wrong lengths -/

/-- The length of the first slice is not a positive multiple of 64, or another slice is shorter. -/
def Bad {n : Nat} (input : Vector (Nat × Nat) n) (len : Nat) : Prop :=
  len % 64 ≠ 0 ∨ len = 0 ∨ ∃ i : Fin n, input[i].2 < len

seal Sse41.compress4Transposed Sse41.exportHashes in
theorem hash4ExactLoop_bad (rule : Rule) (bytes : Vector Nat 4) (p : Params) (input : Vector (Nat × Nat) 4)
    (hb : Bad input input[0].2) (m : Memory) :
    ∀ (fuel : Nat) (v : Vector M128 8) (count : Nat), count % 64 = 0 → count ≤ input[0].2 →
      input[0].2 < count + 64 * fuel →
      Sse41.hash4ExactLoop rule bytes p input input[0].2 fuel v count m = .error .outOfRange := by
  intro fuel
  induction fuel with
  | zero => intro v count _ h1 h2; omega
  | succ fuel ih =>
    intro v count h0 h1 h2
    unfold Sse41.hash4ExactLoop
    rw [block_step]
    by_cases c0 : count + 64 ≤ input[0].2
    case neg => rw [if_neg c0]
    rw [if_pos c0, block_step]
    by_cases c1 : count + 64 ≤ input[1].2
    case neg => rw [if_neg c1]
    rw [if_pos c1, block_step]
    by_cases c2 : count + 64 ≤ input[2].2
    case neg => rw [if_neg c2]
    rw [if_pos c2, block_step]
    by_cases c3 : count + 64 ≤ input[3].2
    case neg => rw [if_neg c3]
    rw [if_pos c3]
    rw [bind_ok (compress4Transposed_run _ _ _ _ _ _ m)]
    have hn : ¬ count + BLOCKBYTES = input[0].2 := by
      intro h
      unfold BLOCKBYTES at h
      rcases hb with hb | hb | ⟨i, hi⟩
      · omega
      · omega
      · match i with
        | 0 => exact absurd hi (by simp)
        | 1 => have hi : input[1].2 < input[0].2 := hi; omega
        | 2 => have hi : input[2].2 < input[0].2 := hi; omega
        | 3 => have hi : input[3].2 < input[0].2 := hi; omega
    simp only [if_neg hn]
    exact ih _ _ (by unfold BLOCKBYTES; omega) (by unfold BLOCKBYTES; omega) (by unfold BLOCKBYTES; omega)

theorem hash4Exact_bad (rule : Rule) (bytes : Vector Nat 4) (p : Params) (input : Vector (Nat × Nat) 4)
    (hb : Bad input input[0].2) (m : Memory) :
    Sse41.hash4Exact rule bytes p input m = .error .outOfRange :=
  hash4ExactLoop_bad rule bytes p input hb m _ _ 0 rfl (by omega) (by omega)

seal Blake2s.Avx2.compress8Transposed Avx2.loadMsgVecsInterleave Blake2s.Avx2.exportHashes in
theorem hash8ExactLoop_bad (p : Params) (input : Vector (Nat × Nat) 8)
    (hb : Bad input input[0].2) (m : Memory) :
    ∀ (fuel : Nat) (v : Vector M256 8) (count : Nat), count % 64 = 0 → count ≤ input[0].2 →
      input[0].2 < count + 64 * fuel →
      Avx2.hash8ExactLoop p input input[0].2 fuel v count m = .error .outOfRange := by
  intro fuel
  induction fuel with
  | zero => intro v count _ h1 h2; omega
  | succ fuel ih =>
    intro v count h0 h1 h2
    unfold Avx2.hash8ExactLoop
    rw [block_step]
    by_cases c0 : count + 64 ≤ input[0].2
    case neg => rw [if_neg c0]
    rw [if_pos c0, block_step]
    by_cases c1 : count + 64 ≤ input[1].2
    case neg => rw [if_neg c1]
    rw [if_pos c1, block_step]
    by_cases c2 : count + 64 ≤ input[2].2
    case neg => rw [if_neg c2]
    rw [if_pos c2, block_step]
    by_cases c3 : count + 64 ≤ input[3].2
    case neg => rw [if_neg c3]
    rw [if_pos c3, block_step]
    by_cases c4 : count + 64 ≤ input[4].2
    case neg => rw [if_neg c4]
    rw [if_pos c4, block_step]
    by_cases c5 : count + 64 ≤ input[5].2
    case neg => rw [if_neg c5]
    rw [if_pos c5, block_step]
    by_cases c6 : count + 64 ≤ input[6].2
    case neg => rw [if_neg c6]
    rw [if_pos c6, block_step]
    by_cases c7 : count + 64 ≤ input[7].2
    case neg => rw [if_neg c7]
    rw [if_pos c7]
    dsimp only
    rw [bind_ok (loadMsgVecsInterleave_run _ m)]
    have hn : ¬ count + BLOCKBYTES = input[0].2 := by
      intro h
      unfold BLOCKBYTES at h
      rcases hb with hb | hb | ⟨i, hi⟩
      · omega
      · omega
      · match i with
        | 0 => exact absurd hi (by simp)
        | 1 => have hi : input[1].2 < input[0].2 := hi; omega
        | 2 => have hi : input[2].2 < input[0].2 := hi; omega
        | 3 => have hi : input[3].2 < input[0].2 := hi; omega
        | 4 => have hi : input[4].2 < input[0].2 := hi; omega
        | 5 => have hi : input[5].2 < input[0].2 := hi; omega
        | 6 => have hi : input[6].2 < input[0].2 := hi; omega
        | 7 => have hi : input[7].2 < input[0].2 := hi; omega
    simp only [if_neg hn]
    exact ih _ _ (by unfold BLOCKBYTES; omega) (by unfold BLOCKBYTES; omega) (by unfold BLOCKBYTES; omega)

theorem hash8Exact_bad (p : Params) (input : Vector (Nat × Nat) 8) (hb : Bad input input[0].2) (m : Memory) :
    Avx2.hash8Exact p input m = .error .outOfRange :=
  hash8ExactLoop_bad p input hb m _ _ 0 rfl (by omega) (by omega)

/-! ## Pointers to elements -/

theorem exportHashes_element (bytes : Vector Nat 4) (v : Vector M128 8) (hl : U8) (m : Memory) :
    Sse41.exportHashes .element bytes v hl m = .error .outOfRange := by
  unfold Sse41.exportHashes
  rw [bind_ok (zeroArray_run _ _), bind_ok (zeroArray_run _ _), bind_ok (zeroArray_run _ _),
    bind_ok (zeroArray_run _ _)]
  exact bind_error (store_element _ _ _ _ (by decide) _ _)

seal Sse41.compress4Transposed Sse41.exportHashes in
theorem hash4ExactLoop_element (bytes : Vector Nat 4) (p : Params) (input : Vector (Nat × Nat) 4) (m : Memory) :
    ∀ (fuel : Nat) (v : Vector M128 8) (count : Nat), count ≤ input[0].2 →
      input[0].2 < count + 64 * fuel →
      Sse41.hash4ExactLoop .element bytes p input input[0].2 fuel v count m = .error .outOfRange := by
  intro fuel
  induction fuel with
  | zero => intro v count h1 h2; omega
  | succ fuel ih =>
    intro v count h1 h2
    unfold Sse41.hash4ExactLoop
    rw [block_step]
    by_cases c0 : count + 64 ≤ input[0].2
    case neg => rw [if_neg c0]
    rw [if_pos c0, block_step]
    by_cases c1 : count + 64 ≤ input[1].2
    case neg => rw [if_neg c1]
    rw [if_pos c1, block_step]
    by_cases c2 : count + 64 ≤ input[2].2
    case neg => rw [if_neg c2]
    rw [if_pos c2, block_step]
    by_cases c3 : count + 64 ≤ input[3].2
    case neg => rw [if_neg c3]
    rw [if_pos c3]
    rw [bind_ok (compress4Transposed_run _ _ _ _ _ _ m)]
    by_cases h : count + BLOCKBYTES = input[0].2
    · simp only [if_pos h]
      exact exportHashes_element _ _ _ _
    · simp only [if_neg h]
      exact ih _ _ (by unfold BLOCKBYTES; omega) (by unfold BLOCKBYTES; omega)

theorem hash4Exact_element (bytes : Vector Nat 4) (p : Params) (input : Vector (Nat × Nat) 4) (m : Memory) :
    Sse41.hash4Exact .element bytes p input m = .error .outOfRange :=
  hash4ExactLoop_element bytes p input m _ _ 0 (by omega) (by omega)

theorem compress_element (iv h msg : Nat) (count : U64) (lb ln : U32) (m : Memory) :
    Sse41.compress .element iv h msg count lb ln m = .error .outOfRange := by
  unfold Sse41.compress
  exact bind_error (load_element _ _ _ _ (by decide) _)

/-! ## Transposed states -/

theorem states8At_word (m : Memory) (a i j : Nat) (hi : i < 8) (hj : j < 8) :
    (states8At m a)[i][j] = wordAt m (a + 32 * i + 4 * j) := by
  rw [states8At_get m a i hi, wordsAt_get _ _ _ hj]

/-- State `k` of eight transposed states at address `a`: word `j` is word `k` of the `j`th vector. -/
def stateAt (m : Memory) (a k : Nat) : StateWords := Vector.ofFn fun j => wordAt m (a + 32 * j.val + 4 * k)

theorem transpose8_states (m : Memory) (a : Nat) :
    transpose8 (states8At m a) = Vector.ofFn fun k : Fin 8 => stateAt m a k.val := by
  apply Vector.ext; intro i hi
  apply Vector.ext; intro j hj
  rw [transpose8_get _ _ _ hi hj, states8At_word _ _ _ _ hj hi]
  simp only [stateAt, Vector.getElem_ofFn]

theorem states8At_stateAt (m : Memory) (a : Nat) :
    states8At m a = transpose8 (Vector.ofFn fun k : Fin 8 => stateAt m a k.val) := by
  rw [← transpose8_states, transpose8_transpose8]

theorem low_word (hi lo : U32) : (hi ++ lo : BitVec (32 + 32)).setWidth 32 = lo :=
  BitVec.setWidth_append_eq_right

theorem high_word (hi lo : U32) : ((hi ++ lo : BitVec (32 + 32)) >>> 32).setWidth 32 = hi := by
  apply BitVec.eq_of_getLsbD_eq
  intro i h
  rw [BitVec.getLsbD_setWidth, BitVec.getLsbD_ushiftRight, BitVec.getLsbD_append]
  simp [h]

theorem compress8Vectorized_state (a : Nat) (ha : a % 32 = 0) (msg : Vector Nat 8) (cl ch lb ln : Nat)
    (m : Memory) :
    ∃ m', Avx2.compress8Vectorized a msg cl ch lb ln m = .ok ((), m') ∧
      (∀ k : Fin 8, stateAt m' a k.val = Portable.compress (stateAt m a k.val) (blockAt m msg[k])
        (wordAt m (ch + 4 * k.val) ++ wordAt m (cl + 4 * k.val))
        (wordAt m (lb + 4 * k.val)) (wordAt m (ln + 4 * k.val))) ∧
      ∀ b, b < a ∨ a + 256 ≤ b → m' b = m b := by
  obtain ⟨m', h1, h2, h3⟩ := compress8Vectorized_run a ha msg cl ch lb ln m
  refine ⟨m', h1, ?_, h3⟩
  intro k
  rw [states8At_stateAt m a, avx_compress8Vectorized] at h2
  have h4 := congrArg transpose8 h2
  rw [transpose8_transpose8, transpose8_states] at h4
  have h5 := congrArg (fun v : Vector StateWords 8 => v[k]) h4
  simp only [Fin.getElem_fin, Vector.getElem_ofFn] at h5
  rw [h5, compress_eq_core, low_word, high_word, Vector.getElem_map, wordsAt_get _ _ _ k.isLt,
    wordsAt_get _ _ _ k.isLt, wordsAt_get _ _ _ k.isLt, wordsAt_get _ _ _ k.isLt]
  rfl

end Blake2s.Mem
