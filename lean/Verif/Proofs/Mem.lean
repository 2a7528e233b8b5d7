import Verif.Model.Mem
import Verif.Proofs.SseCompress
import Verif.Proofs.Avx
import Verif.Proofs.Exact
/-! # Lemmas on the memory-level model of the unsafe code -/

namespace Blake2s.Mem

open X86

theorem bind_ok {α β : Type} {x : M α} {f : α → M β} {m m' : Memory} {a : α} (h : x m = .ok (a, m')) :
    (x >>= f) m = f a m' := by
  show M.andThen x f m = _
  unfold M.andThen
  rw [h]

theorem bind_error {α β : Type} {x : M α} {f : α → M β} {m : Memory} {e : Fault} (h : x m = .error e) :
    (x >>= f) m = .error e := by
  show M.andThen x f m = _
  unfold M.andThen
  rw [h]

theorem pure_run {α : Type} (a : α) (m : Memory) : (pure a : M α) m = .ok (a, m) := rfl

/-! ## Memory -/

theorem bytesAt_get (m : Memory) (a n i : Nat) (h : i < n) : (bytesAt m a n)[i] = m (a + i) := by
  simp only [bytesAt, Vector.getElem_ofFn]

theorem write_in {n : Nat} (m : Memory) (a : Nat) (b : Vector U8 n) (i : Nat) (h : i < n) :
    write m a b (a + i) = b[i] := by
  unfold write
  rw [dif_pos ⟨by omega, by omega⟩]
  congr 1
  omega

theorem write_out {n : Nat} (m : Memory) (a : Nat) (b : Vector U8 n) (x : Nat) (h : x < a ∨ a + n ≤ x) :
    write m a b x = m x := by
  unfold write
  rw [dif_neg (by omega)]

theorem bytesAt_write (m : Memory) (a : Nat) {n : Nat} (b : Vector U8 n) : bytesAt (write m a b) a n = b := by
  apply Vector.ext
  intro i hi
  rw [bytesAt_get, write_in _ _ _ _ hi]

theorem bytesAt_write_out (m : Memory) (a a' n' : Nat) {n : Nat} (b : Vector U8 n)
    (h : a' + n' ≤ a ∨ a + n ≤ a') : bytesAt (write m a b) a' n' = bytesAt m a' n' := by
  apply Vector.ext
  intro i hi
  rw [bytesAt_get, bytesAt_get, write_out _ _ _ _ (by omega)]

theorem wordAt_of {m m' : Memory} {a a' : Nat} (h : ∀ i, i < 4 → m (a + i) = m' (a' + i)) :
    wordAt m a = wordAt m' a' := by
  unfold wordAt
  congr 1
  apply Vector.ext
  intro i hi
  rw [bytesAt_get, bytesAt_get, h i hi]

theorem wordsAt_of {m m' : Memory} {a a' : Nat} (h : ∀ i, i < 32 → m (a + i) = m' (a' + i)) :
    wordsAt m a = wordsAt m' a' := by
  ext1 j hj
  simp only [wordsAt, Vector.getElem_ofFn]
  refine wordAt_of fun i hi => ?_
  rw [Nat.add_assoc, Nat.add_assoc]
  exact h _ (by omega)

theorem wordsAt_get (m : Memory) (a j : Nat) (h : j < 8) : (wordsAt m a)[j] = wordAt m (a + 4 * j) := by
  simp only [wordsAt, Vector.getElem_ofFn]

theorem states8At_get (m : Memory) (a j : Nat) (h : j < 8) :
    (states8At m a)[j] = wordsAt m (a + 32 * j) := by
  simp only [states8At, Vector.getElem_ofFn]

/-! ## Vectors in memory -/

theorem lane_loadu128 (m : Memory) (a j : Nat) (h : j < 4) :
    lane 32 j (mm_loadu_bytes (bytesAt m a 16)) = wordAt m (a + 4 * j) := by
  unfold mm_loadu_bytes
  rw [lane32_pack8_16 _ h, dif_pos (by omega), dif_pos (by omega), dif_pos (by omega), dif_pos (by omega)]
  simp only [bytesAt_get, wordAt, readU32LE, Nat.add_assoc, Nat.add_zero]

theorem lane_loadu256 (m : Memory) (a j : Nat) (h : j < 8) :
    lane 32 j (mm256_loadu_bytes (bytesAt m a 32)) = wordAt m (a + 4 * j) := by
  unfold mm256_loadu_bytes
  rw [lane32_pack8_32 _ h, dif_pos (by omega), dif_pos (by omega), dif_pos (by omega), dif_pos (by omega)]
  simp only [bytesAt_get, wordAt, readU32LE, Nat.add_assoc, Nat.add_zero]

theorem loadu128_words (m : Memory) (a k : Nat) (hk : k < 2) :
    mm_loadu_bytes (bytesAt m (a + 16 * k) 16) =
      mm_loadu_words ((wordsAt m a)[4 * k]) ((wordsAt m a)[4 * k + 1]) ((wordsAt m a)[4 * k + 2])
        ((wordsAt m a)[4 * k + 3]) := by
  apply eq_of_lanes (w := 32) (k := 4)
  intro j hj
  have l := lane_words ((wordsAt m a)[4 * k]) ((wordsAt m a)[4 * k + 1]) ((wordsAt m a)[4 * k + 2])
        ((wordsAt m a)[4 * k + 3])
  rw [lane_loadu128 _ _ _ hj]
  have e : ∀ i, i < 4 → wordAt m (a + 16 * k + 4 * i) = wordAt m (a + 4 * (4 * k + i)) :=
    fun i _ => congrArg _ (by omega)
  rw [e j hj]
  rcases (by omega : j = 0 ∨ j = 1 ∨ j = 2 ∨ j = 3) with rfl | rfl | rfl | rfl
  · rw [l.1, wordsAt_get]; rfl
  · rw [l.2.1, wordsAt_get]
  · rw [l.2.2.1, wordsAt_get]
  · rw [l.2.2.2, wordsAt_get]

theorem loadu256_words (m : Memory) (a : Nat) :
    mm256_loadu_bytes (bytesAt m a 32) = mm256_of_words (wordsAt m a) := by
  apply eq_of_lanes (w := 32) (k := 8)
  intro j hj
  rw [lane_loadu256 _ _ _ hj]
  unfold mm256_of_words
  rw [lane_pack (w := 32) (k := 8) _ hj, dif_pos hj, wordsAt_get]

theorem word_of_bytes (x : U32) : (lane 8 3 x ++ lane 8 2 x ++ lane 8 1 x ++ lane 8 0 x : BitVec 32) = x := by
  have h := pack_lane (n := 32) (w := 8) (m := 4) (i := 0) x
  rw [show (pack 8 4 fun j => lane 8 (4 * 0 + j) x : BitVec 32) = _ from pack4 _] at h
  simp only [Nat.mul_zero, Nat.zero_add] at h
  rw [h]
  exact BitVec.extractLsb'_eq_self

theorem wordAt_write256 (m : Memory) (a : Nat) (x : M256) (j : Nat) (h : j < 8) :
    wordAt (write m a (mm256_to_bytes x)) (a + 4 * j) = lane 32 j x := by
  have e : ∀ t, t < 4 → (write m a (mm256_to_bytes x)) (a + 4 * j + t) = lane 8 t (lane 32 j x) := by
    intro t ht
    rw [Nat.add_assoc, write_in _ _ _ _ (by omega : 4 * j + t < 32)]
    simp only [mm256_to_bytes, Vector.getElem_ofFn]
    exact lane8_eq x ht
  simp only [wordAt, readU32LE, bytesAt_get]
  rw [e 3 (by decide), e 2 (by decide), e 1 (by decide), e 0 (by decide)]
  exact word_of_bytes _

theorem wordsAt_write256 (m : Memory) (a : Nat) (x : M256) :
    wordsAt (write m a (mm256_to_bytes x)) a = mm256_to_words x := by
  ext1 j hj
  rw [wordsAt_get _ _ _ hj, wordAt_write256 _ _ _ _ hj]
  simp only [mm256_to_words, Vector.getElem_ofFn]

theorem wordAt_write128 (m : Memory) (a : Nat) (x : M128) (j : Nat) (h : j < 4) :
    wordAt (write m a (mm_storeu_bytes x)) (a + 4 * j) = lane 32 j x := by
  have e : ∀ t, t < 4 → (write m a (mm_storeu_bytes x)) (a + 4 * j + t) = lane 8 t (lane 32 j x) := by
    intro t ht
    rw [Nat.add_assoc, write_in _ _ _ _ (by omega : 4 * j + t < 16)]
    simp only [mm_storeu_bytes, Vector.getElem_ofFn]
    exact lane8_eq x ht
  simp only [wordAt, readU32LE, bytesAt_get]
  rw [e 3 (by decide), e 2 (by decide), e 1 (by decide), e 0 (by decide)]
  exact word_of_bytes _

theorem block_part (m : Memory) (a k n : Nat) (h : k + n ≤ 64) :
    subArray (blockAt m a) k n h = bytesAt m (a + k) n := by
  apply Vector.ext
  intro i hi
  unfold subArray blockAt
  rw [Vector.getElem_ofFn, bytesAt_get, bytesAt_get, Nat.add_assoc]

/-! ## Accesses -/

theorem load_array (a size esize i : Nat) (h : esize * i + 16 ≤ size) (m : Memory) :
    loadu128 (elemPtr .array a size esize i) m =
      .ok (mm_loadu_bytes (bytesAt m (a + esize * i) 16), m) := by
  unfold loadu128 elemPtr Ptr.covers
  simp [h]

theorem store_array (a size esize i : Nat) (h : esize * i + 16 ≤ size) (x : M128) (m : Memory) :
    storeu128 (elemPtr .array a size esize i) x m =
      .ok ((), write m (a + esize * i) (mm_storeu_bytes x)) := by
  unfold storeu128 elemPtr Ptr.covers
  simp [h]

theorem load_element (a size esize i : Nat) (h : esize < 16) (m : Memory) :
    loadu128 (elemPtr .element a size esize i) m = .error .outOfRange := by
  unfold loadu128 elemPtr Ptr.covers
  have : ¬ esize * i + 16 ≤ esize * i + esize := by omega
  simp [this]
  rfl

theorem store_element (a size esize i : Nat) (h : esize < 16) (x : M128) (m : Memory) :
    storeu128 (elemPtr .element a size esize i) x m = .error .outOfRange := by
  unfold storeu128 elemPtr Ptr.covers
  have : ¬ esize * i + 16 ≤ esize * i + esize := by omega
  simp [this]
  rfl

theorem add_ok (a size n : Nat) (h : n ≤ size) (m : Memory) :
    (asPtr a size).add n m = .ok (⟨a, n, 0, size⟩, m) := by
  unfold Ptr.add asPtr
  simp [h]
  rfl

theorem load_at (a size off : Nat) (h : off + 16 ≤ size) (m : Memory) :
    loadu128 ⟨a, off, 0, size⟩ m = .ok (mm_loadu_bytes (bytesAt m (a + off) 16), m) := by
  unfold loadu128 Ptr.covers
  simp [h]

theorem load256_at (a size off : Nat) (h : off + 32 ≤ size) (m : Memory) :
    loadu256 ⟨a, off, 0, size⟩ m = .ok (mm256_loadu_bytes (bytesAt m (a + off) 32), m) := by
  unfold loadu256 Ptr.covers
  simp [h]

theorem load256_start (a size : Nat) (h : 32 ≤ size) (m : Memory) :
    loadu256 (asPtr a size) m = .ok (mm256_loadu_bytes (bytesAt m a 32), m) :=
  load256_at a size 0 (by omega) m

theorem blockRef_ok (a len off : Nat) (h : off + 64 ≤ len) (m : Memory) :
    ((asPtr a len).add off >>= blockRef) m = .ok (a + off, m) := by
  rw [bind_ok (add_ok a len off (by omega) m)]
  unfold blockRef Ptr.covers
  simp [h]
  rfl

theorem blockRef_out (a len off : Nat) (h : len < off + 64) (m : Memory) :
    ((asPtr a len).add off >>= blockRef) m = .error .outOfRange := by
  by_cases h' : off ≤ len
  · rw [bind_ok (add_ok a len off h' m)]
    unfold blockRef Ptr.covers
    have : ¬ off + 64 ≤ len := by omega
    simp [this]
    rfl
  · refine bind_error ?_
    unfold Ptr.add asPtr
    simp [h']
    rfl

theorem vecsRef_ok (a : Nat) (h : a % 32 = 0) (m : Memory) : vecsRef (asPtr a 256) m = .ok (a, m) := by
  unfold vecsRef Ptr.covers asPtr
  simp [h]
  rfl

theorem vecsRef_misaligned (a : Nat) (h : a % 32 ≠ 0) (m : Memory) :
    vecsRef (asPtr a 256) m = .error .misaligned := by
  unfold vecsRef Ptr.covers asPtr
  simp [h]
  rfl

/-! ## src/sse41.rs -/

theorem load_lo (a : Nat) (m : Memory) : loadu128 (elemPtr .array a 32 4 0) m =
    .ok (mm_loadu_words (wordsAt m a)[0] (wordsAt m a)[1] (wordsAt m a)[2] (wordsAt m a)[3], m) := by
  rw [load_array a 32 4 0 (by decide) m]
  exact congrArg (fun x => Except.ok (x, m)) (loadu128_words m a 0 (by decide))

theorem load_hi (a : Nat) (m : Memory) : loadu128 (elemPtr .array a 32 4 4) m =
    .ok (mm_loadu_words (wordsAt m a)[4] (wordsAt m a)[5] (wordsAt m a)[6] (wordsAt m a)[7], m) := by
  rw [load_array a 32 4 4 (by decide) m]
  exact congrArg (fun x => Except.ok (x, m)) (loadu128_words m a 1 (by decide))

theorem load_block (a k : Nat) (h : k + 16 ≤ 64) (m : Memory) :
    loadu128 ⟨a, k, 0, 64⟩ m = .ok (mm_loadu_bytes (subArray (blockAt m a) k 16 h), m) := by
  rw [load_at a 64 k h m, block_part]

/-- Two stores that fill eight words. -/
theorem wordsAt_two_stores (m : Memory) (a : Nat) (x y : M128) :
    wordsAt (write (write m (a + 4 * 0) (mm_storeu_bytes x)) (a + 4 * 4) (mm_storeu_bytes y)) a =
      mm_storeu_words x ++ mm_storeu_words y := by
  apply Vector.ext
  intro j hj
  rw [wordsAt_get _ _ _ hj, Vector.getElem_append]
  by_cases h : j < 4
  · rw [dif_pos h]
    have e : wordAt (write (write m (a + 4 * 0) (mm_storeu_bytes x)) (a + 4 * 4) (mm_storeu_bytes y))
        (a + 4 * j) = wordAt (write m (a + 4 * 0) (mm_storeu_bytes x)) (a + 4 * 0 + 4 * j) :=
      wordAt_of fun i hi => by rw [write_out _ _ _ _ (by omega)]; congr 1
    rw [e, wordAt_write128 _ _ _ _ h]
    simp only [mm_storeu_words, Vector.getElem_ofFn]
  · rw [dif_neg h]
    have e := wordAt_write128 (write m (a + 4 * 0) (mm_storeu_bytes x)) (a + 4 * 4) y (j - 4) (by omega)
    rw [show a + 4 * 4 + 4 * (j - 4) = a + 4 * j by omega] at e
    rw [e]
    simp only [mm_storeu_words, Vector.getElem_ofFn]

theorem sse41_compress_run (m : Memory) (iv h msg : Nat) (hiv : wordsAt m iv = IV) (count : U64)
    (lb ln : U32) :
    ∃ m', Sse41.compress .array iv h msg count lb ln m = .ok ((), m') ∧
      wordsAt m' h = Blake2s.Sse41.compress (wordsAt m h) (blockAt m msg) count lb ln ∧
      ∀ x, x < h ∨ h + 32 ≤ x → m' x = m x := by
  unfold Sse41.compress
  rw [bind_ok (load_lo h m), bind_ok (load_hi h m), bind_ok (load_lo iv m), bind_ok (load_hi iv m),
    bind_ok (add_ok msg 64 0 (by decide) m), bind_ok (load_block msg 0 (by decide) m),
    bind_ok (add_ok msg 64 16 (by decide) m), bind_ok (load_block msg 16 (by decide) m),
    bind_ok (add_ok msg 64 32 (by decide) m), bind_ok (load_block msg 32 (by decide) m),
    bind_ok (add_ok msg 64 48 (by decide) m), bind_ok (load_block msg 48 (by decide) m)]
  rw [sse_compress_pieces]
  simp only [hiv]
  generalize mm_loadu_bytes (subArray (blockAt m msg) 0 16 _) = m0
  generalize mm_loadu_bytes (subArray (blockAt m msg) 16 16 _) = m1
  generalize mm_loadu_bytes (subArray (blockAt m msg) 32 16 _) = m2
  generalize mm_loadu_bytes (subArray (blockAt m msg) 48 16 _) = m3
  show ∃ m', (loadu128 (elemPtr .array h 32 4 0) >>= fun a =>
      storeu128 (elemPtr .array h 32 4 0) (Sse41.xor a (Sse41.xor
        (sseRounds m0 m1 m2 m3 (initRows (wordsAt m h) (count.setWidth 32) ((count >>> 32).setWidth 32) lb ln)).row1
        (sseRounds m0 m1 m2 m3 (initRows (wordsAt m h) (count.setWidth 32) ((count >>> 32).setWidth 32) lb ln)).row3))
      >>= fun _ => loadu128 (elemPtr .array h 32 4 4) >>= fun a =>
      storeu128 (elemPtr .array h 32 4 4) (Sse41.xor a (Sse41.xor
        (sseRounds m0 m1 m2 m3 (initRows (wordsAt m h) (count.setWidth 32) ((count >>> 32).setWidth 32) lb ln)).row2
        (sseRounds m0 m1 m2 m3 (initRows (wordsAt m h) (count.setWidth 32) ((count >>> 32).setWidth 32) lb ln)).row4)))
      m = _ ∧ _
  generalize sseRounds m0 m1 m2 m3 (initRows (wordsAt m h) (count.setWidth 32) ((count >>> 32).setWidth 32) lb ln)
    = row
  rw [bind_ok (load_lo h m), bind_ok (store_array h 32 4 0 (by decide) _ m), bind_ok (load_hi h _),
    store_array h 32 4 4 (by decide)]
  refine ⟨_, rfl, ?_, ?_⟩
  · rw [wordsAt_two_stores]
    have q : ∀ (x : M128) (j : Nat) (h4 : 4 ≤ j) (h8 : j < 8),
        (wordsAt (write m (h + 4 * 0) (mm_storeu_bytes x)) h)[j] = (wordsAt m h)[j] := by
      intro x j h4 h8
      rw [wordsAt_get _ _ _ h8, wordsAt_get _ _ _ h8]
      exact wordAt_of fun i hi => write_out _ _ _ _ (by omega)
    rw [q _ 4 (by decide) (by decide), q _ 5 (by decide) (by decide), q _ 6 (by decide) (by decide),
      q _ 7 (by decide) (by decide)]
    rfl
  · intro x hx
    rw [write_out _ _ _ _ (by omega), write_out _ _ _ _ (by omega)]

theorem loadu4_run (a : Nat) (m : Memory) :
    Sse41.loadu4 (asPtr a 64) m = .ok (Blake2s.Sse41.loadu4 (blockAt m a), m) := by
  unfold Sse41.loadu4
  rw [bind_ok (add_ok a 64 0 (by decide) m), bind_ok (load_block a 0 (by decide) m),
    bind_ok (add_ok a 64 16 (by decide) m), bind_ok (load_block a 16 (by decide) m),
    bind_ok (add_ok a 64 32 (by decide) m), bind_ok (load_block a 32 (by decide) m),
    bind_ok (add_ok a 64 48 (by decide) m), bind_ok (load_block a 48 (by decide) m)]
  rfl

seal Blake2s.Sse41.transposeVecs Blake2s.Sse41.loadu4 in
theorem transposeMessageBlocks_run (msg : Vector Nat 4) (m : Memory) :
    Sse41.transposeMessageBlocks msg m = .ok (Blake2s.Sse41.transposeMessageBlocks
      (blockAt m msg[0]) (blockAt m msg[1]) (blockAt m msg[2]) (blockAt m msg[3]), m) := by
  unfold Sse41.transposeMessageBlocks
  rw [bind_ok (loadu4_run _ m), bind_ok (loadu4_run _ m), bind_ok (loadu4_run _ m),
    bind_ok (loadu4_run _ m)]
  rfl

seal Blake2s.Sse41.transposeMessageBlocks Blake2s.Sse41.round_4 in
theorem compress4Transposed_run (h_vecs : Vector M128 8) (msg : Vector Nat 4) (cl ch lb ln : M128)
    (m : Memory) :
    Sse41.compress4Transposed h_vecs msg cl ch lb ln m = .ok (Blake2s.Sse41.compress4Transposed h_vecs
      #v[blockAt m msg[0], blockAt m msg[1], blockAt m msg[2], blockAt m msg[3]] cl ch lb ln, m) := by
  unfold Sse41.compress4Transposed
  rw [bind_ok (transposeMessageBlocks_run _ m)]
  rfl

/-- The four arrays do not overlap. -/
def Apart (bytes : Vector Nat 4) : Prop :=
  ∀ i j : Fin 4, i ≠ j → bytes[i] + 32 ≤ bytes[j] ∨ bytes[j] + 32 ≤ bytes[i]

theorem bytes_two_stores (m : Memory) (a : Nat) (x y : M128)
    (h1 : ∀ i (h : i < 16), m (a + i) = (mm_storeu_bytes x)[i])
    (h2 : ∀ i (h : i < 16), m (a + 1 * 16 + i) = (mm_storeu_bytes y)[i]) :
    bytesAt m a 32 = (mm_storeu_bytes x ++ mm_storeu_bytes y : Vector U8 32) := by
  apply Vector.ext
  intro i hi
  rw [bytesAt_get]
  refine Eq.trans ?_ (Vector.getElem_append ..).symm
  by_cases h : i < 16
  · rw [dif_pos h, h1 i h]
  · rw [dif_neg h]
    have := h2 (i - 16) (by omega)
    rw [show a + 1 * 16 + (i - 16) = a + i by omega] at this
    exact this

theorem zeroArray_run (a : Nat) (m : Memory) :
    Sse41.zeroArray a m = .ok ((), write m a (Vector.replicate 32 0 : Vector U8 32)) := rfl

theorem readArray_run (a : Nat) (m : Memory) : Sse41.readArray a m = .ok (bytesAt m a 32, m) := rfl

seal Blake2s.Sse41.transposeVecs in
theorem exportHashes_run (bytes : Vector Nat 4) (hb : Apart bytes) (h_vecs : Vector M128 8) (hl : U8)
    (m : Memory) :
    ∃ m', Sse41.exportHashes .array bytes h_vecs hl m = .ok (Blake2s.Sse41.exportHashes h_vecs hl, m') ∧
      ∀ x, (∀ i : Fin 4, x < bytes[i] ∨ bytes[i] + 32 ≤ x) → m' x = m x := by
  have d01 := hb 0 1 (by decide)
  have d02 := hb 0 2 (by decide)
  have d03 := hb 0 3 (by decide)
  have d12 := hb 1 2 (by decide)
  have d13 := hb 1 3 (by decide)
  have d23 := hb 2 3 (by decide)
  unfold Sse41.exportHashes
  rw [show Blake2s.Sse41.exportHashes h_vecs hl =
    #v[{ len := hl, bytes := mm_storeu_bytes (Blake2s.Sse41.transposeVecs h_vecs[0] h_vecs[1] h_vecs[2] h_vecs[3])[0] ++
          mm_storeu_bytes (Blake2s.Sse41.transposeVecs h_vecs[4] h_vecs[5] h_vecs[6] h_vecs[7])[0] },
       { len := hl, bytes := mm_storeu_bytes (Blake2s.Sse41.transposeVecs h_vecs[0] h_vecs[1] h_vecs[2] h_vecs[3])[1] ++
          mm_storeu_bytes (Blake2s.Sse41.transposeVecs h_vecs[4] h_vecs[5] h_vecs[6] h_vecs[7])[1] },
       { len := hl, bytes := mm_storeu_bytes (Blake2s.Sse41.transposeVecs h_vecs[0] h_vecs[1] h_vecs[2] h_vecs[3])[2] ++
          mm_storeu_bytes (Blake2s.Sse41.transposeVecs h_vecs[4] h_vecs[5] h_vecs[6] h_vecs[7])[2] },
       { len := hl, bytes := mm_storeu_bytes (Blake2s.Sse41.transposeVecs h_vecs[0] h_vecs[1] h_vecs[2] h_vecs[3])[3] ++
          mm_storeu_bytes (Blake2s.Sse41.transposeVecs h_vecs[4] h_vecs[5] h_vecs[6] h_vecs[7])[3] }] from rfl]
  dsimp only
  generalize Blake2s.Sse41.transposeVecs h_vecs[0] h_vecs[1] h_vecs[2] h_vecs[3] = lo
  generalize Blake2s.Sse41.transposeVecs h_vecs[4] h_vecs[5] h_vecs[6] h_vecs[7] = hi
  rw [bind_ok (zeroArray_run _ _), bind_ok (zeroArray_run _ _), bind_ok (zeroArray_run _ _),
    bind_ok (zeroArray_run _ _),
    bind_ok (store_array _ 32 1 0 (by decide) _ _), bind_ok (store_array _ 32 1 0 (by decide) _ _),
    bind_ok (store_array _ 32 1 0 (by decide) _ _), bind_ok (store_array _ 32 1 0 (by decide) _ _),
    bind_ok (store_array _ 32 1 16 (by decide) _ _), bind_ok (store_array _ 32 1 16 (by decide) _ _),
    bind_ok (store_array _ 32 1 16 (by decide) _ _), bind_ok (store_array _ 32 1 16 (by decide) _ _),
    bind_ok (readArray_run _ _), bind_ok (readArray_run _ _), bind_ok (readArray_run _ _),
    bind_ok (readArray_run _ _)]
  simp only [Fin.getElem_fin, Fin.isValue, Fin.val_zero, Fin.val_one, Fin.val_two,
    show ((3 : Fin 4) : Nat) = 3 from rfl] at d01 d02 d03 d12 d13 d23
  rw [bytes_two_stores _ bytes[0] lo[0] hi[0], bytes_two_stores _ bytes[1] lo[1] hi[1],
    bytes_two_stores _ bytes[2] lo[2] hi[2], bytes_two_stores _ bytes[3] lo[3] hi[3]]
  · refine ⟨_, pure_run _ _, ?_⟩
    intro x hx
    have h0 := hx 0
    have h1 := hx 1
    have h2 := hx 2
    have h3 := hx 3
    simp only [Fin.getElem_fin, Fin.isValue, Fin.val_zero, Fin.val_one, Fin.val_two,
      show ((3 : Fin 4) : Nat) = 3 from rfl] at h0 h1 h2 h3
    repeat rw [write_out _ _ _ _ (by omega)]
  all_goals
    intro i hi
    repeat rw [write_out _ _ _ _ (by omega)]
    exact write_in _ _ _ _ hi

/-! ## Slices -/

/-- The contents of the slices given by address and length. -/
def slicesAt {n : Nat} (m : Memory) (input : Vector (Nat × Nat) n) : Vector (List U8) n :=
  input.map fun s => (bytesAt m s.1 s.2).toList

theorem slicesAt_get {n : Nat} (m : Memory) (input : Vector (Nat × Nat) n) (i : Nat) (h : i < n) :
    (slicesAt m input)[i] = (bytesAt m input[i].1 input[i].2).toList := by
  unfold slicesAt
  rw [Vector.getElem_map]

theorem readBlockPtr_at (m : Memory) (a len off : Nat) :
    readBlockPtr (bytesAt m a len).toList off
      = if off + 64 ≤ len then .ok (blockAt m (a + off)) else .error .outOfBoundsRead := by
  by_cases h : off + 64 ≤ len
  · rw [if_pos h]
    obtain ⟨v, e, hv⟩ := readBlockPtr_ok (bytesAt m a len).toList off (by simpa using h)
    suffices v = blockAt m (a + off) by rw [e, this]
    apply Vector.toList_inj.mp
    rw [hv]
    apply List.ext_getElem
    · simp; omega
    · intro i h1 h2
      have : i < 64 := by simpa using h2
      simp only [List.getElem_take, List.getElem_drop, Vector.getElem_toList]
      unfold blockAt
      rw [bytesAt_get, bytesAt_get, Nat.add_assoc]
  · rw [if_neg h]
    unfold readBlockPtr
    rw [dif_neg (by simpa using h)]
    rfl

theorem block_step {β : Type} (a len off : Nat) (k : Nat → M β) (m : Memory) :
    ((asPtr a len).add off >>= fun p => blockRef p >>= k) m
      = if off + 64 ≤ len then k (a + off) m else .error .outOfRange := by
  by_cases h : off + 64 ≤ len
  · rw [if_pos h, bind_ok (add_ok a len off (by omega) m)]
    refine bind_ok ?_
    have := blockRef_ok a len off h m
    rwa [bind_ok (add_ok a len off (by omega) m)] at this
  · rw [if_neg h]
    have := blockRef_out a len off (by omega) m
    by_cases h' : off ≤ len
    · rw [bind_ok (add_ok a len off h' m)] at this ⊢
      exact bind_error this
    · refine bind_error ?_
      unfold Ptr.add asPtr
      rw [if_neg (by simpa using h')]
      rfl

/-- A computation on memory ends as one on values does: with the same value, in a memory of which `P`
holds; or with the same fault. -/
def Same {α : Type} (r : R α) (s : Except Fault (α × Memory)) (P : Memory → Prop) : Prop :=
  match r with
  | .ok a => ∃ m', s = .ok (a, m') ∧ P m'
  | .error .nonTermination => s = .error .nonTermination
  | .error _ => s = .error .outOfRange

theorem except_bind_ok {α β : Type} (a : α) (f : α → R β) : ((Except.ok a : R α) >>= f) = f a := rfl

theorem except_bind_error {α β : Type} (e : Blake2s.Fault) (f : α → R β) :
    ((Except.error e : R α) >>= f) = .error e := rfl

seal Blake2s.Sse41.compress4Transposed Blake2s.Sse41.exportHashes Sse41.compress4Transposed Sse41.exportHashes in
theorem hash4ExactLoop_same (bytes : Vector Nat 4) (hb : Apart bytes) (params : Params)
    (input : Vector (Nat × Nat) 4) (len : Nat) (m : Memory) :
    ∀ (fuel : Nat) (h_vecs : Vector M128 8) (count : Nat),
      Same (Blake2s.Sse41.hash4ExactLoop params (slicesAt m input) len fuel h_vecs count)
        (Sse41.hash4ExactLoop .array bytes params input len fuel h_vecs count m)
        (fun m' => ∀ x, (∀ i : Fin 4, x < bytes[i] ∨ bytes[i] + 32 ≤ x) → m' x = m x) := by
  intro fuel
  induction fuel with
  | zero => intro h_vecs count; exact rfl
  | succ fuel ih =>
    intro h_vecs count
    unfold Blake2s.Sse41.hash4ExactLoop Sse41.hash4ExactLoop
    rw [slicesAt_get, slicesAt_get, slicesAt_get, slicesAt_get, readBlockPtr_at, readBlockPtr_at,
      readBlockPtr_at, readBlockPtr_at, block_step]
    by_cases h0 : count + 64 ≤ input[0].2
    · rw [if_pos h0, if_pos h0, except_bind_ok, block_step]
      by_cases h1 : count + 64 ≤ input[1].2
      · rw [if_pos h1, if_pos h1, except_bind_ok, block_step]
        by_cases h2 : count + 64 ≤ input[2].2
        · rw [if_pos h2, if_pos h2, except_bind_ok, block_step]
          by_cases h3 : count + 64 ≤ input[3].2
          · rw [if_pos h3, if_pos h3, except_bind_ok]
            dsimp only
            rw [bind_ok (compress4Transposed_run _ _ _ _ _ _ m)]
            by_cases h : count + BLOCKBYTES = len
            · simp only [if_pos h]
              exact exportHashes_run bytes hb _ _ m
            · simp only [if_neg h]
              exact ih _ _
          · rw [if_neg h3, if_neg h3]
            exact rfl
        · rw [if_neg h2, if_neg h2]
          exact rfl
      · rw [if_neg h1, if_neg h1]
        exact rfl
    · rw [if_neg h0, if_neg h0]
      exact rfl

theorem hash4Exact_same (bytes : Vector Nat 4) (hb : Apart bytes) (params : Params)
    (input : Vector (Nat × Nat) 4) (m : Memory) :
    Same (Blake2s.Sse41.hash4Exact params (slicesAt m input)) (Sse41.hash4Exact .array bytes params input m)
      (fun m' => ∀ x, (∀ i : Fin 4, x < bytes[i] ∨ bytes[i] + 32 ≤ x) → m' x = m x) := by
  unfold Blake2s.Sse41.hash4Exact Sse41.hash4Exact
  dsimp only
  rw [slicesAt_get, Vector.length_toList]
  exact hash4ExactLoop_same bytes hb params input _ m _ _ _

/-! ## src/avx2.rs -/

theorem load2x256_run (a : Nat) (m : Memory) :
    Avx2.load2x256 a m = .ok (Blake2s.Avx2.load2x256 (blockAt m a), m) := by
  unfold Avx2.load2x256
  rw [bind_ok (load256_start a 64 (by decide) m), bind_ok (add_ok a 64 32 (by decide) m),
    bind_ok (load256_at a 64 32 (by decide) m)]
  unfold Blake2s.Avx2.load2x256
  rw [block_part, block_part]
  rfl

seal Blake2s.Avx2.transposeVecs Blake2s.Avx2.load2x256 in
theorem loadMsgVecsInterleave_run (msg : Vector Nat 8) (m : Memory) :
    Avx2.loadMsgVecsInterleave msg m = .ok (Blake2s.Avx2.loadMsgVecsInterleave
      #v[blockAt m msg[0], blockAt m msg[1], blockAt m msg[2], blockAt m msg[3], blockAt m msg[4], blockAt m msg[5], blockAt m msg[6], blockAt m msg[7]], m) := by
  unfold Avx2.loadMsgVecsInterleave
  rw [bind_ok (load2x256_run _ m), bind_ok (load2x256_run _ m), bind_ok (load2x256_run _ m),
    bind_ok (load2x256_run _ m), bind_ok (load2x256_run _ m), bind_ok (load2x256_run _ m),
    bind_ok (load2x256_run _ m), bind_ok (load2x256_run _ m)]
  rfl

theorem assignWords_run (a : Nat) (x : M256) (m : Memory) :
    assignWords a x m = .ok ((), write m a (mm256_to_bytes x)) := rfl

theorem wordsAt_congr (m m' : Memory) (a : Nat) (h : ∀ i, i < 32 → m' (a + i) = m (a + i)) :
    wordsAt m' a = wordsAt m a := by
  have : ∀ j, j < 8 → wordAt m' (a + 4 * j) = wordAt m (a + 4 * j) := by
    intro j hj
    unfold wordAt
    congr 1
    apply Vector.ext
    intro i hi
    rw [bytesAt_get, bytesAt_get, Nat.add_assoc]
    exact h _ (by omega)
  apply Vector.ext
  intro j hj
  rw [wordsAt_get _ _ _ hj, wordsAt_get _ _ _ hj, this j hj]

theorem wordsAt_write_out (m : Memory) (a b : Nat) (x : M256) (h : b + 32 ≤ a ∨ a + 32 ≤ b) :
    wordsAt (write m a (mm256_to_bytes x)) b = wordsAt m b :=
  wordsAt_congr _ _ _ fun i hi => write_out _ _ _ _ (by omega)

/-- Eight objects of 32 bytes do not overlap. -/
def Apart8 (h : Vector Nat 8) : Prop :=
  ∀ i j : Fin 8, i ≠ j → h[i] + 32 ≤ h[j] ∨ h[j] + 32 ≤ h[i]

/-- Eight assignments to objects that do not overlap. -/
theorem assign8 (h : Vector Nat 8) (hd : Apart8 h) (x : Vector M256 8) (m : Memory) :
    ∃ m', (do
        assignWords h[0] x[0]
        assignWords h[1] x[1]
        assignWords h[2] x[2]
        assignWords h[3] x[3]
        assignWords h[4] x[4]
        assignWords h[5] x[5]
        assignWords h[6] x[6]
        assignWords h[7] x[7]) m = .ok ((), m') ∧
      (∀ i : Fin 8, wordsAt m' h[i] = mm256_to_words x[i]) ∧
      ∀ a, (∀ i : Fin 8, a < h[i] ∨ h[i] + 32 ≤ a) → m' a = m a := by
  have d : ∀ i j (hi : i < 8) (hj : j < 8), i ≠ j → h[i] + 32 ≤ h[j] ∨ h[j] + 32 ≤ h[i] := by
    intro i j hi hj hij
    exact hd ⟨i, hi⟩ ⟨j, hj⟩ (by simpa using hij)
  rw [bind_ok (assignWords_run _ _ _), bind_ok (assignWords_run _ _ _), bind_ok (assignWords_run _ _ _),
    bind_ok (assignWords_run _ _ _), bind_ok (assignWords_run _ _ _), bind_ok (assignWords_run _ _ _),
    bind_ok (assignWords_run _ _ _), assignWords_run]
  refine ⟨_, rfl, ?_, ?_⟩
  · intro ⟨i, hi⟩
    match i, hi with
    | 0, _ | 1, _ | 2, _ | 3, _ | 4, _ | 5, _ | 6, _ | 7, _ =>
      simp only [Fin.getElem_fin]
      repeat rw [wordsAt_write_out _ _ _ _ (d _ _ (by decide) (by decide) (by decide))]
      exact wordsAt_write256 _ _ _
  · intro a ha
    have h0 : a < h[0] ∨ h[0] + 32 ≤ a := ha 0
    have h1 : a < h[1] ∨ h[1] + 32 ≤ a := ha 1
    have h2 : a < h[2] ∨ h[2] + 32 ≤ a := ha 2
    have h3 : a < h[3] ∨ h[3] + 32 ≤ a := ha 3
    have h4 : a < h[4] ∨ h[4] + 32 ≤ a := ha 4
    have h5 : a < h[5] ∨ h[5] + 32 ≤ a := ha 5
    have h6 : a < h[6] ∨ h[6] + 32 ≤ a := ha 6
    have h7 : a < h[7] ∨ h[7] + 32 ≤ a := ha 7
    rw [write_out _ _ _ _ (by omega), write_out _ _ _ _ (by omega), write_out _ _ _ _ (by omega),
      write_out _ _ _ _ (by omega), write_out _ _ _ _ (by omega), write_out _ _ _ _ (by omega),
      write_out _ _ _ _ (by omega), write_out _ _ _ _ (by omega)]

end Blake2s.Mem
