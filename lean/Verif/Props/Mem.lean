import Verif.Proofs.MemRange
import Verif.Proofs.ManyLemmas
/-!
# Memory accesses of the unsafe code (C49)

Verif/Model/Mem.lean is the code of src/sse41.rs and src/avx2.rs that uses raw pointers, on a memory of
bytes. Each pointer carries the range that it may be used for; leaving it is the fault `outOfRange`. What a
pointer made from `&a[i]` may be used for is a parameter: `.array` says the whole array, `.element` says the
one element.
-/

namespace Blake2s.Mem

open X86

/-! ## src/sse41.rs -/

/-- **C49**, `sse41::compress` (partial: pointers to an element may be used for the whole array; see
`C49_element_false`). It stays in the ranges of its pointers wherever the objects are, replaces the state by
the one that the portable function computes, and changes no other byte. -/
theorem C49_sse41_compress_partial (m : Memory) (iv h msg : Nat) (hiv : wordsAt m iv = IV) (count : U64)
    (lastblock lastnode : U32) :
    ∃ m', Sse41.compress .array iv h msg count lastblock lastnode m = .ok ((), m') ∧
      wordsAt m' h = Portable.compress (wordsAt m h) (blockAt m msg) count lastblock lastnode ∧
      ∀ a, a < h ∨ h + 32 ≤ a → m' a = m a := by
  obtain ⟨m', h1, h2, h3⟩ := sse41_compress_run m iv h msg hiv count lastblock lastnode
  exact ⟨m', h1, h2.trans (sse_compress _ _ _ _ _), h3⟩

/-- **C49**, `sse41::hash4_exact` (partial, as before). With four slices of one length, a positive multiple
of 64, it reads only bytes of the slices, changes only its four local arrays, and returns the digests of the
slices (the key is not hashed, see C19). -/
theorem C49_hash4_exact_partial (m : Memory) (bytes : Vector Nat 4)
    (hb : ∀ i j : Fin 4, i ≠ j → bytes[i] + 32 ≤ bytes[j] ∨ bytes[j] + 32 ≤ bytes[i])
    (p : Params) (hp : p.Accepted) (input : Vector (Nat × Nat) 4) (len : Nat)
    (hl : ∀ i : Fin 4, input[i].2 = len) (h64 : len % 64 = 0) (h0 : len ≠ 0) :
    ∃ hs m', Sse41.hash4Exact .array bytes p input m = .ok (hs, m') ∧
      (∀ i : Fin 4, hs[i].len = p.hashLength ∧ hs[i].bytes.toList = Spec.digestBytes
        (Spec.absorb p.values.init 0 (bytesAt m input[i].1 input[i].2).toList p.lastNode) 32) ∧
      ∀ a, (∀ i : Fin 4, a < bytes[i] ∨ bytes[i] + 32 ≤ a) → m' a = m a := by
  obtain ⟨hs, e, h⟩ := sse_hash4 p hp.valid.off (slicesAt m input) len (len / 64)
    (fun i => by
      simp only [Fin.getElem_fin]
      rw [slicesAt_get, Vector.length_toList]
      exact hl i) (by omega) (by omega)
  have s := hash4Exact_same bytes hb p input m
  rw [e] at s
  obtain ⟨m', h1, h2⟩ := s
  refine ⟨hs, m', h1, fun i => ⟨(h i).2, ?_⟩, h2⟩
  rw [(h i).1]
  simp only [Fin.getElem_fin]
  rw [slicesAt_get]

/-- **C49**: the requirement on lengths, which src/sse41.rs:714 leaves to the callers, is not stricter than
necessary. If the length of the first slice is not a positive multiple of 64, or another slice is shorter,
`hash4_exact` reads outside a slice. -/
theorem C49_hash4_exact_needs (m : Memory) (rule : Rule) (bytes : Vector Nat 4) (p : Params)
    (input : Vector (Nat × Nat) 4)
    (h : input[0].2 % 64 ≠ 0 ∨ input[0].2 = 0 ∨ ∃ i : Fin 4, input[i].2 < input[0].2) :
    Sse41.hash4Exact rule bytes p input m = .error .outOfRange :=
  hash4Exact_bad rule bytes p input h m

/-- **C49** is false under the strict rule: `loadu(&h[0])` makes a pointer to one word and reads four
(src/sse41.rs:129), `storeu(…, &mut bytes0[0])` makes a pointer to one byte and writes sixteen
(src/sse41.rs:675). Under that rule each call of `compress` and `hash4_exact` is undefined behaviour. -/
theorem C49_element_false :
    (∀ m iv h msg count lastblock lastnode,
      Sse41.compress .element iv h msg count lastblock lastnode m = .error .outOfRange) ∧
    (∀ m bytes p input, Sse41.hash4Exact .element bytes p input m = .error .outOfRange) :=
  ⟨fun m iv h msg count lb ln => compress_element iv h msg count lb ln m,
    fun m bytes p input => hash4Exact_element bytes p input m⟩

/-! ## src/avx2.rs -/

/-- **C49**, `avx2::compress8`: for eight states that do not overlap, it stays in the ranges of its pointers,
compresses each state with its own block, and changes no other byte. -/
theorem C49_avx2_compress8 (m : Memory) (h msg : Vector Nat 8)
    (hd : ∀ i j : Fin 8, i ≠ j → h[i] + 32 ≤ h[j] ∨ h[j] + 32 ≤ h[i])
    (count : Vector U64 8) (lastblock lastnode : Vector U32 8) :
    ∃ m', Avx2.compress8 h msg count lastblock lastnode m = .ok ((), m') ∧
      (∀ i : Fin 8, wordsAt m' h[i] =
        Portable.compress (wordsAt m h[i]) (blockAt m msg[i]) count[i] lastblock[i] lastnode[i]) ∧
      ∀ a, (∀ i : Fin 8, a < h[i] ∨ h[i] + 32 ≤ a) → m' a = m a := by
  obtain ⟨m', h1, h2, h3⟩ := avx2_compress8_run h msg hd count lastblock lastnode m
  refine ⟨m', h1, fun i => ?_, h3⟩
  rw [h2 i]
  simp only [Fin.getElem_fin]
  rw [avx_compress8_get _ _ _ _ _ _ i.isLt, Vector.getElem_map, Vector.getElem_map]

/-- States at multiples of 32, messages anywhere, overlapping them. -/
example (m : Memory) (count : Vector U64 8) (lastblock lastnode : Vector U32 8) :
    ∃ m', Avx2.compress8 (Vector.ofFn fun i => 32 * i.val) (Vector.ofFn fun i => 7 * i.val) count lastblock lastnode m =
      .ok ((), m') := by
  obtain ⟨m', h, -⟩ := C49_avx2_compress8 m (Vector.ofFn fun i => 32 * i.val) (Vector.ofFn fun i => 7 * i.val)
    (by decide) count lastblock lastnode
  exact ⟨m', h⟩

/-- **C49**, `avx2::vectorize_words8`: at an address that is a multiple of 32 it transposes the eight times
eight words in place, and changes no other byte. -/
theorem C49_vectorize_words8 (m : Memory) (words : Nat) (ha : words % 32 = 0) :
    ∃ m', Avx2.vectorizeWords8 words m = .ok ((), m') ∧
      (∀ i j : Fin 8, wordAt m' (words + 32 * i.val + 4 * j.val) = wordAt m (words + 32 * j.val + 4 * i.val)) ∧
      ∀ a, a < words ∨ words + 256 ≤ a → m' a = m a := by
  obtain ⟨m', h1, h2, h3⟩ := vectorizeWords8_run words ha m
  refine ⟨m', h1, fun i j => ?_, h3⟩
  rw [← states8At_word m' words i.val j.val i.isLt j.isLt, h2]
  simp only [avx_vectorize]
  rw [transpose8_get _ _ _ i.isLt j.isLt, states8At_word _ _ _ _ j.isLt i.isLt]

/-- **C49**, `avx2::compress8_vectorized`: at an address that is a multiple of 32, it compresses each of the
eight transposed states with its own block, counter and flags, and changes no other byte. -/
theorem C49_compress8_vectorized (m : Memory) (states : Nat) (ha : states % 32 = 0) (msg : Vector Nat 8)
    (count_low count_high lastblock lastnode : Nat) :
    ∃ m', Avx2.compress8Vectorized states msg count_low count_high lastblock lastnode m = .ok ((), m') ∧
      (∀ k : Fin 8, stateAt m' states k.val = Portable.compress (stateAt m states k.val) (blockAt m msg[k])
        (wordAt m (count_high + 4 * k.val) ++ wordAt m (count_low + 4 * k.val))
        (wordAt m (lastblock + 4 * k.val)) (wordAt m (lastnode + 4 * k.val))) ∧
      ∀ a, a < states ∨ states + 256 ≤ a → m' a = m a :=
  compress8Vectorized_state states ha msg count_low count_high lastblock lastnode m

example (m : Memory) : ∃ m', Avx2.compress8Vectorized 64 (Vector.ofFn fun i => 1001 + 64 * i.val) 400 432 464 496 m =
      .ok ((), m') ∧
    stateAt m' 64 3 = Portable.compress (stateAt m 64 3) (blockAt m 1193) (wordAt m 444 ++ wordAt m 412) (wordAt m 476)
      (wordAt m 508) := by
  obtain ⟨m', h, h3, -⟩ := C49_compress8_vectorized m 64 rfl (Vector.ofFn fun i => 1001 + 64 * i.val) 400 432 464 496
  exact ⟨m', h, h3 3⟩

/-- **C49**: the two functions before need `align(32)` of src/lib.rs:142. At any other address the reference
to vectors is misaligned. -/
theorem C49_needs_alignment (m : Memory) (a : Nat) (ha : a % 32 ≠ 0) (msg : Vector Nat 8)
    (count_low count_high lastblock lastnode : Nat) :
    Avx2.vectorizeWords8 a m = .error .misaligned ∧
    Avx2.compress8Vectorized a msg count_low count_high lastblock lastnode m = .error .misaligned :=
  ⟨vectorizeWords8_misaligned a ha m, compress8Vectorized_misaligned a ha msg _ _ _ _ m⟩

/-- **C49**, `avx2::hash8_exact`: with eight slices of one length, a positive multiple of 64, it reads only
bytes of the slices, changes no memory, and returns the digests of the slices (the key is not hashed). -/
theorem C49_hash8_exact (m : Memory) (p : Params) (hp : p.Accepted) (input : Vector (Nat × Nat) 8) (len : Nat)
    (hl : ∀ i : Fin 8, input[i].2 = len) (h64 : len % 64 = 0) (h0 : len ≠ 0) :
    ∃ hs, Avx2.hash8Exact p input m = .ok (hs, m) ∧
      ∀ i : Fin 8, hs[i].len = p.hashLength ∧ hs[i].bytes.toList = Spec.digestBytes
        (Spec.absorb p.values.init 0 (bytesAt m input[i].1 input[i].2).toList p.lastNode) 32 := by
  obtain ⟨hs, e, h⟩ := avx_hash8 p hp.valid.off (slicesAt m input) len (len / 64)
    (fun i => by
      simp only [Fin.getElem_fin]
      rw [slicesAt_get, Vector.length_toList]
      exact hl i) (by omega) (by omega)
  have s := hash8Exact_same p input m
  rw [e] at s
  obtain ⟨m', h1, h2⟩ := s
  subst h2
  refine ⟨hs, h1, fun i => ⟨(h i).2, ?_⟩⟩
  rw [(h i).1]
  simp only [Fin.getElem_fin]
  rw [slicesAt_get]

/-- **C49**: lengths that `hash8_exact` cannot cope with. -/
theorem C49_hash8_exact_needs (m : Memory) (p : Params) (input : Vector (Nat × Nat) 8)
    (h : input[0].2 % 64 ≠ 0 ∨ input[0].2 = 0 ∨ ∃ i : Fin 8, input[i].2 < input[0].2) :
    Avx2.hash8Exact p input m = .error .outOfRange :=
  hash8Exact_bad p input h m

example (m : Memory) (p : Params) : Avx2.hash8Exact p (Vector.ofFn fun i => (100 * i.val, 100)) m = .error .outOfRange :=
  C49_hash8_exact_needs m p _ (.inl (by decide))

/-! ## src/lib.rs -/

/-- The lengths that the assertions of src/lib.rs:785-788 and 817-820 let through. -/
def Even {n : Nat} (input : Vector (Nat × Nat) n) (len : Nat) : Prop :=
  (∀ i : Fin n, input[i].2 = len) ∧ len % 64 = 0 ∧ len ≠ 0

/-- **C49**, the safe function `hash4_exact` (partial, as before): whatever slices it is given, it makes no wrong
access. It panics unless the slices have one length, a positive multiple of 64; else it returns the digests of the
slices and changes only its local arrays. -/
theorem C49_safe_hash4_exact_partial (m : Memory) (bytes : Vector Nat 4)
    (hb : ∀ i j : Fin 4, i ≠ j → bytes[i] + 32 ≤ bytes[j] ∨ bytes[j] + 32 ≤ bytes[i])
    (p : Params) (hp : p.Accepted) (input : Vector (Nat × Nat) 4) :
    (¬ (∃ len, Even input len) → hash4ExactApi .array bytes p input m = .error .panic) ∧
    ((∃ len, Even input len) → ∃ hs m', hash4ExactApi .array bytes p input m = .ok (hs, m') ∧
      (∀ i : Fin 4, hs[i].len = p.hashLength ∧ hs[i].bytes.toList = Spec.digestBytes
        (Spec.absorb p.values.init 0 (bytesAt m input[i].1 input[i].2).toList p.lastNode) 32) ∧
      ∀ a, (∀ i : Fin 4, a < bytes[i] ∨ bytes[i] + 32 ≤ a) → m' a = m a) := by
  constructor
  · intro h
    have e : hash4ExactApi .array bytes p input = fail .panic := by
      unfold hash4ExactApi
      refine if_neg fun c => ?_
      refine h ⟨input[0].2, fun i => ?_, ?_, ?_⟩
      · simp only [Bool.and_eq_true, beq_iff_eq] at c
        match i with
        | 0 => rfl
        | 1 => exact c.1.1.1.1
        | 2 => exact c.1.1.1.2
        | 3 => exact c.1.1.2
      · simp only [Bool.and_eq_true, beq_iff_eq] at c
        exact c.1.2
      · simp only [Bool.and_eq_true, bne_iff_ne] at c
        exact c.2
    rw [e]
    rfl
  · rintro ⟨len, hl, h64, h0⟩
    have e : hash4ExactApi .array bytes p input = Sse41.hash4Exact .array bytes p input := by
      unfold hash4ExactApi
      refine if_pos ?_
      have l0 : input[0].2 = len := hl 0
      have l1 : input[1].2 = len := hl 1
      have l2 : input[2].2 = len := hl 2
      have l3 : input[3].2 = len := hl 3
      simp only [l0, l1, l2, l3, Bool.and_eq_true, beq_iff_eq, bne_iff_ne]
      exact ⟨⟨⟨⟨trivial, trivial⟩, trivial⟩, h64⟩, h0⟩
    rw [e]
    exact C49_hash4_exact_partial m bytes hb p hp input len hl h64 h0

/-- **C49**, the safe function `hash8_exact`: whatever slices it is given, it makes no wrong access. It panics
unless the slices have one length, a positive multiple of 64; else it returns the digests of the slices and changes
no memory. -/
theorem C49_safe_hash8_exact (m : Memory) (p : Params) (hp : p.Accepted) (input : Vector (Nat × Nat) 8) :
    (¬ (∃ len, Even input len) → hash8ExactApi p input m = .error .panic) ∧
    ((∃ len, Even input len) → ∃ hs, hash8ExactApi p input m = .ok (hs, m) ∧
      ∀ i : Fin 8, hs[i].len = p.hashLength ∧ hs[i].bytes.toList = Spec.digestBytes
        (Spec.absorb p.values.init 0 (bytesAt m input[i].1 input[i].2).toList p.lastNode) 32) := by
  constructor
  · intro h
    have e : hash8ExactApi p input = fail .panic := by
      unfold hash8ExactApi
      refine if_neg fun c => ?_
      refine h ⟨input[0].2, fun i => ?_, ?_, ?_⟩
      · simp only [Bool.and_eq_true, beq_iff_eq] at c
        match i with
        | 0 => rfl
        | 1 => exact c.1.1.1.1.1.1.1.1
        | 2 => exact c.1.1.1.1.1.1.1.2
        | 3 => exact c.1.1.1.1.1.1.2
        | 4 => exact c.1.1.1.1.1.2
        | 5 => exact c.1.1.1.1.2
        | 6 => exact c.1.1.1.2
        | 7 => exact c.1.1.2
      · simp only [Bool.and_eq_true, beq_iff_eq] at c
        exact c.1.2
      · simp only [Bool.and_eq_true, bne_iff_ne] at c
        exact c.2
    rw [e]
    rfl
  · rintro ⟨len, hl, h64, h0⟩
    have e : hash8ExactApi p input = Avx2.hash8Exact p input := by
      unfold hash8ExactApi
      refine if_pos ?_
      have l0 : input[0].2 = len := hl 0
      have l1 : input[1].2 = len := hl 1
      have l2 : input[2].2 = len := hl 2
      have l3 : input[3].2 = len := hl 3
      have l4 : input[4].2 = len := hl 4
      have l5 : input[5].2 = len := hl 5
      have l6 : input[6].2 = len := hl 6
      have l7 : input[7].2 = len := hl 7
      simp only [l0, l1, l2, l3, l4, l5, l6, l7, Bool.and_eq_true, beq_iff_eq, bne_iff_ne]
      exact ⟨⟨⟨⟨⟨⟨⟨⟨trivial, trivial⟩, trivial⟩, trivial⟩, trivial⟩, trivial⟩, trivial⟩, h64⟩, h0⟩
    rw [e]
    exact C49_hash8_exact m p hp input len hl h64 h0

/-! ## Cases that meet the hypotheses -/

/-- A memory with the initialisation vector at address 4096 and bytes that differ elsewhere. -/
def memory : Memory := write (fun a => BitVec.ofNat 8 (7 * a)) 4096 (stateWordsToBytes IV)

theorem memory_iv : wordsAt memory 4096 = IV := by decide +kernel

/-- `compress` with the state, the block and the constant at odd addresses is no problem: the intrinsics do
not need alignment. -/
example : ∃ m', Sse41.compress .array 4096 17 1001 64 0 0 memory = .ok ((), m') ∧
    wordsAt m' 17 = Portable.compress (wordsAt memory 17) (blockAt memory 1001) 64 0 0 ∧
    ∀ a, a < 17 ∨ 49 ≤ a → m' a = memory a :=
  C49_sse41_compress_partial memory 4096 17 1001 memory_iv 64 0 0

/-- The state really changes. -/
example : Portable.compress (wordsAt memory 17) (blockAt memory 1001) 64 0 0 ≠ wordsAt memory 17 := by
  decide +kernel

/-- Four slices that overlap each other, and four local arrays. -/
example : ∃ hs m', Sse41.hash4Exact .array #v[2000, 2032, 2064, 2096] Params.new
      #v[(0, 128), (64, 128), (3, 128), (3, 128)] memory = .ok (hs, m') ∧
    (∀ i : Fin 4, hs[i].len = Params.new.hashLength ∧ hs[i].bytes.toList = Spec.digestBytes
      (Spec.absorb Params.new.values.init 0 (bytesAt memory
        (#v[(0, 128), (64, 128), (3, 128), (3, 128)] : Vector (Nat × Nat) 4)[i].1
        (#v[(0, 128), (64, 128), (3, 128), (3, 128)] : Vector (Nat × Nat) 4)[i].2).toList
        Params.new.lastNode) 32) ∧
    ∀ a, (∀ i : Fin 4, a < (#v[2000, 2032, 2064, 2096] : Vector Nat 4)[i] ∨
      (#v[2000, 2032, 2064, 2096] : Vector Nat 4)[i] + 32 ≤ a) → m' a = memory a :=
  C49_hash4_exact_partial memory _ (by decide) Params.new ⟨[], rfl⟩ _ 128 (by decide) (by decide) (by decide)

/-- A slice that is too short by one byte. -/
example : Sse41.hash4Exact .array #v[2000, 2032, 2064, 2096] Params.new
    #v[(0, 128), (64, 128), (3, 127), (3, 128)] memory = .error .outOfRange :=
  C49_hash4_exact_needs memory _ _ _ _ (by decide)

/-- Eight states side by side. -/
example : ∀ i j : Fin 8, i ≠ j →
    (#v[0, 32, 64, 96, 128, 160, 192, 224] : Vector Nat 8)[i] + 32 ≤
      (#v[0, 32, 64, 96, 128, 160, 192, 224] : Vector Nat 8)[j] ∨
    (#v[0, 32, 64, 96, 128, 160, 192, 224] : Vector Nat 8)[j] + 32 ≤
      (#v[0, 32, 64, 96, 128, 160, 192, 224] : Vector Nat 8)[i] := by decide

/-- Words at an aligned address, and at one that is aligned for `u32` only. -/
example : (∃ m', Avx2.vectorizeWords8 64 memory = .ok ((), m')) ∧
    Avx2.vectorizeWords8 68 memory = .error .misaligned :=
  ⟨(C49_vectorize_words8 memory 64 (by decide)).imp fun _ h => h.1,
    (C49_needs_alignment memory 68 (by decide) (Vector.replicate 8 0) 0 0 0 0).1⟩

/-- Transposing moves bytes. -/
example : wordAt memory (64 + 4) ≠ wordAt memory (64 + 32) := by decide +kernel

example : ∃ hs, Avx2.hash8Exact Params.new (Vector.replicate 8 (5, 64)) memory = .ok (hs, memory) :=
  (C49_hash8_exact memory Params.new ⟨[], rfl⟩ _ 64 (by decide) (by decide) (by decide)).imp fun _ h => h.1

/-- The safe functions, with good lengths and with a slice that is too short by one byte. -/
example : (∃ hs, hash8ExactApi Params.new (Vector.replicate 8 (5, 64)) memory = .ok (hs, memory)) ∧
    hash8ExactApi Params.new ((Vector.replicate 8 (5, 64)).set 3 (5, 63)) memory = .error .panic ∧
    hash4ExactApi .array #v[2000, 2032, 2064, 2096] Params.new
      #v[(0, 128), (64, 128), (3, 127), (3, 128)] memory = .error .panic :=
  ⟨((C49_safe_hash8_exact memory Params.new ⟨[], rfl⟩ _).2
      ⟨64, by decide, by decide, by decide⟩).imp fun _ h => h.1,
    (C49_safe_hash8_exact memory Params.new ⟨[], rfl⟩ _).1
      fun ⟨_, h, _, _⟩ => absurd ((h 0).trans (h 3).symm) (by decide),
    (C49_safe_hash4_exact_partial memory _ (by decide) Params.new ⟨[], rfl⟩ _).1
      fun ⟨_, h, _, _⟩ => absurd ((h 0).trans (h 2).symm) (by decide)⟩

end Blake2s.Mem
