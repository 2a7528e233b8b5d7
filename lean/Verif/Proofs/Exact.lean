import Verif.Proofs.StateFinal
import Verif.Proofs.Avx
import Verif.Model.Many
/-!
# The SIMD `hash4_exact` and `hash8_exact`
-/

namespace Blake2s

open X86

theorem stateWordsToBytes_get (w : StateWords) (q t : Nat) (hq : q < 8) (ht : t < 4) :
    (stateWordsToBytes w)[4 * q + t] = lane 8 t w[q] := by
  have hq' : q = 0 ∨ q = 1 ∨ q = 2 ∨ q = 3 ∨ q = 4 ∨ q = 5 ∨ q = 6 ∨ q = 7 := by omega
  have ht' : t = 0 ∨ t = 1 ∨ t = 2 ∨ t = 3 := by omega
  rcases hq' with rfl | rfl | rfl | rfl | rfl | rfl | rfl | rfl <;>
    rcases ht' with rfl | rfl | rfl | rfl <;>
    (rw [← Vector.getElem_toList (h := by simp)]
     simp only [stateWordsToBytes, Vector.toList_append]
     rfl)

theorem sse_store (w : StateWords) (lo hi : M128) (hlo : ∀ j (h : j < 4), lane 32 j lo = w[j])
    (hhi : ∀ j (h : j < 4), lane 32 j hi = w[4 + j]) :
    (mm_storeu_bytes lo ++ mm_storeu_bytes hi : Vector U8 32) = stateWordsToBytes w := by
  apply Vector.ext
  intro b hb
  obtain ⟨q, t, ht, rfl⟩ : ∃ q t, t < 4 ∧ b = 4 * q + t := ⟨b / 4, b % 4, by omega, by omega⟩
  rw [stateWordsToBytes_get _ _ _ (by omega) ht, Vector.getElem_append]
  split
  · rename_i h
    simp only [mm_storeu_bytes, Vector.getElem_ofFn]
    rw [lane8_eq _ ht, hlo _ (by omega)]
  · rename_i h
    simp only [mm_storeu_bytes, Vector.getElem_ofFn]
    obtain ⟨q', rfl⟩ : ∃ q', q = 4 + q' := ⟨q - 4, by omega⟩
    rw [show 4 * (4 + q') + t - 16 = 4 * q' + t by omega, lane8_eq _ ht, hhi _ (by omega)]

theorem avx_store (w : StateWords) (x : M256) (hx : ∀ j (h : j < 8), lane 32 j x = w[j]) :
    mm256_to_bytes x = stateWordsToBytes w := by
  apply Vector.ext
  intro b hb
  obtain ⟨q, t, ht, rfl⟩ : ∃ q t, t < 4 ∧ b = 4 * q + t := ⟨b / 4, b % 4, by omega, by omega⟩
  rw [stateWordsToBytes_get _ _ _ (by omega) ht]
  simp only [mm256_to_bytes, Vector.getElem_ofFn]
  rw [lane8_eq _ ht, hx _ (by omega)]

theorem fin4_cases {P : Fin 4 → Prop} (h : ∀ i (hi : i < 4), P ⟨i, hi⟩) : ∀ i, P i :=
  fun i => h i.val i.isLt

theorem sse_export (v : Vector M128 8) (hl : U8) (i : Fin 4) :
    (Sse41.exportHashes v hl)[i] =
      { bytes := stateWordsToBytes (v.map (lane 32 i.val)), len := hl } := by
  have key : ∀ j (hj : j < 4),
      (mm_storeu_bytes (Sse41.transposeVecs v[0] v[1] v[2] v[3])[j] ++
        mm_storeu_bytes (Sse41.transposeVecs v[4] v[5] v[6] v[7])[j] : Vector U8 32) =
        stateWordsToBytes (v.map (lane 32 j)) := by
    intro j hj
    apply sse_store
    · intro t ht
      have := sse_transpose #v[v[0], v[1], v[2], v[3]] t j ht hj
      refine this.trans ?_
      rw [Vector.getElem_map]
      match t, ht with
      | 0, _ | 1, _ | 2, _ | 3, _ => rfl
    · intro t ht
      have := sse_transpose #v[v[4], v[5], v[6], v[7]] t j ht hj
      refine this.trans ?_
      rw [Vector.getElem_map]
      match t, ht with
      | 0, _ | 1, _ | 2, _ | 3, _ => rfl
  unfold Sse41.exportHashes
  simp only [key 0 (by decide), key 1 (by decide), key 2 (by decide), key 3 (by decide)]
  match i with
  | 0 | 1 | 2 | 3 => rfl

theorem avx_export (v : Vector M256 8) (hl : U8) (i : Fin 8) :
    (Avx2.exportHashes v hl)[i] =
      { bytes := stateWordsToBytes (v.map (lane 32 i.val)), len := hl } := by
  have key : ∀ j (hj : j < 8),
      mm256_to_bytes (Avx2.transposeVecs v)[j] = stateWordsToBytes (v.map (lane 32 j)) := by
    intro j hj
    apply avx_store
    intro t ht
    rw [avx_transpose v t j ht hj, Vector.getElem_map]
  unfold Avx2.exportHashes
  simp only [key 0 (by decide), key 1 (by decide), key 2 (by decide), key 3 (by decide),
    key 4 (by decide), key 5 (by decide), key 6 (by decide), key 7 (by decide)]
  match i with
  | 0 | 1 | 2 | 3 | 4 | 5 | 6 | 7 => rfl

theorem take_all_of {k : Nat} {input : List U8} (h : 64 * k + 64 = input.length) :
    (input.drop (64 * k)).take 64 = input.drop (64 * k) :=
  List.take_of_length_le (by simp; omega)

/-- One lane, one block. -/
theorem exact_lane (h0 : Fin 8 → Spec.Word) (input : List U8) (k : Nat) (hw : StateWords)
    (msg : Block) (len : Nat) (ln : Bool) (hh : toFn hw = Spec.chain h0 0 input k)
    (hm : msg.toList = (input.drop (64 * k)).take 64) (hlen : input.length = len)
    (r : StateWords)
    (hr : r = core hw (Portable.msgWords msg) ((BitVec.ofNat 64 (64 * k + 64)).setWidth 32)
      ((BitVec.ofNat 64 (64 * k + 64) >>> 32).setWidth 32)
      (if 64 * k + 64 = len then ~~~ 0 else 0) (if ln = true ∧ 64 * k + 64 = len then ~~~ 0 else 0)) :
    (64 * k + 64 ≠ len → toFn r = Spec.chain h0 0 input (k + 1)) ∧
    (64 * k + 64 = len → toFn r = Spec.absorb h0 0 input ln) := by
  have e1 : (if 64 * k + 64 = len then ~~~ 0 else 0 : U32) =
      State.flagWord (decide (64 * k + 64 = len)) := by
    unfold State.flagWord; split <;> simp_all
  have e2 : (if ln = true ∧ 64 * k + 64 = len then ~~~ 0 else 0 : U32) =
      State.flagWord (ln && decide (64 * k + 64 = len)) := by
    unfold State.flagWord
    by_cases h1 : ln = true <;> by_cases h2 : 64 * k + 64 = len <;> simp [h1, h2]
  rw [e1, e2, ← compress_eq_core] at hr
  subst hr
  rw [compress_spec, hm, hh]
  constructor
  · intro h
    rw [decide_eq_false h, Bool.and_false, Spec.chain]
    simp [Nat.mul_add]
  · intro h
    rw [decide_eq_true h, Bool.and_true, take_all_of (by omega)]
    rw [Spec.absorb_eq h0 0 input ln k 64 (by omega) (by omega) (by omega)]
    congr 1
    omega

seal Sse41.compress4Transposed core in
theorem sse_hash4Loop (p : Params) (input : Vector (List U8) 4) (len n : Nat)
    (hl : ∀ i : Fin 4, input[i].length = len) (hn : len = 64 * n) (h0 : Fin 8 → Spec.Word)
    (fuel k : Nat) (v : Vector M128 8) (hk : k < n) (hf : n - k ≤ fuel)
    (hv : ∀ i : Fin 4, toFn (v.map (lane 32 i.val)) = Spec.chain h0 0 input[i] k) :
    ∃ hs, Sse41.hash4ExactLoop p input len fuel v (64 * k) = .ok hs ∧
      ∀ i : Fin 4, hs[i].bytes.toList =
          Spec.digestBytes (Spec.absorb h0 0 input[i] p.lastNode) 32 ∧ hs[i].len = p.hashLength := by
  induction fuel generalizing k v with
  | zero => omega
  | succ fuel ih =>
    obtain ⟨b0, e0, m0⟩ := readBlockPtr_ok input[0] (64 * k) (by have : input[0].length = len := hl 0; omega)
    obtain ⟨b1, e1, m1⟩ := readBlockPtr_ok input[1] (64 * k) (by have : input[1].length = len := hl 1; omega)
    obtain ⟨b2, e2, m2⟩ := readBlockPtr_ok input[2] (64 * k) (by have : input[2].length = len := hl 2; omega)
    obtain ⟨b3, e3, m3⟩ := readBlockPtr_ok input[3] (64 * k) (by have : input[3].length = len := hl 3; omega)
    have hm : ∀ i : Fin 4, (#v[b0, b1, b2, b3] : Vector Block 4)[i].toList =
        (input[i].drop (64 * k)).take 64 := by
      intro i
      match i with
      | 0 => exact m0
      | 1 => exact m1
      | 2 => exact m2
      | 3 => exact m3
    unfold Sse41.hash4ExactLoop BLOCKBYTES
    rw [e0, e1, e2, e3]
    simp only [bind, Except.bind]
    generalize hv' : Sse41.compress4Transposed v #v[b0, b1, b2, b3] _ _ _ _ = v'
    have step := fun i : Fin 4 => exact_lane h0 input[i] k _ _ len p.lastNode (hv i) (hm i) (hl i)
      (v'.map (lane 32 i.val)) (by
        rw [← hv', lane_compress4 _ _ _ _ _ _ i.val i.isLt]
        simp only [Sse41.set1, lane_mm_set1 _ i.isLt]
        rfl)
    by_cases he : 64 * k + 64 = len
    · rw [if_pos he]
      refine ⟨_, rfl, fun i => ?_⟩
      rw [sse_export]
      refine ⟨?_, rfl⟩
      simp only []
      rw [stateWordsToBytes_spec, (step i).2 he]
    · rw [if_neg he]
      have := ih (k + 1) v' (by omega) (by omega) (fun i => (step i).1 he)
      exact this

theorem sse_hash4 (p : Params) (ho : p.nodeOffset.toNat < 2 ^ 48) (input : Vector (List U8) 4)
    (len n : Nat) (hl : ∀ i : Fin 4, input[i].length = len) (hn : len = 64 * n) (h0 : 0 < n) :
    ∃ hs, Sse41.hash4Exact p input = .ok hs ∧
      ∀ i : Fin 4, hs[i].bytes.toList =
          Spec.digestBytes (Spec.absorb p.values.init 0 input[i] p.lastNode) 32 ∧
        hs[i].len = p.hashLength := by
  unfold Sse41.hash4Exact
  simp only []
  have h := hl 0
  simp only [Fin.getElem_fin, Fin.val_zero] at h
  rw [h]
  refine sse_hash4Loop p input len n hl hn p.values.init (len + 1) 0 _ h0 (by omega) ?_
  intro i
  rw [← makeWords_spec p ho, Spec.chain]
  congr 1
  apply Vector.ext
  intro j hj
  rw [Vector.getElem_map]
  match j, hj with
  | 0, _ | 1, _ | 2, _ | 3, _ | 4, _ | 5, _ | 6, _ | 7, _ => exact lane_mm_set1 _ i.isLt

seal Avx2.compress8Transposed core Avx2.loadMsgVecsInterleave in
theorem avx_hash8Loop (p : Params) (input : Vector (List U8) 8) (len n : Nat)
    (hl : ∀ i : Fin 8, input[i].length = len) (hn : len = 64 * n) (h0 : Fin 8 → Spec.Word)
    (fuel k : Nat) (v : Vector M256 8) (hk : k < n) (hf : n - k ≤ fuel)
    (hv : ∀ i : Fin 8, toFn (v.map (lane 32 i.val)) = Spec.chain h0 0 input[i] k) :
    ∃ hs, Avx2.hash8ExactLoop p input len fuel v (64 * k) = .ok hs ∧
      ∀ i : Fin 8, hs[i].bytes.toList =
          Spec.digestBytes (Spec.absorb h0 0 input[i] p.lastNode) 32 ∧ hs[i].len = p.hashLength := by
  induction fuel generalizing k v with
  | zero => omega
  | succ fuel ih =>
    obtain ⟨b0, e0, m0⟩ := readBlockPtr_ok input[0] (64 * k) (by have : input[0].length = len := hl 0; omega)
    obtain ⟨b1, e1, m1⟩ := readBlockPtr_ok input[1] (64 * k) (by have : input[1].length = len := hl 1; omega)
    obtain ⟨b2, e2, m2⟩ := readBlockPtr_ok input[2] (64 * k) (by have : input[2].length = len := hl 2; omega)
    obtain ⟨b3, e3, m3⟩ := readBlockPtr_ok input[3] (64 * k) (by have : input[3].length = len := hl 3; omega)
    obtain ⟨b4, e4, m4⟩ := readBlockPtr_ok input[4] (64 * k) (by have : input[4].length = len := hl 4; omega)
    obtain ⟨b5, e5, m5⟩ := readBlockPtr_ok input[5] (64 * k) (by have : input[5].length = len := hl 5; omega)
    obtain ⟨b6, e6, m6⟩ := readBlockPtr_ok input[6] (64 * k) (by have : input[6].length = len := hl 6; omega)
    obtain ⟨b7, e7, m7⟩ := readBlockPtr_ok input[7] (64 * k) (by have : input[7].length = len := hl 7; omega)
    have hm : ∀ i : Fin 8, (#v[b0, b1, b2, b3, b4, b5, b6, b7] : Vector Block 8)[i].toList =
        (input[i].drop (64 * k)).take 64 := by
      intro i
      match i with
      | 0 => exact m0
      | 1 => exact m1
      | 2 => exact m2
      | 3 => exact m3
      | 4 => exact m4
      | 5 => exact m5
      | 6 => exact m6
      | 7 => exact m7
    unfold Avx2.hash8ExactLoop BLOCKBYTES
    rw [e0, e1, e2, e3, e4, e5, e6, e7]
    simp only [bind, Except.bind]
    generalize hv' : Avx2.compress8Transposed v _ _ _ _ _ = v'
    have step := fun i : Fin 8 => exact_lane h0 input[i] k _ _ len p.lastNode (hv i) (hm i) (hl i)
      (v'.map (lane 32 i.val)) (by
        rw [← hv', lane_compress8 _ _ _ _ _ _ i.val i.isLt, avx_msg _ _ i.isLt]
        simp only [Avx2.load256FromU32, lane_mm256_set1 _ i.isLt]
        rfl)
    by_cases he : 64 * k + 64 = len
    · rw [if_pos he]
      refine ⟨_, rfl, fun i => ?_⟩
      rw [avx_export]
      refine ⟨?_, rfl⟩
      simp only []
      rw [stateWordsToBytes_spec, (step i).2 he]
    · rw [if_neg he]
      have := ih (k + 1) v' (by omega) (by omega) (fun i => (step i).1 he)
      exact this

theorem avx_hash8 (p : Params) (ho : p.nodeOffset.toNat < 2 ^ 48) (input : Vector (List U8) 8)
    (len n : Nat) (hl : ∀ i : Fin 8, input[i].length = len) (hn : len = 64 * n) (h0 : 0 < n) :
    ∃ hs, Avx2.hash8Exact p input = .ok hs ∧
      ∀ i : Fin 8, hs[i].bytes.toList =
          Spec.digestBytes (Spec.absorb p.values.init 0 input[i] p.lastNode) 32 ∧
        hs[i].len = p.hashLength := by
  unfold Avx2.hash8Exact
  simp only []
  have h := hl 0
  simp only [Fin.getElem_fin, Fin.val_zero] at h
  rw [h]
  refine avx_hash8Loop p input len n hl hn p.values.init (len + 1) 0 _ h0 (by omega) ?_
  intro i
  rw [← makeWords_spec p ho, Spec.chain]
  congr 1
  apply Vector.ext
  intro j hj
  rw [Vector.getElem_map]
  match j, hj with
  | 0, _ | 1, _ | 2, _ | 3, _ | 4, _ | 5, _ | 6, _ | 7, _ => exact lane_mm256_set1 _ i.isLt

end Blake2s
