import Verif.Proofs.SseCompress
/-!
# The AVX2 8-way functions equal eight portable compressions
-/

namespace Blake2s

open X86

theorem lane_of_words (w : Vector U32 8) (i : Nat) (hi : i < 8) :
    lane 32 i (mm256_of_words w) = w[i] := by
  have h : lane 32 i (mm256_of_words w) = if h : i < 8 then w[i] else 0 := lane_pack (k := 8) _ hi
  rw [h, dif_pos hi]

theorem to_words_get (x : M256) (i : Nat) (hi : i < 8) : (mm256_to_words x)[i] = lane 32 i x := by
  simp [mm256_to_words]

theorem to_words_of_words (w : Vector U32 8) : mm256_to_words (mm256_of_words w) = w := by
  apply Vector.ext
  intro i hi
  rw [to_words_get _ _ hi, lane_of_words _ _ hi]

theorem of_words_to_words (x : M256) : mm256_of_words (mm256_to_words x) = x := by
  apply eq_of_lanes (w := 32) (k := 8)
  intro i hi
  exact (lane_of_words _ _ hi).trans (to_words_get _ _ hi)

/-- The transposed matrix. -/
def transpose8 (w : Vector StateWords 8) : Vector StateWords 8 :=
  Vector.ofFn fun i : Fin 8 => Vector.ofFn fun j : Fin 8 => w[j][i]

theorem transpose8_get (w : Vector StateWords 8) (i j : Nat) (hi : i < 8) (hj : j < 8) :
    (transpose8 w)[i][j] = w[j][i] := by simp [transpose8]

theorem transpose8_transpose8 (w : Vector StateWords 8) : transpose8 (transpose8 w) = w := by
  apply Vector.ext; intro i hi
  apply Vector.ext; intro j hj
  rw [transpose8_get _ _ _ hi hj, transpose8_get _ _ _ hj hi]

theorem avx_vectorize (w : Vector StateWords 8) : Avx2.vectorizeWords8 w = transpose8 w := by
  apply Vector.ext; intro i hi
  apply Vector.ext; intro j hj
  rw [transpose8_get _ _ _ hi hj, Avx2.vectorizeWords8, Vector.getElem_map, to_words_get _ _ hj,
    avx_transpose _ _ _ hj hi, Vector.getElem_map, lane_of_words _ _ hi]

/-- Lane `i` of transposed words. -/
theorem lane_transpose_words (w : Vector StateWords 8) (i : Nat) (hi : i < 8) :
    (Avx2.transposeVecs (w.map mm256_of_words)).map (lane 32 i) = w[i] := by
  apply Vector.ext; intro j hj
  rw [Vector.getElem_map, avx_transpose _ _ _ hi hj, Vector.getElem_map, lane_of_words _ _ hj]

theorem lane_load8 (x : Vector U32 8) (i : Nat) (hi : i < 8) :
    lane 32 i (Avx2.load256From8xU32 x[0] x[1] x[2] x[3] x[4] x[5] x[6] x[7]) = x[i] := by
  have h := lane_pack (w := 32) (k := 8) (i := i)
    (fun | 0 => x[0] | 1 => x[1] | 2 => x[2] | 3 => x[3] | 4 => x[4] | 5 => x[5] | 6 => x[6]
         | _ => x[7]) hi
  refine h.trans ?_
  match i, hi with
  | 0, _ | 1, _ | 2, _ | 3, _ | 4, _ | 5, _ | 6, _ | 7, _ => rfl

/-- Store of eight vectors. -/
def store8 (v : Vector M256 8) : Vector StateWords 8 :=
  #v[mm256_to_words v[0], mm256_to_words v[1], mm256_to_words v[2], mm256_to_words v[3],
     mm256_to_words v[4], mm256_to_words v[5], mm256_to_words v[6], mm256_to_words v[7]]

theorem store8_eq (v : Vector M256 8) : store8 v = v.map mm256_to_words := by
  rw [eta8 (v.map mm256_to_words)]
  simp only [Vector.getElem_map, store8]

/-- Load of eight vectors. -/
def load8 (v : Vector StateWords 8) : Vector M256 8 :=
  #v[mm256_of_words v[0], mm256_of_words v[1], mm256_of_words v[2], mm256_of_words v[3],
     mm256_of_words v[4], mm256_of_words v[5], mm256_of_words v[6], mm256_of_words v[7]]

theorem load8_eq (v : Vector StateWords 8) : load8 v = v.map mm256_of_words := by
  rw [eta8 (v.map mm256_of_words)]
  simp only [Vector.getElem_map, load8]

/-- The AVX2 `compress8` on vectors. -/
def avxC8 (hv : Vector M256 8) (mv : Vector Block 8) (cl ch lb ln : M256) : Vector StateWords 8 :=
  store8 (Avx2.transposeVecs (Avx2.compress8Transposed (Avx2.transposeVecs hv)
    (Avx2.loadMsgVecsInterleave mv) cl ch lb ln))

/-- `load256From8xU32` of a vector. -/
def loadU32s (x : Vector U32 8) : M256 :=
  Avx2.load256From8xU32 x[0] x[1] x[2] x[3] x[4] x[5] x[6] x[7]

theorem avxC8_get (hv : Vector M256 8) (mv : Vector Block 8) (cl ch lb ln : M256) (i : Nat)
    (hi : i < 8) : (avxC8 hv mv cl ch lb ln)[i] =
      core ((Avx2.transposeVecs hv).map (lane 32 i)) (Portable.msgWords mv[i])
        (lane 32 i cl) (lane 32 i ch) (lane 32 i lb) (lane 32 i ln) := by
  rw [← avx_msg _ _ hi, ← lane_compress8 _ _ _ _ _ _ _ hi, avxC8, store8_eq]
  apply Vector.ext; intro j hj
  rw [Vector.getElem_map, Vector.getElem_map, to_words_get _ _ hj, avx_transpose _ _ _ hj hi]

/-- The AVX2 `compress8` with its vectors folded up. -/
theorem avx_compress8_unfold (h : Vector StateWords 8) (msg : Vector Block 8) (count : Vector U64 8)
    (lb ln : Vector U32 8) :
    Avx2.compress8 h msg count lb ln =
      avxC8 (load8 h) #v[msg[0], msg[1], msg[2], msg[3], msg[4], msg[5], msg[6], msg[7]]
        (Avx2.load256From8xU32 (count[0].setWidth 32) (count[1].setWidth 32) (count[2].setWidth 32)
          (count[3].setWidth 32) (count[4].setWidth 32) (count[5].setWidth 32)
          (count[6].setWidth 32) (count[7].setWidth 32))
        (Avx2.load256From8xU32 ((count[0] >>> 32).setWidth 32) ((count[1] >>> 32).setWidth 32)
          ((count[2] >>> 32).setWidth 32) ((count[3] >>> 32).setWidth 32)
          ((count[4] >>> 32).setWidth 32) ((count[5] >>> 32).setWidth 32)
          ((count[6] >>> 32).setWidth 32) ((count[7] >>> 32).setWidth 32))
        (loadU32s lb) (loadU32s ln) := by
  simp only [Avx2.compress8, avxC8, load8, store8, loadU32s]

theorem avx_compress8_get (h : Vector StateWords 8) (msg : Vector Block 8) (count : Vector U64 8)
    (lb ln : Vector U32 8) (i : Nat) (hi : i < 8) : (Avx2.compress8 h msg count lb ln)[i] =
      Portable.compress h[i] msg[i] count[i] lb[i] ln[i] := by
  have hc := lane_load8 (count.map fun c : U64 => c.setWidth 32) i hi
  have hc' := lane_load8 (count.map fun c : U64 => (c >>> 32).setWidth 32) i hi
  have hl : lane 32 i (loadU32s lb) = lb[i] := lane_load8 lb i hi
  have hn : lane 32 i (loadU32s ln) = ln[i] := lane_load8 ln i hi
  simp only [Vector.getElem_map] at hc hc'
  have hh := lane_transpose_words h i hi
  rw [← load8_eq] at hh
  have he : (#v[msg[0], msg[1], msg[2], msg[3], msg[4], msg[5], msg[6], msg[7]] : Vector Block 8)[i] =
      msg[i] := by
    have := eta8 msg
    exact (congrArg (fun v : Vector Block 8 => v[i]) this).symm
  have hu := avx_compress8_unfold h msg count lb ln
  generalize (#v[msg[0], msg[1], msg[2], msg[3], msg[4], msg[5], msg[6], msg[7]] : Vector Block 8)
    = mv at he hu
  generalize (Avx2.load256From8xU32 (count[0].setWidth 32) (count[1].setWidth 32)
          (count[2].setWidth 32)
          (count[3].setWidth 32) (count[4].setWidth 32) (count[5].setWidth 32)
          (count[6].setWidth 32) (count[7].setWidth 32)) = cl at hc hu
  generalize (Avx2.load256From8xU32 ((count[0] >>> 32).setWidth 32) ((count[1] >>> 32).setWidth 32)
          ((count[2] >>> 32).setWidth 32) ((count[3] >>> 32).setWidth 32)
          ((count[4] >>> 32).setWidth 32) ((count[5] >>> 32).setWidth 32)
          ((count[6] >>> 32).setWidth 32) ((count[7] >>> 32).setWidth 32)) = ch at hc' hu
  have hg := avxC8_get (load8 h) mv cl ch (loadU32s lb) (loadU32s ln) i hi
  rw [hh, he, hc, hc', hl, hn, ← compress_eq_core] at hg
  rw [hu, hg]

theorem get8 {α : Type} (a0 a1 a2 a3 a4 a5 a6 a7 : α) (P : (j : Nat) → j < 8 → α → Prop)
    (h0 : P 0 (by decide) a0) (h1 : P 1 (by decide) a1) (h2 : P 2 (by decide) a2)
    (h3 : P 3 (by decide) a3) (h4 : P 4 (by decide) a4) (h5 : P 5 (by decide) a5)
    (h6 : P 6 (by decide) a6) (h7 : P 7 (by decide) a7) (j : Nat) (hj : j < 8) :
    P j hj (#v[a0, a1, a2, a3, a4, a5, a6, a7] : Vector α 8)[j] := by
  match j, hj with
  | 0, _ => exact h0
  | 1, _ => exact h1
  | 2, _ => exact h2
  | 3, _ => exact h3
  | 4, _ => exact h4
  | 5, _ => exact h5
  | 6, _ => exact h6
  | 7, _ => exact h7

theorem portable_compress8_get (h : Vector StateWords 8) (msg : Vector Block 8)
    (count : Vector U64 8) (lb ln : Vector U32 8) (i : Nat) (hi : i < 8) :
    (Portable.compress8 h msg count lb ln)[i] =
      Portable.compress h[i] msg[i] count[i] lb[i] ln[i] := by
  unfold Portable.compress8
  refine get8 _ _ _ _ _ _ _ _
    (fun i hi x => x = Portable.compress h[i] msg[i] count[i] lb[i] ln[i]) ?_ ?_ ?_ ?_ ?_ ?_ ?_ ?_ i hi
  all_goals with_reducible rfl

theorem avx_compress8 (h : Vector StateWords 8) (msg : Vector Block 8) (count : Vector U64 8)
    (lb ln : Vector U32 8) :
    Avx2.compress8 h msg count lb ln = Portable.compress8 h msg count lb ln := by
  apply Vector.ext; intro i hi
  rw [avx_compress8_get _ _ _ _ _ _ hi, portable_compress8_get _ _ _ _ _ _ hi]

/-- `compress8_vectorized` on transposed states. -/
theorem avx_compress8Vectorized (w : Vector StateWords 8) (msg : Vector Block 8)
    (cl ch lb ln : Vector U32 8) :
    Avx2.compress8Vectorized (transpose8 w) msg cl ch lb ln =
      transpose8 (Vector.ofFn fun i : Fin 8 =>
        core w[i] (Portable.msgWords msg[i]) cl[i] ch[i] lb[i] ln[i]) := by
  have hm : Avx2.loadMsgVecsInterleave
      #v[msg[0], msg[1], msg[2], msg[3], msg[4], msg[5], msg[6], msg[7]] =
      Avx2.loadMsgVecsInterleave msg := by rw [← eta8 msg]
  rw [Avx2.compress8Vectorized, hm]
  apply Vector.ext; intro j hj
  apply Vector.ext; intro i hi
  rw [transpose8_get _ _ _ hj hi, Vector.getElem_map, to_words_get _ _ hi]
  have := lane_compress8 ((transpose8 w).map mm256_of_words) (Avx2.loadMsgVecsInterleave msg)
    (mm256_of_words cl) (mm256_of_words ch) (mm256_of_words lb) (mm256_of_words ln) i hi
  have hw : ((transpose8 w).map mm256_of_words).map (lane 32 i) = w[i] := by
    apply Vector.ext; intro j hj
    rw [Vector.getElem_map, Vector.getElem_map, lane_of_words _ _ hi, transpose8_get _ _ _ hj hi]
  rw [hw, avx_msg _ _ hi, lane_of_words _ _ hi, lane_of_words _ _ hi, lane_of_words _ _ hi,
    lane_of_words _ _ hi] at this
  have h2 := congrArg (fun v : StateWords => v[j]) this
  simp only [Vector.getElem_map] at h2
  rw [h2]
  simp

/-- The counter put together from its halves. -/
theorem joinCount_halves (E : Env) (lo hi : U32) :
    ∃ c, Portable.joinCount E lo hi = .ok c ∧ c.setWidth 32 = lo ∧ (c >>> 32).setWidth 32 = hi := by
  refine ⟨lo.setWidth 64 + (hi.setWidth 64 <<< 32), ?_, ?_, ?_⟩
  · unfold Portable.joinCount addChk
    rw [if_neg]
    · rfl
    · have h1 := lo.isLt
      have h2 := hi.isLt
      simp only [Bool.and_eq_true, decide_eq_true_eq, not_and, Nat.not_le]
      intro _
      simp [Nat.shiftLeft_eq]
      omega
  · apply BitVec.eq_of_toNat_eq
    simp [Nat.shiftLeft_eq]
    have h1 := lo.isLt
    omega
  · apply BitVec.eq_of_toNat_eq
    simp [Nat.shiftLeft_eq, Nat.shiftRight_eq_div_pow]
    have h1 := lo.isLt
    have h2 := hi.isLt
    omega

seal Portable.compress core Portable.msgWords Portable.joinCount in
/-- `compress8_vectorized`, portable version. -/
theorem portable_compress8Vectorized (E : Env) (w : Vector StateWords 8) (msg : Vector Block 8)
    (cl ch lb ln : Vector U32 8) :
    Portable.compress8Vectorized E w msg cl ch lb ln = .ok (Vector.ofFn fun i : Fin 8 =>
        core w[i] (Portable.msgWords msg[i]) cl[i] ch[i] lb[i] ln[i]) := by
  have key : ∀ (i : Nat) (hi : i < 8), ∃ c, Portable.joinCount E cl[i] ch[i] = .ok c ∧
      core w[i] (Portable.msgWords msg[i]) cl[i] ch[i] lb[i] ln[i] =
        Portable.compress w[i] msg[i] c lb[i] ln[i] := by
    intro i hi
    obtain ⟨c, e, l, h⟩ := joinCount_halves E cl[i] ch[i]
    refine ⟨c, e, ?_⟩
    rw [compress_eq_core, l, h]
  obtain ⟨c0, e0, h0⟩ := key 0 (by decide)
  obtain ⟨c1, e1, h1⟩ := key 1 (by decide)
  obtain ⟨c2, e2, h2⟩ := key 2 (by decide)
  obtain ⟨c3, e3, h3⟩ := key 3 (by decide)
  obtain ⟨c4, e4, h4⟩ := key 4 (by decide)
  obtain ⟨c5, e5, h5⟩ := key 5 (by decide)
  obtain ⟨c6, e6, h6⟩ := key 6 (by decide)
  obtain ⟨c7, e7, h7⟩ := key 7 (by decide)
  have hr : Portable.compress8Vectorized E w msg cl ch lb ln = .ok
      #v[Portable.compress w[0] msg[0] c0 lb[0] ln[0], Portable.compress w[1] msg[1] c1 lb[1] ln[1],
         Portable.compress w[2] msg[2] c2 lb[2] ln[2], Portable.compress w[3] msg[3] c3 lb[3] ln[3],
         Portable.compress w[4] msg[4] c4 lb[4] ln[4], Portable.compress w[5] msg[5] c5 lb[5] ln[5],
         Portable.compress w[6] msg[6] c6 lb[6] ln[6], Portable.compress w[7] msg[7] c7 lb[7] ln[7]] := by
    simp only [Portable.compress8Vectorized, e0, e1, e2, e3, e4, e5, e6, e7, bind, Except.bind, pure,
      Except.pure]
  rw [hr]
  congr 1
  apply Vector.ext; intro i hi
  rw [Vector.getElem_ofFn]
  refine get8 _ _ _ _ _ _ _ _
    (fun i hi x => x = core w[i] (Portable.msgWords msg[i]) cl[i] ch[i] lb[i] ln[i])
    h0.symm h1.symm h2.symm h3.symm h4.symm h5.symm h6.symm h7.symm i hi

end Blake2s
