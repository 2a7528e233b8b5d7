import Verif.Proofs.WorkMany
import Verif.Proofs.LeafInput
/-!
# How many blocks BLAKE2sp compresses
-/

namespace Blake2s

open Tr (lift emit)


/-! ## What `update` keeps -/

namespace State

theorem fillBufT_keeps {E : Env} {s : State} {i : List U8} {r : State × List U8}
    (h : (s.fillBufT E i).1 = .ok r) : r.1.hashLength = s.hashLength := by
  have : Post (s.fillBufT E i) fun r _ => r.1.hashLength = s.hashLength := by
    unfold fillBufT
    refine Post.quiet (quiet_usizeSubT _ _) fun _ _ => ?_
    refine Post.quiet (quiet_minT _ _) fun _ _ => ?_
    refine Post.quiet (quiet_usizeAddT _ _) fun _ _ => ?_
    refine Post.quiet (quiet_sliceToT _ _) fun _ _ => ?_
    refine Post.quiet (quiet_copyFromSliceT _ _ _ _) fun _ _ => ?_
    refine Post.quiet (quiet_addChkT _ _ _) fun _ _ => ?_
    refine Post.quiet (quiet_addChkT _ _ _) fun _ _ => ?_
    refine Post.quiet (quiet_sliceFromT _ _) fun _ _ => ?_
    exact Post.pure rfl
  exact this r h

theorem compressBufferT_keeps (E : Env) (s : State) (i : List U8) :
    Post (s.compressBufferIfPossibleT E i) fun r _ => r.1.hashLength = s.hashLength := by
  unfold compressBufferIfPossibleT
  refine Post.quiet (quiet_test _) fun b _ => ?_
  split
  · refine Post.quiet (quiet_fillBufT _ _ _) fun r hr => ?_
    have hk := fillBufT_keeps hr
    refine Post.quiet (quiet_test _) fun b _ => ?_
    split
    · refine Post.count 1 (compress_blocks _ _ _ _ _ _ _) fun h _ => ?_
      exact Post.pure hk
    · exact Post.pure hk
  · exact Post.pure rfl

theorem updateLoopT_keeps (E : Env) (fuel : Nat) (s : State) (i : List U8) :
    Post (updateLoopT E fuel s i) fun r _ => r.1.hashLength = s.hashLength := by
  induction fuel generalizing s i with
  | zero => intro a h; cases h
  | succ n ih =>
    unfold updateLoopT
    refine Post.quiet (quiet_test _) fun b _ => ?_
    split
    · refine Post.quiet (quiet_addChkT _ _ _) fun c _ => ?_
      refine Post.quiet (quiet_arrayRefT _ _ _) fun bl _ => ?_
      refine Post.count 1 (compress_blocks _ _ _ _ _ _ _) fun h _ => ?_
      refine Post.quiet (quiet_sliceFromT _ _) fun q _ => ?_
      exact (ih _ _).mono fun _ _ h => h
    · exact Post.pure rfl

theorem updateT_keeps (E : Env) (s : State) (i : List U8) :
    Post (s.updateT E i) fun s' _ => s'.hashLength = s.hashLength := by
  unfold updateT
  refine Post.bind (compressBufferT_keeps E s i) fun r _ hr => ?_
  refine Post.bind (updateLoopT_keeps E _ r.1 r.2) fun q _ hq => ?_
  refine Post.quiet (quiet_fillBufT _ _ _) fun t ht => ?_
  exact Post.pure ((fillBufT_keeps ht).trans (hq.trans hr))

/-- A leaf that will return 32 bytes. -/
def Leaf (s : State) (n : Nat) : Prop := s.Level n ∧ s.hashLength = 32

theorem updateT_leaf (E : Env) (s : State) (i : List U8) {n : Nat} (h : s.Leaf n) :
    Post (s.updateT E i) fun s' k =>
      s'.Leaf (n + i.length) ∧ (n - 1) / 64 + k = (n + i.length - 1) / 64 := fun s' e => by
  have h1 := updateT_post E s i h.1 s' e
  have h2 := updateT_keeps E s i s' e
  exact ⟨⟨h1.1, h2.trans h.2⟩, h1.2⟩

theorem finalizeT_leaf (E : Env) (s : State) {n : Nat} (h : s.Leaf n) :
    Post (s.finalizeT E) fun r k => k = 1 ∧ r.2.len = 32 := by
  unfold finalizeT
  refine Post.quiet (quiet_zeroTailT _ _) fun b _ => ?_
  refine Post.quiet (quiet_flagWordT _) fun l _ => ?_
  refine Post.count 1 (compress_blocks _ _ _ _ _ _ _) fun _ _ => ?_
  exact Post.pure ⟨rfl, h.2⟩

end State

theorem asBytesT_length {h : Hash} {b : List U8} (hl : h.len = 32) (e : h.asBytesT.1 = .ok b) :
    b.length = 32 := by
  obtain ⟨rfl, hle⟩ := sliceToT_val e
  rw [List.length_take, hl]
  rw [hl] at hle
  exact Nat.min_eq_left hle

namespace Sp.State

/-- A state that has been fed `n` bytes and has passed on `r` rows of eight blocks, with `kb` bytes of key
in each leaf. -/
structure Level (s : State) (kb n r : Nat) : Prop where
  total : s.buflen.toNat + 512 * r = n
  room : s.buflen.toNat ≤ 1024
  ahead : 0 < r → 448 < s.buflen.toNat
  leaf : ∀ i : Fin 8, s.leaves[i].Leaf kb
  root : s.root.Level 0

theorem quiet_fillBufT (E : Env) (s : State) (i : List U8) : Quiet (s.fillBufT E i) := by
  unfold fillBufT; quiet

theorem fillBufT_val {E : Env} {s : State} {i : List U8} {r : State × List U8}
    (h : (s.fillBufT E i).1 = .ok r) : s.buflen.toNat ≤ 1024 ∧
      r.1.buflen.toNat = s.buflen.toNat + min (1024 - s.buflen.toNat) i.length ∧
      r.2.length = i.length - (1024 - s.buflen.toNat) ∧ r.1.leaves = s.leaves ∧ r.1.root = s.root := by
  have : Post (s.fillBufT E i) fun r _ => s.buflen.toNat ≤ 1024 ∧
      r.1.buflen.toNat = s.buflen.toNat + min (1024 - s.buflen.toNat) i.length ∧
      r.2.length = i.length - (1024 - s.buflen.toNat) ∧ r.1.leaves = s.leaves ∧ r.1.root = s.root := by
    unfold fillBufT
    refine Post.quiet (quiet_usizeSubT _ _) fun d hd => ?_
    obtain ⟨rfl, hle⟩ := usizeSubT_val hd
    refine Post.quiet (quiet_minT _ _) fun t ht => ?_
    obtain rfl := minT_val ht
    refine Post.quiet (quiet_usizeAddT _ _) fun _ _ => ?_
    refine Post.quiet (quiet_sliceToT _ _) fun p hp => ?_
    refine Post.quiet (quiet_copyFromSliceT _ _ _ _) fun b hb => ?_
    refine Post.quiet (quiet_addChkT _ _ _) fun l hl => ?_
    obtain rfl := addChkT_val hl
    refine Post.quiet (quiet_sliceFromT _ _) fun q hq => ?_
    obtain ⟨rfl, -⟩ := sliceFromT_val hq
    refine Post.pure ⟨hle, ?_, ?_, rfl, rfl⟩
    · show (s.buflen + BitVec.ofNat 16 _).toNat = _
      rw [BitVec.toNat_add, BitVec.toNat_ofNat]
      omega
    · show (i.drop _).length = _
      rw [List.length_drop]
      omega
  exact this r h

theorem compress8T_post (E : Env) (i : Vector U8 512) (lf : Vector Blake2s.State 8) (f : Compress8Fn)
    {kb : Nat} (h : ∀ i : Fin 8, lf[i].Leaf kb) :
    Post (compress8T E i lf f) fun r k => k = 8 ∧ ∀ i : Fin 8, r[i].Leaf kb := by
  unfold compress8T
  iterate 15 refine Post.quiet (quiet_debugAssertT _ _ _) fun _ _ => ?_
  iterate 8 refine Post.quiet (quiet_addChkT _ _ _) fun _ _ => ?_
  refine Post.count 8 (compress8_blocks _ _ _ _ _ _ _) fun w _ => ?_
  refine Post.pure ⟨rfl, fun i => ?_⟩
  match i with
  | 0 => exact h 0
  | 1 => exact h 1
  | 2 => exact h 2
  | 3 => exact h 3
  | 4 => exact h 4
  | 5 => exact h 5
  | 6 => exact h 6
  | 7 => exact h 7

theorem updateBufferedT_post (E : Env) (s : State) (i : List U8) {kb n r : Nat} (h : s.Level kb n r) :
    Post (s.updateBufferedT E i) fun q k => ∃ j, k = 8 * j ∧ (∀ i : Fin 8, q.1.leaves[i].Leaf kb) ∧
      q.1.root.Level 0 ∧ q.1.buflen.toNat ≤ 1024 ∧
      q.1.buflen.toNat + q.2.length + 512 * (r + j) = n + i.length ∧
      (q.1.buflen.toNat = 0 ∨ q.2.length = 0 ∨ q.1.buflen.toNat = 512 ∧ q.2.length ≤ 448) ∧
      (0 < r + j → 448 < q.1.buflen.toNat + q.2.length) := by
  unfold updateBufferedT
  refine Post.quiet (quiet_test _) fun b hb => ?_
  obtain rfl := test_val hb
  have ht := h.total
  have ha := h.ahead
  split
  · rename_i h0
    have h0 : 0 < s.buflen.toNat := by simpa using h0
    refine Post.quiet (quiet_fillBufT _ _ _) fun q hq => ?_
    obtain ⟨h1, h2, h3, h4, h5⟩ := fillBufT_val hq
    obtain ⟨s', i'⟩ := q
    refine Post.quiet (quiet_test _) fun b hb => ?_
    obtain rfl := test_val hb
    have he : (i'.isEmpty = true) ↔ i'.length = 0 := by rw [List.isEmpty_iff, List.length_eq_zero_iff]
    simp only at h2 h3 h4 h5 ⊢
    have hl : ∀ i : Fin 8, s'.leaves[i].Leaf kb := by rw [h4]; exact h.leaf
    have hr : s'.root.Level 0 := by rw [h5]; exact h.root
    split
    · rename_i hn
      have hn : ¬ i'.length = 0 := by rw [← he]; simpa using hn
      refine Post.bind (compress8T_post E _ _ _ hl) fun lf k hk => ?_
      obtain ⟨rfl, hlf⟩ := hk
      refine Post.quiet (quiet_subChkT _ _ _) fun bl hbl => ?_
      obtain rfl := subChkT_val hbl
      have hbl : (s'.buflen - 8 * BitVec.ofNat 16 BLOCKBYTES).toNat = 512 := by
        have : s'.buflen = 1024 := by
          apply BitVec.eq_of_toNat_eq
          show s'.buflen.toNat = 1024
          omega
        rw [this]
        rfl
      refine Post.quiet (quiet_test _) fun b hb => ?_
      obtain rfl := test_val hb
      split
      · rename_i hg
        have hg : 448 < i'.length := of_decide_eq_true hg
        refine Post.bind (compress8T_post E _ _ _ hlf) fun lf2 k hk => ?_
        obtain ⟨rfl, hlf2⟩ := hk
        refine Post.pure ⟨2, rfl, hlf2, hr, Nat.zero_le _, ?_, Or.inl rfl, fun _ => ?_⟩
        · show 0 + i'.length + _ = _
          omega
        · show 448 < 0 + i'.length
          omega
      · rename_i hg
        have hg : i'.length ≤ 448 := Nat.le_of_not_lt fun h => hg (decide_eq_true h)
        refine Post.quiet (quiet_sliceToT _ _) fun p _ => ?_
        refine Post.quiet (quiet_copyFromSliceT _ _ _ _) fun p _ => ?_
        refine Post.pure ⟨1, rfl, hlf, hr, ?_, ?_, Or.inr (Or.inr ⟨hbl, hg⟩), fun _ => ?_⟩
        · show (s'.buflen - 8 * BitVec.ofNat 16 BLOCKBYTES).toNat ≤ 1024
          rw [hbl]; omega
        · show (s'.buflen - 8 * BitVec.ofNat 16 BLOCKBYTES).toNat + i'.length + _ = _
          rw [hbl]; omega
        · show 448 < (s'.buflen - 8 * BitVec.ofNat 16 BLOCKBYTES).toNat + i'.length
          rw [hbl]; omega
    · rename_i hn
      have hn : i'.length = 0 := by rw [← he]; simpa using hn
      refine Post.pure ⟨0, rfl, hl, hr, ?_, ?_, Or.inr (Or.inl hn), fun _ => ?_⟩
      · show s'.buflen.toNat ≤ 1024
        omega
      · show s'.buflen.toNat + i'.length + _ = _
        omega
      · show 448 < s'.buflen.toNat + i'.length
        omega
  · rename_i h0
    have h0 : s.buflen.toNat = 0 := by simpa using h0
    refine Post.pure ⟨0, rfl, h.leaf, h.root, h.room, ?_, Or.inl h0, fun _ => ?_⟩
    · show s.buflen.toNat + i.length + _ = _
      omega
    · omega

theorem updateLoopT_post (E : Env) (f : Compress8Fn) (fuel : Nat) (lf : Vector Blake2s.State 8) (i : List U8)
    {kb : Nat} (h : ∀ i : Fin 8, lf[i].Leaf kb) :
    Post (updateLoopT E f fuel lf i) fun q k => ∃ j, k = 8 * j ∧ (∀ i : Fin 8, q.1[i].Leaf kb) ∧
      q.2.length + 512 * j = i.length ∧ q.2.length ≤ 960 ∧ (0 < j → 448 < q.2.length) := by
  induction fuel generalizing lf i with
  | zero => intro a h; cases h
  | succ n ih =>
    unfold updateLoopT
    refine Post.quiet (quiet_test _) fun b hb => ?_
    obtain rfl := test_val hb
    split
    · rename_i h0
      have h0 : 960 < i.length := of_decide_eq_true h0
      refine Post.quiet (quiet_arrayRefT _ _ _) fun bl _ => ?_
      refine Post.bind (compress8T_post E _ _ _ h) fun lf' k hk => ?_
      obtain ⟨rfl, hlf⟩ := hk
      refine Post.quiet (quiet_sliceFromT _ _) fun q hq => ?_
      obtain ⟨rfl, -⟩ := sliceFromT_val hq
      refine (ih _ _ hlf).mono ?_
      rintro q k ⟨j, rfl, h1, h2, h3, h4⟩
      rw [List.length_drop] at h2
      simp only [BLOCKBYTES] at h2
      refine ⟨j + 1, by omega, h1, by omega, h3, fun _ => ?_⟩
      by_cases hj : 0 < j
      · exact h4 hj
      · omega
    · rename_i h0
      have h0 : i.length ≤ 960 := Nat.le_of_not_lt fun h => h0 (decide_eq_true h)
      exact Post.pure ⟨0, rfl, h, rfl, h0, fun h => absurd h (Nat.lt_irrefl 0)⟩

theorem updateT_post (E : Env) (s : State) (i : List U8) {kb n r : Nat} (h : s.Level kb n r) :
    Post (s.updateT E i) fun s' k => ∃ j, k = 8 * j ∧ s'.Level kb (n + i.length) (r + j) := by
  unfold updateT
  refine Post.bind (updateBufferedT_post E s i h) fun q k hk => ?_
  obtain ⟨s1, i1⟩ := q
  obtain ⟨j, rfl, a1, a2, a3, a4, a5, a6⟩ := hk
  refine Post.bind (updateLoopT_post E _ _ _ i1 a1) fun q k hk => ?_
  obtain ⟨lf, i2⟩ := q
  obtain ⟨j2, rfl, b1, b2, b3, b4⟩ := hk
  refine Post.quiet (quiet_fillBufT _ _ _) fun q hq => ?_
  obtain ⟨h1, h2, h3, h4, h5⟩ := fillBufT_val hq
  obtain ⟨s3, i3⟩ := q
  refine Post.quiet (quiet_debugAssertT _ _ _) fun _ _ => ?_
  simp only at a2 a3 a4 a5 a6 b1 b2 b3 b4 h1 h2 h3 h4 h5 ⊢
  have e2 : s3.buflen.toNat = s1.buflen.toNat + i2.length := by omega
  refine Post.pure ⟨j + j2, by omega, ?_⟩
  refine ⟨by omega, by omega, ?_, by rw [h4]; exact b1, by rw [h5]; exact a2⟩
  intro hp
  by_cases hj : 0 < j2
  · have := b4 hj; omega
  · have := a6 (by omega); omega

/-! ## `finalize` -/

theorem updateChunkT_post (E : Env) (lf : Blake2s.State) (buf : Vector U8 1024) (k : Fin 16) (bl : Nat)
    {m : Nat} (h : lf.Leaf m) :
    Post (updateChunkT E lf buf k bl) fun s c =>
      s.Leaf (m + min bl 64) ∧ (m - 1) / 64 + c = (m + min bl 64 - 1) / 64 := by
  unfold updateChunkT
  refine Post.quiet (quiet_minT _ _) fun t ht => ?_
  obtain rfl := minT_val ht
  refine Post.quiet (quiet_sliceToT _ _) fun q hq => ?_
  obtain ⟨rfl, hle⟩ := sliceToT_val hq
  refine (Blake2s.State.updateT_leaf E lf _ h).mono ?_
  intro s c hs
  rw [List.length_take, Nat.min_eq_left hle] at hs
  exact hs

/-- The bytes of the buffer that belong to leaf `i`. -/
def share (b i : Nat) : Nat := min (b - 64 * i) 64 + min (b - 64 * (8 + i)) 64

theorem leaf_sum {kb b k1 k2 f i : Nat} (h1 : (kb - 1) / 64 + k1 = (kb + min (b - 64 * i) 64 - 1) / 64)
    (h2 : (kb + min (b - 64 * i) 64 - 1) / 64 + k2 =
      (kb + min (b - 64 * i) 64 + min (b - 64 * (8 + i)) 64 - 1) / 64) (h3 : f = 1) :
    k1 + k2 + f = blocksFor (kb + share b i) - (kb - 1) / 64 := by
  rw [blocksFor_eq]; unfold share; omega

theorem root_sum {n0 n1 n2 n3 n4 n5 n6 n7 g0 g1 g2 g3 g4 g5 g6 g7 f : Nat}
    (h0 : (0 - 1) / 64 + g0 = (0 + n0 - 1) / 64)
    (h1 : (0 + n0 - 1) / 64 + g1 = (0 + n0 + n1 - 1) / 64)
    (h2 : (0 + n0 + n1 - 1) / 64 + g2 = (0 + n0 + n1 + n2 - 1) / 64)
    (h3 : (0 + n0 + n1 + n2 - 1) / 64 + g3 = (0 + n0 + n1 + n2 + n3 - 1) / 64)
    (h4 : (0 + n0 + n1 + n2 + n3 - 1) / 64 + g4 = (0 + n0 + n1 + n2 + n3 + n4 - 1) / 64)
    (h5 : (0 + n0 + n1 + n2 + n3 + n4 - 1) / 64 + g5 = (0 + n0 + n1 + n2 + n3 + n4 + n5 - 1) / 64)
    (h6 : (0 + n0 + n1 + n2 + n3 + n4 + n5 - 1) / 64 + g6 = (0 + n0 + n1 + n2 + n3 + n4 + n5 + n6 - 1) / 64)
    (h7 : (0 + n0 + n1 + n2 + n3 + n4 + n5 + n6 - 1) / 64 + g7 =
      (0 + n0 + n1 + n2 + n3 + n4 + n5 + n6 + n7 - 1) / 64)
    (a0 : n0 = 32) (a1 : n1 = 32) (a2 : n2 = 32) (a3 : n3 = 32) (a4 : n4 = 32) (a5 : n5 = 32) (a6 : n6 = 32)
    (a7 : n7 = 32) (hf : f = 1) : g0 + g1 + g2 + g3 + g4 + g5 + g6 + g7 + f = 4 := by
  subst a0 a1 a2 a3 a4 a5 a6 a7
  simp only [Nat.reduceAdd, Nat.reduceSub, Nat.reduceDiv] at h0 h1 h2 h3 h4 h5 h6 h7
  omega

theorem regroup {A : Nat → Nat} {k0 k1 k2 k3 k4 k5 k6 k7 k8 k9 k10 k11 k12 k13 k14 k15
    f0 f1 f2 f3 f4 f5 f6 f7 g0 g1 g2 g3 g4 g5 g6 g7 f : Nat}
    (a0 : k0 + k8 + f0 = A 0) (a1 : k1 + k9 + f1 = A 1) (a2 : k2 + k10 + f2 = A 2) (a3 : k3 + k11 + f3 = A 3)
    (a4 : k4 + k12 + f4 = A 4) (a5 : k5 + k13 + f5 = A 5) (a6 : k6 + k14 + f6 = A 6) (a7 : k7 + k15 + f7 = A 7)
    (h : g0 + g1 + g2 + g3 + g4 + g5 + g6 + g7 + f = 4) :
    k0 + (k1 + (k2 + (k3 + (k4 + (k5 + (k6 + (k7 + (k8 + (k9 + (k10 + (k11 + (k12 + (k13 + (k14 + (k15 +
      (f0 + (g0 + (f1 + (g1 + (f2 + (g2 + (f3 + (g3 + (f4 + (g4 + (f5 + (g5 + (f6 + (g6 + (f7 + (g7 +
      (f + 0)))))))))))))))))))))))))))))))) = ((List.range 8).map A).sum + 4 := by
  rw [show ((List.range 8).map A).sum = A 0 + (A 1 + (A 2 + (A 3 + (A 4 + (A 5 + (A 6 + (A 7 + 0))))))) from
    rfl, ← a0, ← a1, ← a2, ← a3, ← a4, ← a5, ← a6, ← a7, ← h]
  ac_rfl

theorem finalizeT_post (E : Env) (s : State) {kb : Nat} (hl : ∀ i : Fin 8, s.leaves[i].Leaf kb)
    (hr : s.root.Level 0) :
    Post (s.finalizeT E) fun _ k =>
      k = ((List.range 8).map fun i => blocksFor (kb + share s.buflen.toNat i) - (kb - 1) / 64).sum + 4 := by
  unfold finalizeT
  simp only []
  refine Post.bind (updateChunkT_post E _ _ 0 _ (hl 0)) fun s0 k0 l0 => ?_
  refine Post.quiet (quiet_saturatingSubT _) fun b1 hb1 => ?_
  have hb1 : b1 = s.buflen.toNat - 64 := by
    cases hb1
    rfl
  refine Post.bind (updateChunkT_post E _ _ 1 _ (hl 1)) fun s1 k1 l1 => ?_
  refine Post.quiet (quiet_saturatingSubT _) fun b2 hb2 => ?_
  have hb2 : b2 = s.buflen.toNat - 128 := by
    cases hb2
    rw [hb1]
    exact Nat.sub_sub _ _ _
  refine Post.bind (updateChunkT_post E _ _ 2 _ (hl 2)) fun s2 k2 l2 => ?_
  refine Post.quiet (quiet_saturatingSubT _) fun b3 hb3 => ?_
  have hb3 : b3 = s.buflen.toNat - 192 := by
    cases hb3
    rw [hb2]
    exact Nat.sub_sub _ _ _
  refine Post.bind (updateChunkT_post E _ _ 3 _ (hl 3)) fun s3 k3 l3 => ?_
  refine Post.quiet (quiet_saturatingSubT _) fun b4 hb4 => ?_
  have hb4 : b4 = s.buflen.toNat - 256 := by
    cases hb4
    rw [hb3]
    exact Nat.sub_sub _ _ _
  refine Post.bind (updateChunkT_post E _ _ 4 _ (hl 4)) fun s4 k4 l4 => ?_
  refine Post.quiet (quiet_saturatingSubT _) fun b5 hb5 => ?_
  have hb5 : b5 = s.buflen.toNat - 320 := by
    cases hb5
    rw [hb4]
    exact Nat.sub_sub _ _ _
  refine Post.bind (updateChunkT_post E _ _ 5 _ (hl 5)) fun s5 k5 l5 => ?_
  refine Post.quiet (quiet_saturatingSubT _) fun b6 hb6 => ?_
  have hb6 : b6 = s.buflen.toNat - 384 := by
    cases hb6
    rw [hb5]
    exact Nat.sub_sub _ _ _
  refine Post.bind (updateChunkT_post E _ _ 6 _ (hl 6)) fun s6 k6 l6 => ?_
  refine Post.quiet (quiet_saturatingSubT _) fun b7 hb7 => ?_
  have hb7 : b7 = s.buflen.toNat - 448 := by
    cases hb7
    rw [hb6]
    exact Nat.sub_sub _ _ _
  refine Post.bind (updateChunkT_post E _ _ 7 _ (hl 7)) fun s7 k7 l7 => ?_
  refine Post.quiet (quiet_saturatingSubT _) fun b8 hb8 => ?_
  have hb8 : b8 = s.buflen.toNat - 512 := by
    cases hb8
    rw [hb7]
    exact Nat.sub_sub _ _ _
  refine Post.bind (updateChunkT_post E _ _ 8 _ (l0.1)) fun s8 k8 l8 => ?_
  refine Post.quiet (quiet_saturatingSubT _) fun b9 hb9 => ?_
  have hb9 : b9 = s.buflen.toNat - 576 := by
    cases hb9
    rw [hb8]
    exact Nat.sub_sub _ _ _
  refine Post.bind (updateChunkT_post E _ _ 9 _ (l1.1)) fun s9 k9 l9 => ?_
  refine Post.quiet (quiet_saturatingSubT _) fun b10 hb10 => ?_
  have hb10 : b10 = s.buflen.toNat - 640 := by
    cases hb10
    rw [hb9]
    exact Nat.sub_sub _ _ _
  refine Post.bind (updateChunkT_post E _ _ 10 _ (l2.1)) fun s10 k10 l10 => ?_
  refine Post.quiet (quiet_saturatingSubT _) fun b11 hb11 => ?_
  have hb11 : b11 = s.buflen.toNat - 704 := by
    cases hb11
    rw [hb10]
    exact Nat.sub_sub _ _ _
  refine Post.bind (updateChunkT_post E _ _ 11 _ (l3.1)) fun s11 k11 l11 => ?_
  refine Post.quiet (quiet_saturatingSubT _) fun b12 hb12 => ?_
  have hb12 : b12 = s.buflen.toNat - 768 := by
    cases hb12
    rw [hb11]
    exact Nat.sub_sub _ _ _
  refine Post.bind (updateChunkT_post E _ _ 12 _ (l4.1)) fun s12 k12 l12 => ?_
  refine Post.quiet (quiet_saturatingSubT _) fun b13 hb13 => ?_
  have hb13 : b13 = s.buflen.toNat - 832 := by
    cases hb13
    rw [hb12]
    exact Nat.sub_sub _ _ _
  refine Post.bind (updateChunkT_post E _ _ 13 _ (l5.1)) fun s13 k13 l13 => ?_
  refine Post.quiet (quiet_saturatingSubT _) fun b14 hb14 => ?_
  have hb14 : b14 = s.buflen.toNat - 896 := by
    cases hb14
    rw [hb13]
    exact Nat.sub_sub _ _ _
  refine Post.bind (updateChunkT_post E _ _ 14 _ (l6.1)) fun s14 k14 l14 => ?_
  refine Post.quiet (quiet_saturatingSubT _) fun b15 hb15 => ?_
  have hb15 : b15 = s.buflen.toNat - 960 := by
    cases hb15
    rw [hb14]
    exact Nat.sub_sub _ _ _
  refine Post.bind (updateChunkT_post E _ _ 15 _ (l7.1)) fun s15 k15 l15 => ?_
  refine Post.bind (Blake2s.State.finalizeT_leaf E _ l8.1) fun q0 f0 e0 => ?_
  refine Post.quiet (quiet_asBytesT _) fun d0 hd0 => ?_
  have n0 := asBytesT_length e0.2 hd0
  refine Post.bind (Blake2s.State.updateT_post E _ d0 (hr)) fun r0 g0 t0 => ?_
  refine Post.bind (Blake2s.State.finalizeT_leaf E _ l9.1) fun q1 f1 e1 => ?_
  refine Post.quiet (quiet_asBytesT _) fun d1 hd1 => ?_
  have n1 := asBytesT_length e1.2 hd1
  refine Post.bind (Blake2s.State.updateT_post E _ d1 (t0.1)) fun r1 g1 t1 => ?_
  refine Post.bind (Blake2s.State.finalizeT_leaf E _ l10.1) fun q2 f2 e2 => ?_
  refine Post.quiet (quiet_asBytesT _) fun d2 hd2 => ?_
  have n2 := asBytesT_length e2.2 hd2
  refine Post.bind (Blake2s.State.updateT_post E _ d2 (t1.1)) fun r2 g2 t2 => ?_
  refine Post.bind (Blake2s.State.finalizeT_leaf E _ l11.1) fun q3 f3 e3 => ?_
  refine Post.quiet (quiet_asBytesT _) fun d3 hd3 => ?_
  have n3 := asBytesT_length e3.2 hd3
  refine Post.bind (Blake2s.State.updateT_post E _ d3 (t2.1)) fun r3 g3 t3 => ?_
  refine Post.bind (Blake2s.State.finalizeT_leaf E _ l12.1) fun q4 f4 e4 => ?_
  refine Post.quiet (quiet_asBytesT _) fun d4 hd4 => ?_
  have n4 := asBytesT_length e4.2 hd4
  refine Post.bind (Blake2s.State.updateT_post E _ d4 (t3.1)) fun r4 g4 t4 => ?_
  refine Post.bind (Blake2s.State.finalizeT_leaf E _ l13.1) fun q5 f5 e5 => ?_
  refine Post.quiet (quiet_asBytesT _) fun d5 hd5 => ?_
  have n5 := asBytesT_length e5.2 hd5
  refine Post.bind (Blake2s.State.updateT_post E _ d5 (t4.1)) fun r5 g5 t5 => ?_
  refine Post.bind (Blake2s.State.finalizeT_leaf E _ l14.1) fun q6 f6 e6 => ?_
  refine Post.quiet (quiet_asBytesT _) fun d6 hd6 => ?_
  have n6 := asBytesT_length e6.2 hd6
  refine Post.bind (Blake2s.State.updateT_post E _ d6 (t5.1)) fun r6 g6 t6 => ?_
  refine Post.bind (Blake2s.State.finalizeT_leaf E _ l15.1) fun q7 f7 e7 => ?_
  refine Post.quiet (quiet_asBytesT _) fun d7 hd7 => ?_
  have n7 := asBytesT_length e7.2 hd7
  refine Post.bind (Blake2s.State.updateT_post E _ d7 (t6.1)) fun r7 g7 t7 => ?_
  refine Post.bind (Blake2s.State.finalizeT_post E _ t7.1) fun z fz ez => ?_
  refine Post.pure ?_
  have a0 := leaf_sum (i := 0) (by have h := l0.2; exact h) (by have h := l8.2; rw [hb8] at h; exact h) e0.1
  have a1 := leaf_sum (i := 1) (by have h := l1.2; rw [hb1] at h; exact h) (by have h := l9.2; rw [hb9] at h; rw [hb1] at h; exact h) e1.1
  have a2 := leaf_sum (i := 2) (by have h := l2.2; rw [hb2] at h; exact h) (by have h := l10.2; rw [hb10] at h; rw [hb2] at h; exact h) e2.1
  have a3 := leaf_sum (i := 3) (by have h := l3.2; rw [hb3] at h; exact h) (by have h := l11.2; rw [hb11] at h; rw [hb3] at h; exact h) e3.1
  have a4 := leaf_sum (i := 4) (by have h := l4.2; rw [hb4] at h; exact h) (by have h := l12.2; rw [hb12] at h; rw [hb4] at h; exact h) e4.1
  have a5 := leaf_sum (i := 5) (by have h := l5.2; rw [hb5] at h; exact h) (by have h := l13.2; rw [hb13] at h; rw [hb5] at h; exact h) e5.1
  have a6 := leaf_sum (i := 6) (by have h := l6.2; rw [hb6] at h; exact h) (by have h := l14.2; rw [hb14] at h; rw [hb6] at h; exact h) e6.1
  have a7 := leaf_sum (i := 7) (by have h := l7.2; rw [hb7] at h; exact h) (by have h := l15.2; rw [hb15] at h; rw [hb7] at h; exact h) e7.1
  have hz := root_sum t0.2 t1.2 t2.2 t3.2 t4.2 t5.2 t6.2 t7.2 n0 n1 n2 n3 n4 n5 n6 n7 ez.1
  exact regroup a0 a1 a2 a3 a4 a5 a6 a7 hz

/-! ## Creation -/

theorem setHashLengthT_val {p r : Blake2s.Params} {n : Nat} (h : (p.setHashLengthT n).1 = .ok r) :
    r.keyLength = p.keyLength := by
  have : Post (p.setHashLengthT n) fun r _ => r.keyLength = p.keyLength := by
    unfold Blake2s.Params.setHashLengthT
    refine Post.quiet (quiet_testAll _) fun _ _ => ?_
    refine Post.quiet (quiet_assertT _ _) fun _ _ => ?_
    exact Post.pure rfl
  exact this r h

theorem quiet_setHashLengthT (p : Blake2s.Params) (n : Nat) : Quiet (p.setHashLengthT n) := by
  unfold Blake2s.Params.setHashLengthT; quiet
theorem quiet_setKeyT (p : Blake2s.Params) (k : List U8) : Quiet (p.setKeyT k) := by
  unfold Blake2s.Params.setKeyT; quiet
theorem quiet_setMaxDepthT (p : Blake2s.Params) (n : U8) : Quiet (p.setMaxDepthT n) := by
  unfold Blake2s.Params.setMaxDepthT; quiet
theorem quiet_setNodeOffsetT (p : Blake2s.Params) (n : U64) : Quiet (p.setNodeOffsetT n) := by
  unfold Blake2s.Params.setNodeOffsetT; quiet
theorem quiet_setInnerHashLengthT (p : Blake2s.Params) (n : Nat) : Quiet (p.setInnerHashLengthT n) := by
  unfold Blake2s.Params.setInnerHashLengthT; quiet

theorem setKeyT_val {p r : Blake2s.Params} {k : List U8} (h : (p.setKeyT k).1 = .ok r) :
    r.keyLength = BitVec.ofNat 8 k.length := by
  have : Post (p.setKeyT k) fun r _ => r.keyLength = BitVec.ofNat 8 k.length := by
    unfold Blake2s.Params.setKeyT
    refine Post.quiet (quiet_assertT _ _) fun _ _ => ?_
    refine Post.quiet (quiet_copyFromSliceT _ _ _ _) fun _ _ => ?_
    exact Post.pure rfl
  exact this r h

theorem assert_keeps {c : Bool} {t : String} {p q r : Blake2s.Params} (hq : q.keyLength = p.keyLength)
    (h : (assertT c t >>= fun _ => (pure q : Tr Blake2s.Params)).1 = .ok r) : r.keyLength = p.keyLength := by
  have : Post (assertT c t >>= fun _ => (pure q : Tr Blake2s.Params)) fun r _ => r.keyLength = p.keyLength :=
    Post.quiet (quiet_assertT _ _) fun _ _ => Post.pure hq
  exact this r h

theorem baseParamsT_post (p : Params) :
    Post (baseParamsT p) fun b k => k = 0 ∧ b.keyLength = p.keyLength := by
  unfold baseParamsT
  refine Post.quiet (quiet_setHashLengthT _ _) fun p1 _ => ?_
  refine Post.quiet (quiet_sliceToT _ _) fun key hk => ?_
  obtain ⟨rfl, hle⟩ := sliceToT_val hk
  refine Post.quiet (quiet_setKeyT _ _) fun p2 h2 => ?_
  have h2 := setKeyT_val h2
  refine Post.quiet (quiet_setMaxDepthT _ _) fun p3 h3 => ?_
  have h3 := assert_keeps rfl h3
  intro b hb
  have hb' := assert_keeps rfl hb
  refine ⟨quiet_setInnerHashLengthT _ _, hb'.trans (h3.trans (h2.trans ?_))⟩
  rw [List.length_take, Nat.min_eq_left hle, BitVec.ofNat_toNat, BitVec.setWidth_eq]

theorem leafStateT_post (E : Env) (b : Blake2s.Params) (i : U64) :
    Post (leafStateT E b i) fun s k => k = 0 ∧ s.Leaf (if b.keyLength = 0 then 0 else 64) := by
  unfold leafStateT
  refine Post.quiet (quiet_setNodeOffsetT _ _) fun p1 h1 => ?_
  have h1 := assert_keeps rfl h1
  refine Post.bind (Blake2s.State.withParamsT_post E _) fun s k hk => ?_
  obtain ⟨rfl, hk⟩ := hk
  refine Post.pure ⟨rfl, ?_, rfl⟩
  rw [show ((p1.setNodeDepth 0).setLastNode (decide (i = 7))).keyLength = p1.keyLength from rfl, h1] at hk
  exact hk

theorem withParamsT_post (E : Env) (p : Params) :
    Post (withParamsT E p) fun s k => k = 0 ∧ s.Level (if p.keyLength = 0 then 0 else 64) 0 0 := by
  unfold withParamsT
  refine Post.bind (baseParamsT_post p) fun b k hb => ?_
  obtain ⟨rfl, hb⟩ := hb
  refine Post.quiet (quiet_setNodeOffsetT _ _) fun rp _ => ?_
  refine Post.bind (Blake2s.State.withParamsT_post E _) fun root k hr => ?_
  obtain ⟨rfl, -⟩ := hr
  refine Post.bind (leafStateT_post E b 0) fun l0 k h0 => ?_
  obtain ⟨rfl, h0⟩ := h0
  refine Post.bind (leafStateT_post E b 1) fun l1 k h1 => ?_
  obtain ⟨rfl, h1⟩ := h1
  refine Post.bind (leafStateT_post E b 2) fun l2 k h2 => ?_
  obtain ⟨rfl, h2⟩ := h2
  refine Post.bind (leafStateT_post E b 3) fun l3 k h3 => ?_
  obtain ⟨rfl, h3⟩ := h3
  refine Post.bind (leafStateT_post E b 4) fun l4 k h4 => ?_
  obtain ⟨rfl, h4⟩ := h4
  refine Post.bind (leafStateT_post E b 5) fun l5 k h5 => ?_
  obtain ⟨rfl, h5⟩ := h5
  refine Post.bind (leafStateT_post E b 6) fun l6 k h6 => ?_
  obtain ⟨rfl, h6⟩ := h6
  refine Post.bind (leafStateT_post E b 7) fun l7 k h7 => ?_
  obtain ⟨rfl, h7⟩ := h7
  rw [hb] at h0 h1 h2 h3 h4 h5 h6 h7
  refine Post.pure ⟨rfl, rfl, Nat.zero_le _, fun h => absurd h (Nat.lt_irrefl 0), fun i => ?_, rfl⟩
  match i with
  | 0 => exact h0
  | 1 => exact h1
  | 2 => exact h2
  | 3 => exact h3
  | 4 => exact h4
  | 5 => exact h5
  | 6 => exact h6
  | 7 => exact h7

theorem updatesT_post (E : Env) (chunks : List (List U8)) (s : State) {kb n r : Nat} (h : s.Level kb n r) :
    Post (s.updatesT E chunks) fun s' k => ∃ j, k = 8 * j ∧ s'.Level kb (n + chunks.flatten.length) (r + j) := by
  induction chunks generalizing s n r with
  | nil => exact Post.pure ⟨0, rfl, h⟩
  | cons c cs ih =>
    unfold updatesT
    refine Post.bind (updateT_post E s c h) fun s1 k h1 => ?_
    obtain ⟨j, rfl, h1⟩ := h1
    refine (ih s1 h1).mono ?_
    rintro s2 k ⟨j2, rfl, h2⟩
    refine ⟨j + j2, by omega, ?_⟩
    rw [List.flatten_cons, List.length_append, ← Nat.add_assoc, ← Nat.add_assoc]
    exact h2

theorem leafInput_share (i : Fin 8) (msg : List U8) {b r : Nat} (h : b + 512 * r = msg.length) (hb : b ≤ 1024) :
    (Spec.Sp.leafInput i msg).length = 64 * r + share b i := by
  conv => lhs; rw [← List.take_append_drop (512 * r) msg]
  rw [Spec.Sp.leafInput_append i r _ _ (by rw [List.length_take]; omega), List.length_append,
    Spec.Sp.leafInput_rows_length i r msg (by omega),
    Spec.Sp.leafInput_two i _ (by rw [List.length_drop]; omega)]
  simp only [List.length_append, List.length_take, List.length_drop]
  unfold share
  rw [show msg.length - 512 * r = b by omega, Nat.add_comm i.val 8]
  omega

theorem rows_sum {A B : Nat → Nat} {j : Nat} (h0 : j + A 0 = B 0) (h1 : j + A 1 = B 1) (h2 : j + A 2 = B 2)
    (h3 : j + A 3 = B 3) (h4 : j + A 4 = B 4) (h5 : j + A 5 = B 5) (h6 : j + A 6 = B 6) (h7 : j + A 7 = B 7) :
    0 + (8 * j + (((List.range 8).map A).sum + 4 + 0)) = ((List.range 8).map B).sum + 4 := by
  rw [show ((List.range 8).map A).sum = A 0 + (A 1 + (A 2 + (A 3 + (A 4 + (A 5 + (A 6 + (A 7 + 0))))))) from
    rfl, show ((List.range 8).map B).sum = B 0 + (B 1 + (B 2 + (B 3 + (B 4 + (B 5 + (B 6 + (B 7 + 0))))))) from
    rfl]
  omega

theorem leaf_total {kb r b i n : Nat} (hk : kb = 0 ∨ kb = 64) (hi : i < 8) (ha : 0 < r → 448 < b)
    (hn : n = 64 * r + share b i) :
    r + (blocksFor (kb + share b i) - (kb - 1) / 64) = blocksFor (kb + n) := by
  rw [blocksFor_eq, blocksFor_eq]
  have : 0 < r → 0 < share b i := by
    intro h
    have := ha h
    unfold share
    omega
  generalize share b i = x at *
  omega

end Sp.State

theorem Sp.chunksT_post (E : Env) (p : Sp.Params) (chunks : List (List U8)) :
    Post (Sp.chunksT E p chunks) fun _ k =>
      k = ((List.range 8).map fun i => blocksFor ((if p.keyLength = 0 then 0 else 64) +
        (Spec.Sp.leafInput i chunks.flatten).length)).sum + 4 := by
  unfold Sp.chunksT
  refine Post.bind (Sp.State.withParamsT_post E p) fun s k hs => ?_
  obtain ⟨rfl, hs⟩ := hs
  refine Post.bind (Sp.State.updatesT_post E chunks s hs) fun s1 k h1 => ?_
  obtain ⟨j, rfl, h1⟩ := h1
  refine Post.bind (Sp.State.finalizeT_post E s1 h1.leaf h1.root) fun _ k hk => ?_
  refine Post.pure ?_
  have ht := h1.total
  have ha := h1.ahead
  have hr := h1.room
  rw [Nat.zero_add] at ht ha
  rw [Nat.zero_add] at ht
  generalize hkb : (if p.keyLength = 0 then 0 else 64 : Nat) = kb at *
  have hkb' : kb = 0 ∨ kb = 64 := by
    rw [← hkb]; split
    · exact Or.inl rfl
    · exact Or.inr rfl
  have one : ∀ i : Fin 8, _ := fun i =>
    Sp.State.leaf_total hkb' i.isLt ha (Sp.State.leafInput_share i chunks.flatten ht hr)
  rw [hk]
  exact Sp.State.rows_sum (one 0) (one 1) (one 2) (one 3) (one 4) (one 5) (one 6) (one 7)

theorem blake2spT_post (E : Env) (input : List U8) :
    Post (blake2spT E input) fun _ k =>
      k = ((List.range 8).map fun i => blocksFor (Spec.Sp.leafInput i input).length).sum + 4 := by
  have e : blake2spT E input = Sp.chunksT E Sp.Params.default [input] := by
    unfold blake2spT Sp.chunksT Sp.State.newT Sp.Params.toStateT
    refine congrArg (fun f => Sp.State.withParamsT E Sp.Params.default >>= f) (funext fun s => ?_)
    show Tr.andThen (s.updateT E input) _ = Tr.andThen (Tr.andThen (s.updateT E input) fun s => pure s) _
    obtain ⟨r, t⟩ := s.updateT E input
    cases r with
    | error _ => rfl
    | ok s1 =>
      show (_, t ++ _) = (_, (t ++ []) ++ _)
      rw [List.append_nil]
  have := Sp.chunksT_post E Sp.Params.default [input]
  rw [← e] at this
  refine this.mono fun _ k hk => ?_
  rw [hk]
  simp only [show Sp.Params.default.keyLength = 0 from rfl, if_true, Nat.zero_add, List.flatten_cons,
    List.flatten_nil, List.append_nil]

end Blake2s
