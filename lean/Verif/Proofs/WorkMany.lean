import Verif.Proofs.Work
import Verif.Vocab
/-!
# How many blocks histories and the many-way functions compress
-/

namespace Blake2s

open Tr (lift emit)


/-! ## Histories -/

theorem State.runT_fst (E : Env) (s : State) (ops : List Op) : (s.runT E ops).1 = s.run E ops := by
  induction ops generalizing s with
  | nil => rfl
  | cons o ops ih =>
    cases o <;> simp only [State.runT, State.run, Tr.bind_fst, Tr.pure_fst, State.updateT_fst, State.writeT_fst,
      State.finalizeT_fst, ih]

theorem historyT_fst (E : Env) (p : Params) (ops : List Op) :
    (historyT E p ops).1 = (p.toState E >>= fun s => s.run E ops) := by
  unfold historyT
  simp only [Tr.bind_fst, Params.toStateT_fst, State.runT_fst]

theorem finalizeCalls_cons (o : Op) (ops : List Op) :
    finalizeCalls (o :: ops) = (if o = .finalize then 1 else 0) + finalizeCalls ops := by
  unfold finalizeCalls
  rw [List.filter_cons]
  by_cases h : o = .finalize
  · simp [h]; omega
  · simp [h]

theorem State.runT_post (E : Env) (ops : List Op) (s : State) {n : Nat} (h : s.Level n) :
    Post (s.runT E ops) fun r k => r.1.Level (n + (fed ops).length) ∧
      (n - 1) / 64 + k = (n + (fed ops).length - 1) / 64 + finalizeCalls ops := by
  induction ops generalizing s n with
  | nil => exact Post.pure ⟨h, rfl⟩
  | cons o ops ih =>
    rw [finalizeCalls_cons]
    cases o with
    | update i =>
      refine Post.bind (s.updateT_post E i h) fun s' k hk => ?_
      refine (ih s' hk.1).mono ?_
      rintro r k' ⟨h1, h2⟩
      simp only [fed, List.length_append]
      rw [Nat.add_assoc] at h1 h2
      exact ⟨h1, by have := hk.2; simp; omega⟩
    | write i =>
      refine Post.bind (P := fun r k => r.1.Level (n + i.length) ∧
        (n - 1) / 64 + k = (n + i.length - 1) / 64) ?_ fun s' k hk => ?_
      · unfold State.writeT
        refine Post.bind (s.updateT_post E i h) fun s' k hk => ?_
        exact Post.pure ⟨hk.1, hk.2⟩
      refine (ih s'.1 hk.1).mono ?_
      rintro r k' ⟨h1, h2⟩
      simp only [fed, List.length_append]
      rw [Nat.add_assoc] at h1 h2
      exact ⟨h1, by have := hk.2; simp; omega⟩
    | flush => 
      refine (ih s h).mono ?_
      rintro r k' ⟨h1, h2⟩
      exact ⟨h1, by simp only [fed]; simp; omega⟩
    | finalize =>
      refine Post.bind (s.finalizeT_post E h) fun r k hk => ?_
      refine Post.bind (ih r.1 hk.2) fun q k' hq => ?_
      refine Post.pure ⟨hq.1, ?_⟩
      have := hq.2
      have := hk.1
      simp only [fed]
      simp; omega
    | setLastNode b =>
      refine (ih (s.setLastNode b) h).mono ?_
      rintro r k' ⟨h1, h2⟩
      exact ⟨h1, by simp only [fed]; simp; omega⟩
    | forcePortable =>
      refine (ih s.forcePortable h).mono ?_
      rintro r k' ⟨h1, h2⟩
      exact ⟨h1, by simp only [fed]; simp; omega⟩

theorem historyT_post (E : Env) (p : Params) (ops : List Op) :
    Post (historyT E p ops) fun _ k =>
      k = ((if p.keyLength = 0 then 0 else 64) + (fed ops).length - 1) / 64 + finalizeCalls ops := by
  unfold historyT
  refine Post.bind (State.withParamsT_post E p) fun s k hk => ?_
  refine (State.runT_post E ops s hk.2).mono ?_
  rintro r k' ⟨-, h⟩
  have := hk.1
  split at h <;> rename_i hkey <;> simp only [hkey, if_true, if_false] <;> omega

theorem Reaches.level {E : Env} {p : Params} {ops : List Op} {s : State} (h : Reaches E p ops s) :
    s.Level ((if p.keyLength = 0 then 0 else 64) + (fed ops).length) := by
  obtain ⟨s0, hs, h0, h1⟩ := h
  rw [← Params.toStateT_fst] at h0
  rw [← State.runT_fst] at h1
  exact (State.runT_post E ops s0 (State.withParamsT_post E p s0 h0).2 _ h1).1

theorem blocksFor_eq (n : Nat) : blocksFor n = (n - 1) / 64 + 1 := by
  unfold blocksFor; omega

theorem hashOneT_post (E : Env) (p : Params) (i : List U8) :
    Post (hashOneT E p i) fun _ k => k = blocksFor ((if p.keyLength = 0 then 0 else 64) + i.length) := by
  unfold hashOneT
  refine Post.bind (State.withParamsT_post E p) fun s k hk => ?_
  refine Post.bind (s.updateT_post E i hk.2) fun s' k' hk' => ?_
  refine Post.bind (s'.finalizeT_post E hk'.1) fun r k'' hk'' => ?_
  refine Post.pure ?_
  rw [blocksFor_eq]
  have h1 := hk.1
  have h2 := hk'.2
  have h3 := hk''.1
  split at h2 <;> rename_i hkey <;> simp only [hkey, if_true, if_false] <;> omega

/-! ## `update8`, `finalize8` -/

/-- The rest of the inputs and the states after some rounds of the loop of `update8`. -/
theorem update8LoopT_post (E : Env) (f : Compress8Fn) (fuel : Nat) (st : Vector State 8)
    (input : Vector (List U8) 8) :
    Post (update8LoopT E f fuel st input) fun r k => ∃ j, k = 8 * j ∧ ∀ i : Fin 8,
      r.1[i].buflen = st[i].buflen ∧ r.2[i].length = input[i].length - 64 * j ∧
        (0 < j → 64 * j < input[i].length) := by
  induction fuel generalizing st input with
  | zero => intro a h; cases h
  | succ n ih =>
    unfold update8LoopT
    refine Post.quiet (quiet_testAll _) fun b hb => ?_
    obtain rfl := testAll_val hb
    split
    · rename_i h0
      have h0 : ∀ i : Fin 8, 64 < input[i].length := by
        simp only [List.all_cons, List.all_nil, id, Bool.and_true, Bool.and_eq_true, decide_eq_true_eq,
          BLOCKBYTES] at h0
        obtain ⟨a0, a1, a2, a3, a4, a5, a6, a7⟩ := h0
        intro i
        match i with
        | 0 => exact a0
        | 1 => exact a1
        | 2 => exact a2
        | 3 => exact a3
        | 4 => exact a4
        | 5 => exact a5
        | 6 => exact a6
        | 7 => exact a7
      iterate 8 refine Post.quiet (quiet_addChkT _ _ _) fun _ _ => ?_
      iterate 8 refine Post.quiet (quiet_arrayRefT _ _ _) fun _ _ => ?_
      refine Post.count 8 (compress8_blocks _ _ _ _ _ _ _) fun h _ => ?_
      refine Post.quiet (quiet_sliceFromT _ _) fun q0 hq0 => ?_
      obtain ⟨rfl, -⟩ := sliceFromT_val hq0
      refine Post.quiet (quiet_sliceFromT _ _) fun q1 hq1 => ?_
      obtain ⟨rfl, -⟩ := sliceFromT_val hq1
      refine Post.quiet (quiet_sliceFromT _ _) fun q2 hq2 => ?_
      obtain ⟨rfl, -⟩ := sliceFromT_val hq2
      refine Post.quiet (quiet_sliceFromT _ _) fun q3 hq3 => ?_
      obtain ⟨rfl, -⟩ := sliceFromT_val hq3
      refine Post.quiet (quiet_sliceFromT _ _) fun q4 hq4 => ?_
      obtain ⟨rfl, -⟩ := sliceFromT_val hq4
      refine Post.quiet (quiet_sliceFromT _ _) fun q5 hq5 => ?_
      obtain ⟨rfl, -⟩ := sliceFromT_val hq5
      refine Post.quiet (quiet_sliceFromT _ _) fun q6 hq6 => ?_
      obtain ⟨rfl, -⟩ := sliceFromT_val hq6
      refine Post.quiet (quiet_sliceFromT _ _) fun q7 hq7 => ?_
      obtain ⟨rfl, -⟩ := sliceFromT_val hq7
      refine (ih _ _).mono ?_
      rintro r k ⟨j, rfl, hj⟩
      refine ⟨j + 1, by omega, fun i => ?_⟩
      obtain ⟨h1, h2, h3⟩ := hj i
      have hl : ∀ i : Fin 8, (#v[input[0].drop BLOCKBYTES, input[1].drop BLOCKBYTES, input[2].drop BLOCKBYTES,
          input[3].drop BLOCKBYTES, input[4].drop BLOCKBYTES, input[5].drop BLOCKBYTES,
          input[6].drop BLOCKBYTES, input[7].drop BLOCKBYTES] : Vector (List U8) 8)[i].length
            = input[i].length - 64 := by
        intro i
        match i with
        | 0 | 1 | 2 | 3 | 4 | 5 | 6 | 7 => exact List.length_drop
      rw [hl i] at h2 h3
      have := h0 i
      refine ⟨?_, by omega, fun _ => ?_⟩
      · rw [h1]
        match i with
        | 0 | 1 | 2 | 3 | 4 | 5 | 6 | 7 => rfl
      · by_cases hj0 : 0 < j
        · have := h3 hj0; omega
        · omega
    · exact Post.pure ⟨0, rfl, fun i => ⟨rfl, rfl, fun h => absurd h (Nat.lt_irrefl 0)⟩⟩

/-- The number of blocks that `update` compresses for a state at level `n`. -/
def delta (n l : Nat) : Nat := (n + l - 1) / 64 - (n - 1) / 64

theorem delta_spec (n l : Nat) : (n - 1) / 64 + delta n l = (n + l - 1) / 64 := by
  unfold delta; omega

/-- `compress_buffer_if_possible` followed by some loop rounds and `update`: as `update`. -/
theorem pieces {n l j : Nat} {b0 b1 l1 k1 k2 : Nat} {n1 : Nat} (h : b0 = n - 64 * ((n - 1) / 64))
    (h1 : (b0 = 0 ∧ b1 = 0 ∧ l1 = l ∧ k1 = 0) ∨ (0 < b0 ∧ l ≤ 64 - b0 ∧ b1 = b0 + l ∧ l1 = 0 ∧ k1 = 0) ∨
      (0 < b0 ∧ 64 - b0 < l ∧ b1 = 0 ∧ l1 = l - (64 - b0) ∧ k1 = 1))
    (hj : 0 < j → 64 * j < l1) (hn1 : n1 = b1)
    (h2 : (n1 - 1) / 64 + k2 = (n1 + (l1 - 64 * j) - 1) / 64) :
    k1 + j + k2 = delta n l := by
  unfold delta
  rcases h1 with ⟨a, b, c, d⟩ | ⟨a, b, c, d, e⟩ | ⟨a, b, c, d, e⟩ <;> subst hn1 <;> omega

theorem level_small {s : State} {b : Nat} (h : s.buflen.toNat = b) (hb : b ≤ 64) : s.Level b := by
  unfold State.Level; omega

theorem update8T_post (E : Env) (st : Vector State 8) (input : Vector (List U8) 8) (n : Fin 8 → Nat)
    (h : ∀ i : Fin 8, st[i].Level (n i)) :
    Post (update8T E st input) fun _ k => k = ((List.finRange 8).map fun i => delta (n i) input[i].length).sum := by
  have hb : ∀ i : Fin 8, st[i].buflen.toNat ≤ 64 := by
    intro i; have := h i; unfold State.Level at this; omega
  unfold update8T
  refine Post.bind (State.compressBufferT_post E st[0] input[0] (hb 0)) fun r0 k0 hk0 => ?_
  refine Post.bind (State.compressBufferT_post E st[1] input[1] (hb 1)) fun r1 k1 hk1 => ?_
  refine Post.bind (State.compressBufferT_post E st[2] input[2] (hb 2)) fun r2 k2 hk2 => ?_
  refine Post.bind (State.compressBufferT_post E st[3] input[3] (hb 3)) fun r3 k3 hk3 => ?_
  refine Post.bind (State.compressBufferT_post E st[4] input[4] (hb 4)) fun r4 k4 hk4 => ?_
  refine Post.bind (State.compressBufferT_post E st[5] input[5] (hb 5)) fun r5 k5 hk5 => ?_
  refine Post.bind (State.compressBufferT_post E st[6] input[6] (hb 6)) fun r6 k6 hk6 => ?_
  refine Post.bind (State.compressBufferT_post E st[7] input[7] (hb 7)) fun r7 k7 hk7 => ?_
  refine Post.bind (update8LoopT_post E _ _ _ _) fun r kj hj => ?_
  obtain ⟨j, rfl, hj⟩ := hj
  obtain ⟨st', input'⟩ := r
  have j0 := hj 0
  have j1 := hj 1
  have j2 := hj 2
  have j3 := hj 3
  have j4 := hj 4
  have j5 := hj 5
  have j6 := hj 6
  have j7 := hj 7
  clear hj
  have lv : ∀ {b0 b1 l l1 k : Nat}, b0 ≤ 64 → (b0 = 0 ∧ b1 = 0 ∧ l1 = l ∧ k = 0) ∨
      (0 < b0 ∧ l ≤ 64 - b0 ∧ b1 = b0 + l ∧ l1 = 0 ∧ k = 0) ∨
      (0 < b0 ∧ 64 - b0 < l ∧ b1 = 0 ∧ l1 = l - (64 - b0) ∧ k = 1) → b1 ≤ 64 := by
    intro b0 b1 l l1 k hb h; omega
  have g0 : st'[0].Level r0.1.buflen.toNat := level_small (congrArg BitVec.toNat j0.1) (lv (hb 0) hk0)
  have g1 : st'[1].Level r1.1.buflen.toNat := level_small (congrArg BitVec.toNat j1.1) (lv (hb 1) hk1)
  have g2 : st'[2].Level r2.1.buflen.toNat := level_small (congrArg BitVec.toNat j2.1) (lv (hb 2) hk2)
  have g3 : st'[3].Level r3.1.buflen.toNat := level_small (congrArg BitVec.toNat j3.1) (lv (hb 3) hk3)
  have g4 : st'[4].Level r4.1.buflen.toNat := level_small (congrArg BitVec.toNat j4.1) (lv (hb 4) hk4)
  have g5 : st'[5].Level r5.1.buflen.toNat := level_small (congrArg BitVec.toNat j5.1) (lv (hb 5) hk5)
  have g6 : st'[6].Level r6.1.buflen.toNat := level_small (congrArg BitVec.toNat j6.1) (lv (hb 6) hk6)
  have g7 : st'[7].Level r7.1.buflen.toNat := level_small (congrArg BitVec.toNat j7.1) (lv (hb 7) hk7)
  refine Post.bind (State.updateT_post E _ input'[0] g0) fun s0 m0 u0 => ?_
  refine Post.bind (State.updateT_post E _ input'[1] g1) fun s1 m1 u1 => ?_
  refine Post.bind (State.updateT_post E _ input'[2] g2) fun s2 m2 u2 => ?_
  refine Post.bind (State.updateT_post E _ input'[3] g3) fun s3 m3 u3 => ?_
  refine Post.bind (State.updateT_post E _ input'[4] g4) fun s4 m4 u4 => ?_
  refine Post.bind (State.updateT_post E _ input'[5] g5) fun s5 m5 u5 => ?_
  refine Post.bind (State.updateT_post E _ input'[6] g6) fun s6 m6 u6 => ?_
  refine Post.bind (State.updateT_post E _ input'[7] g7) fun s7 m7 u7 => ?_
  have e0 := pieces (h 0) hk0 j0.2.2 rfl (by have := u0.2; rwa [show input'[0].length = _ from j0.2.1] at this)
  have e1 := pieces (h 1) hk1 j1.2.2 rfl (by have := u1.2; rwa [show input'[1].length = _ from j1.2.1] at this)
  have e2 := pieces (h 2) hk2 j2.2.2 rfl (by have := u2.2; rwa [show input'[2].length = _ from j2.2.1] at this)
  have e3 := pieces (h 3) hk3 j3.2.2 rfl (by have := u3.2; rwa [show input'[3].length = _ from j3.2.1] at this)
  have e4 := pieces (h 4) hk4 j4.2.2 rfl (by have := u4.2; rwa [show input'[4].length = _ from j4.2.1] at this)
  have e5 := pieces (h 5) hk5 j5.2.2 rfl (by have := u5.2; rwa [show input'[5].length = _ from j5.2.1] at this)
  have e6 := pieces (h 6) hk6 j6.2.2 rfl (by have := u6.2; rwa [show input'[6].length = _ from j6.2.1] at this)
  have e7 := pieces (h 7) hk7 j7.2.2 rfl (by have := u7.2; rwa [show input'[7].length = _ from j7.2.1] at this)
  refine Post.pure ?_
  show _ = delta (n 0) input[0].length + (delta (n 1) input[1].length + (delta (n 2) input[2].length +
    (delta (n 3) input[3].length + (delta (n 4) input[4].length + (delta (n 5) input[5].length +
    (delta (n 6) input[6].length + (delta (n 7) input[7].length + 0)))))))
  rw [← e0, ← e1, ← e2, ← e3, ← e4, ← e5, ← e6, ← e7]
  clear e0 e1 e2 e3 e4 e5 e6 e7
  omega

theorem finalize8T_post (E : Env) (st : Vector State 8) : Post (finalize8T E st) fun _ k => k = 8 := by
  unfold finalize8T
  iterate 8 refine Post.quiet (quiet_zeroTailT _ _) fun _ _ => ?_
  iterate 8 refine Post.quiet (quiet_flagWordT _) fun _ _ => ?_
  refine Post.count 8 (compress8_blocks _ _ _ _ _ _ _) fun h _ => ?_
  exact Post.pure rfl

/-! ## `hash8` -/

theorem quiet_allRemainingT (p : Nat → Bool) (c : Nat) (is : List (List U8)) :
    Quiet (allRemainingT p c is) := by
  induction is with
  | nil => rfl
  | cons i is ih =>
    unfold allRemainingT
    exact (quiet_usizeSubT _ _).bind fun _ => (quiet_test _).bind fun _ => Quiet.ite ih (Quiet.pure _)

theorem allRemainingT_val {p : Nat → Bool} {c : Nat} {is : List (List U8)}
    (h : (allRemainingT p c is).1 = .ok true) : ∀ i ∈ is, c ≤ i.length ∧ p (i.length - c) = true := by
  induction is with
  | nil => intro i hi; cases hi
  | cons i is ih =>
    have : Post (allRemainingT p c (i :: is)) fun b _ => b = true →
        (c ≤ i.length ∧ p (i.length - c) = true) ∧ (allRemainingT p c is).1 = .ok true := by
      rw [allRemainingT]
      refine Post.quiet (quiet_usizeSubT _ _) fun d hd => ?_
      obtain ⟨rfl, hle⟩ := usizeSubT_val hd
      refine Post.quiet (quiet_test _) fun b hb => ?_
      obtain rfl := test_val hb
      split
      · rename_i hp
        intro b hb ht
        rw [ht] at hb
        exact ⟨⟨hle, hp⟩, hb⟩
      · exact Post.pure fun h => nomatch h
    obtain ⟨h1, h2⟩ := this true h rfl
    intro x hx
    rcases List.mem_cons.mp hx with rfl | hx
    · exact h1
    · exact ih h2 x hx

theorem quiet_hash8FlagsT (p : Vector Params 8) (b : Bool) : Quiet (hash8FlagsT p b) := by
  unfold hash8FlagsT; quiet

theorem eight_mem (input : Vector (List U8) 8) (i : Fin 8) :
    input[i] ∈ [input[0], input[1], input[2], input[3], input[4], input[5], input[6], input[7]] := by
  match i with
  | 0 => exact .head _
  | 1 => exact .tail _ (.head _)
  | 2 => exact .tail _ (.tail _ (.head _))
  | 3 => exact .tail _ (.tail _ (.tail _ (.head _)))
  | 4 => exact .tail _ (.tail _ (.tail _ (.tail _ (.head _))))
  | 5 => exact .tail _ (.tail _ (.tail _ (.tail _ (.tail _ (.head _)))))
  | 6 => exact .tail _ (.tail _ (.tail _ (.tail _ (.tail _ (.tail _ (.head _))))))
  | 7 => exact .tail _ (.tail _ (.tail _ (.tail _ (.tail _ (.tail _ (.tail _ (.head _)))))))

theorem hash8LoopT_post (E : Env) (impl : Impl) (params : Vector Params 8) (input : Vector (List U8) 8)
    (fuel : Nat) (words : Vector StateWords 8) (m : Nat)
    (hm : m = 0 ∨ ∀ i : Fin 8, 64 * m < input[i].length) :
    Post (hash8LoopT E impl params input fuel words (64 * m)) fun r k =>
      match r with
      | .ret _ => ∃ j, k = 8 * j ∧ ∀ i : Fin 8, input[i].length = 64 * (m + j) ∧ 0 < m + j
      | .brk _ c => ∃ j, k = 8 * j ∧ c = 64 * (m + j) ∧
          (m + j = 0 ∨ ∀ i : Fin 8, 64 * (m + j) < input[i].length) := by
  induction fuel generalizing words m with
  | zero => intro a h; cases h
  | succ n ih =>
    unfold hash8LoopT
    refine Post.quiet (quiet_allRemainingT _ _ _) fun u hu => ?_
    refine Post.quiet (quiet_allRemainingT _ _ _) fun f hf => ?_
    refine Post.quiet (quiet_testAll _) fun b hb => ?_
    obtain rfl := testAll_val hb
    split
    · exact Post.pure ⟨0, rfl, rfl, hm⟩
    · rename_i h0
      have hor : u = true ∨ f = true := by
        cases u
        · cases f
          · exact absurd rfl h0
          · exact Or.inr rfl
        · exact Or.inl rfl
      iterate 8 refine Post.quiet (quiet_arrayRefT _ _ _) fun _ _ => ?_
      refine Post.quiet (quiet_usizeAddT _ _) fun d hd => ?_
      obtain rfl := usizeAddT_val hd
      refine Post.quiet (quiet_hash8FlagsT _ _) fun fl _ => ?_
      refine Post.count 8 (compress8Vectorized_blocks _ _ _ _ _ _ _ _) fun w _ => ?_
      refine Post.quiet (quiet_test _) fun b hb => ?_
      obtain rfl := test_val hb
      split
      · rename_i hft
        subst hft
        refine Post.quiet (quiet_vectorize8 _ _ _) fun w' _ => ?_
        refine Post.pure ⟨1, rfl, fun i => ?_⟩
        obtain ⟨h1, h2⟩ := allRemainingT_val hf _ (eight_mem input i)
        have h2 : input[i].length - 64 * m = 64 := of_decide_eq_true h2
        omega
      · rename_i hff
        have hut : u = true := hor.resolve_right hff
        subst hut
        have hgt : ∀ i : Fin 8, 64 * (m + 1) < input[i].length := by
          intro i
          obtain ⟨h1, h2⟩ := allRemainingT_val hu _ (eight_mem input i)
          have h2 : input[i].length - 64 * m > 64 := of_decide_eq_true h2
          omega
        refine (ih w (m + 1) (Or.inr hgt)).mono ?_
        intro r k hr
        cases r with
        | ret _ =>
          obtain ⟨j, rfl, h⟩ := hr
          refine ⟨j + 1, by omega, fun i => ?_⟩
          have := h i
          omega
        | brk _ c =>
          obtain ⟨j, rfl, rfl, h⟩ := hr
          refine ⟨j + 1, by omega, by omega, ?_⟩
          rw [show m + (j + 1) = m + 1 + j by omega]
          exact h

theorem hash8FinishT_post (E : Env) (impl : Impl) (c : Nat) (p : Params) (w : StateWords) (i : List U8) :
    Post (hash8FinishT E impl c p w i) fun _ k => k = blocksFor (i.length - c) := by
  unfold hash8FinishT
  refine Post.quiet (quiet_sliceFromT _ _) fun q hq => ?_
  obtain ⟨rfl, hle⟩ := sliceFromT_val hq
  refine Post.bind (State.updateT_post E _ _ (n := 0) rfl) fun s k hk => ?_
  refine Post.bind (s.finalizeT_post E hk.1) fun r k' hk' => ?_
  refine Post.pure ?_
  have h2 := hk.2
  have h3 := hk'.1
  rw [List.length_drop] at h2
  rw [blocksFor_eq]
  omega

theorem sum8 (f : List U8 → Nat) (v : Vector (List U8) 8) : ((List.finRange 8).map fun i => f v[i]).sum =
    f v[0] + (f v[1] + (f v[2] + (f v[3] + (f v[4] + (f v[5] + (f v[6] + (f v[7] + 0))))))) := rfl

theorem hash8T_post (E : Env) (params : Vector Params 8) (input : Vector (List U8) 8) :
    Post (hash8T E params input) fun _ k =>
      k = ((List.finRange 8).map fun i => blocksFor input[i].length).sum := by
  unfold hash8T
  iterate 8 refine Post.quiet (quiet_assertT _ _) fun _ _ => ?_
  refine Post.quiet (quiet_vectorize8 _ _ _) fun w _ => ?_
  refine Post.bind (hash8LoopT_post E _ params input _ w 0 (Or.inl rfl)) fun r k hk => ?_
  rw [sum8 fun l => blocksFor l.length]
  simp only [blocksFor_eq]
  cases r with
  | ret hs =>
    obtain ⟨j, rfl, h⟩ := hk
    refine Post.pure ?_
    have h0 : input[0].length = _ ∧ _ := h 0
    have h1 : input[1].length = _ ∧ _ := h 1
    have h2 : input[2].length = _ ∧ _ := h 2
    have h3 : input[3].length = _ ∧ _ := h 3
    have h4 : input[4].length = _ ∧ _ := h 4
    have h5 : input[5].length = _ ∧ _ := h 5
    have h6 : input[6].length = _ ∧ _ := h 6
    have h7 : input[7].length = _ ∧ _ := h 7
    clear h
    omega
  | brk w' c =>
    obtain ⟨j, rfl, rfl, h⟩ := hk
    refine Post.quiet (quiet_vectorize8 _ _ _) fun w _ => ?_
    refine Post.bind (hash8FinishT_post E _ _ _ _ _) fun _ k0 e0 => ?_
    refine Post.bind (hash8FinishT_post E _ _ _ _ _) fun _ k1 e1 => ?_
    refine Post.bind (hash8FinishT_post E _ _ _ _ _) fun _ k2 e2 => ?_
    refine Post.bind (hash8FinishT_post E _ _ _ _ _) fun _ k3 e3 => ?_
    refine Post.bind (hash8FinishT_post E _ _ _ _ _) fun _ k4 e4 => ?_
    refine Post.bind (hash8FinishT_post E _ _ _ _ _) fun _ k5 e5 => ?_
    refine Post.bind (hash8FinishT_post E _ _ _ _ _) fun _ k6 e6 => ?_
    refine Post.bind (hash8FinishT_post E _ _ _ _ _) fun _ k7 e7 => ?_
    refine Post.pure ?_
    have one : ∀ i : Fin 8, blocksFor (input[i].length - 64 * (0 + j)) + j = (input[i].length - 1) / 64 + 1 := by
      intro i
      rw [blocksFor_eq]
      rcases h with h | h
      · omega
      · have := h i; omega
    have h0 : blocksFor (input[0].length - 64 * (0 + j)) + j = (input[0].length - 1) / 64 + 1 := one 0
    have h1 : blocksFor (input[1].length - 64 * (0 + j)) + j = (input[1].length - 1) / 64 + 1 := one 1
    have h2 : blocksFor (input[2].length - 64 * (0 + j)) + j = (input[2].length - 1) / 64 + 1 := one 2
    have h3 : blocksFor (input[3].length - 64 * (0 + j)) + j = (input[3].length - 1) / 64 + 1 := one 3
    have h4 : blocksFor (input[4].length - 64 * (0 + j)) + j = (input[4].length - 1) / 64 + 1 := one 4
    have h5 : blocksFor (input[5].length - 64 * (0 + j)) + j = (input[5].length - 1) / 64 + 1 := one 5
    have h6 : blocksFor (input[6].length - 64 * (0 + j)) + j = (input[6].length - 1) / 64 + 1 := one 6
    have h7 : blocksFor (input[7].length - 64 * (0 + j)) + j = (input[7].length - 1) / 64 + 1 := one 7
    rw [← h0, ← h1, ← h2, ← h3, ← h4, ← h5, ← h6, ← h7]
    subst e0 e1 e2 e3 e4 e5 e6 e7
    clear h0 h1 h2 h3 h4 h5 h6 h7 one h
    omega

/-! ## `hash4_exact`, `hash8_exact` -/

theorem quiet_exactLastNodeT (p : Params) (c l : Nat) : Quiet (exactLastNodeT p c l) := by
  unfold exactLastNodeT; quiet

theorem emit_blocks (e : Event) : blocks (emit e).2 = e.blocks := by
  show e.blocks + 0 = _
  rfl

theorem hash4ExactLoopT_post (p : Params) (input : Vector (List U8) 4) (len fuel : Nat)
    (h : Vector X86.M128 8) (c : Nat) :
    Post (Sse41.hash4ExactLoopT p input len fuel h c) fun _ k => ∃ j, k = 4 * j ∧ c + 64 * j = len := by
  induction fuel generalizing h c with
  | zero => intro a h; cases h
  | succ n ih =>
    unfold Sse41.hash4ExactLoopT
    iterate 4 refine Post.quiet (quiet_readBlockPtrT _ _) fun _ _ => ?_
    refine Post.quiet (quiet_usizeAddT _ _) fun d hd => ?_
    obtain rfl := usizeAddT_val hd
    refine Post.quiet (quiet_flagWordT _) fun _ _ => ?_
    refine Post.quiet (quiet_exactLastNodeT _ _ _) fun _ _ => ?_
    refine Post.count 4 (emit_blocks _) fun _ _ => ?_
    refine Post.quiet (quiet_test _) fun b hb => ?_
    obtain rfl := test_val hb
    split
    · rename_i h0
      have h0 : c + 64 = len := of_decide_eq_true h0
      exact Post.pure ⟨1, rfl, h0⟩
    · refine (ih _ _).mono fun r k hk => ?_
      obtain ⟨j, rfl, hj⟩ := hk
      simp only [BLOCKBYTES] at hj
      exact ⟨j + 1, by omega, by omega⟩

theorem hash8ExactLoopT_post (p : Params) (input : Vector (List U8) 8) (len fuel : Nat)
    (h : Vector X86.M256 8) (c : Nat) :
    Post (Avx2.hash8ExactLoopT p input len fuel h c) fun _ k => ∃ j, k = 8 * j ∧ c + 64 * j = len := by
  induction fuel generalizing h c with
  | zero => intro a h; cases h
  | succ n ih =>
    unfold Avx2.hash8ExactLoopT
    iterate 8 refine Post.quiet (quiet_readBlockPtrT _ _) fun _ _ => ?_
    refine Post.quiet (quiet_usizeAddT _ _) fun d hd => ?_
    obtain rfl := usizeAddT_val hd
    refine Post.quiet (quiet_flagWordT _) fun _ _ => ?_
    refine Post.quiet (quiet_exactLastNodeT _ _ _) fun _ _ => ?_
    refine Post.count 8 (emit_blocks _) fun _ _ => ?_
    refine Post.quiet (quiet_test _) fun b hb => ?_
    obtain rfl := test_val hb
    split
    · rename_i h0
      have h0 : c + 64 = len := of_decide_eq_true h0
      exact Post.pure ⟨1, rfl, h0⟩
    · refine (ih _ _).mono fun r k hk => ?_
      obtain ⟨j, rfl, hj⟩ := hk
      simp only [BLOCKBYTES] at hj
      exact ⟨j + 1, by omega, by omega⟩

theorem hash4ExactT_post (E : Env) (p : Params) (input : Vector (List U8) 4) (len : Nat)
    (hl : ExactLengths input len) :
    Post (hash4ExactT E p input) fun _ k => k =
      if (E.x86 && E.std && E.avx2) = true then 4 * (len / 64)
      else 4 * blocksFor ((if p.keyLength = 0 then 0 else 64) + len) := by
  have h0 : input[0].length = len := hl.1 0
  have h1 : input[1].length = len := hl.1 1
  have h2 : input[2].length = len := hl.1 2
  have h3 : input[3].length = len := hl.1 3
  unfold hash4ExactT
  refine Post.quiet (quiet_testAll _) fun _ _ => ?_
  refine Post.quiet (quiet_testAll _) fun _ _ => ?_
  refine Post.quiet (quiet_assertT _ _) fun _ _ => ?_
  unfold defaultCompressImpl
  cases hx : (E.x86 && E.std && E.avx2)
  · rw [if_neg Bool.false_ne_true, if_neg Bool.false_ne_true]
    refine Post.quiet (show Quiet (emit _) from rfl) fun _ _ => ?_
    refine Post.bind (hashOneT_post E p _) fun _ k0 e0 => ?_
    refine Post.bind (hashOneT_post E p _) fun _ k1 e1 => ?_
    refine Post.bind (hashOneT_post E p _) fun _ k2 e2 => ?_
    refine Post.bind (hashOneT_post E p _) fun _ k3 e3 => ?_
    rw [h0] at e0
    rw [h1] at e1
    rw [h2] at e2
    rw [h3] at e3
    exact Post.pure (by omega)
  · rw [if_pos rfl, if_pos rfl]
    refine Post.quiet (show Quiet (emit _) from rfl) fun _ _ => ?_
    show Post (if (E.x86 && E.sse41) = true then Sse41.hash4ExactT p input else lift (throw .illegalInstruction)) _
    split
    · refine (hash4ExactLoopT_post p input _ _ _ 0).mono fun _ k hk => ?_
      obtain ⟨j, rfl, hj⟩ := hk
      rw [h0] at hj
      omega
    · intro a ha; cases ha

theorem hash8ExactT_post (E : Env) (p : Params) (input : Vector (List U8) 8) (len : Nat)
    (hl : ExactLengths input len) :
    Post (hash8ExactT E p input) fun _ k => k =
      if (E.x86 && E.std && E.avx2) = true then 8 * (len / 64)
      else 8 * blocksFor ((if p.keyLength = 0 then 0 else 64) + len) := by
  have h0 : input[0].length = len := hl.1 0
  have h1 : input[1].length = len := hl.1 1
  have h2 : input[2].length = len := hl.1 2
  have h3 : input[3].length = len := hl.1 3
  have h4 : input[4].length = len := hl.1 4
  have h5 : input[5].length = len := hl.1 5
  have h6 : input[6].length = len := hl.1 6
  have h7 : input[7].length = len := hl.1 7
  unfold hash8ExactT
  refine Post.quiet (quiet_testAll _) fun _ _ => ?_
  refine Post.quiet (quiet_testAll _) fun _ _ => ?_
  refine Post.quiet (quiet_assertT _ _) fun _ _ => ?_
  unfold defaultCompressImpl
  cases hx : (E.x86 && E.std && E.avx2)
  · rw [if_neg Bool.false_ne_true, if_neg Bool.false_ne_true]
    refine Post.quiet (show Quiet (emit _) from rfl) fun _ _ => ?_
    refine Post.bind (hashOneT_post E p _) fun _ k0 e0 => ?_
    refine Post.bind (hashOneT_post E p _) fun _ k1 e1 => ?_
    refine Post.bind (hashOneT_post E p _) fun _ k2 e2 => ?_
    refine Post.bind (hashOneT_post E p _) fun _ k3 e3 => ?_
    refine Post.bind (hashOneT_post E p _) fun _ k4 e4 => ?_
    refine Post.bind (hashOneT_post E p _) fun _ k5 e5 => ?_
    refine Post.bind (hashOneT_post E p _) fun _ k6 e6 => ?_
    refine Post.bind (hashOneT_post E p _) fun _ k7 e7 => ?_
    rw [h0] at e0
    rw [h1] at e1
    rw [h2] at e2
    rw [h3] at e3
    rw [h4] at e4
    rw [h5] at e5
    rw [h6] at e6
    rw [h7] at e7
    subst e0 e1 e2 e3 e4 e5 e6 e7
    exact Post.pure (by omega)
  · rw [if_pos rfl, if_pos rfl]
    refine Post.quiet (show Quiet (emit _) from rfl) fun _ _ => ?_
    show Post (if (E.x86 && E.avx2) = true then Avx2.hash8ExactT p input else lift (throw .illegalInstruction)) _
    split
    · refine (hash8ExactLoopT_post p input _ _ _ 0).mono fun _ k hk => ?_
      obtain ⟨j, rfl, hj⟩ := hk
      rw [h0] at hj
      omega
    · intro a ha; cases ha

end Blake2s
