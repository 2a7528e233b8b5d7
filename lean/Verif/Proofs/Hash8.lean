import Verif.Proofs.Exact
import Verif.Proofs.Eight
/-!
# `hash8`
-/

namespace Blake2s

/-- The matched `vectorize_words8` and `compress8_vectorized` routines work on some layout of the
eight states. -/
theorem layout (E : Env) : ∃ form : Vector StateWords 8 → Vector StateWords 8,
    (∀ w, (defaultCompressImpl E).vectorize8.call E w = .ok (form w)) ∧
    (∀ w, form (form w) = w) ∧
    (∀ w msg cl ch lb ln,
      (defaultCompressImpl E).compress8Vectorized.call E (form w) msg cl ch lb ln =
        .ok (form (Vector.ofFn fun i : Fin 8 =>
          core w[i] (Portable.msgWords msg[i]) cl[i] ch[i] lb[i] ln[i]))) := by
  unfold defaultCompressImpl
  split
  · rename_i h
    simp only [Bool.and_eq_true] at h
    refine ⟨transpose8, ?_, transpose8_transpose8, ?_⟩
    · intro w
      simp only [Vectorize8Fn.call, h.1.1, h.2, Bool.and_self, if_true, avx_vectorize]
      rfl
    · intro w msg cl ch lb ln
      simp only [Compress8VectorizedFn.call, h.1.1, h.2, Bool.and_self, if_true,
        avx_compress8Vectorized]
      rfl
  · refine ⟨id, fun _ => rfl, fun _ => rfl, ?_⟩
    intro w msg cl ch lb ln
    exact portable_compress8Vectorized E w msg cl ch lb ln

theorem allRemaining_ok (p : Nat → Bool) (count : Nat) (l : List (List U8))
    (h : ∀ i ∈ l, count ≤ i.length) :
    allRemaining p count l = .ok (l.all fun i => p (i.length - count)) := by
  induction l with
  | nil => rfl
  | cons a l ih =>
    unfold allRemaining
    rw [usizeSub_ok _ _ (h a (by simp)), ih (fun i hi => h i (by simp [hi]))]
    simp only [bind, Except.bind, List.all_cons]
    split <;> simp_all
    rfl

/-- The eight inputs as a list. -/
theorem all8 (input : Vector (List U8) 8) (p : List U8 → Bool) :
    [input[0], input[1], input[2], input[3], input[4], input[5], input[6], input[7]].all p = true ↔
      ∀ i : Fin 8, p input[i] = true := by
  constructor
  · intro h
    simp only [List.all_cons, List.all_nil, Bool.and_true, Bool.and_eq_true] at h
    obtain ⟨h0, h1, h2, h3, h4, h5, h6, h7⟩ := h
    intro i
    match i with
    | 0 => exact h0
    | 1 => exact h1
    | 2 => exact h2
    | 3 => exact h3
    | 4 => exact h4
    | 5 => exact h5
    | 6 => exact h6
    | 7 => exact h7
  · intro h
    simp only [List.all_cons, List.all_nil, Bool.and_true, Bool.and_eq_true]
    exact ⟨h 0, h 1, h 2, h 3, h 4, h 5, h 6, h 7⟩

/-- What the loop maintains. -/
def H8Inv (h0 : Fin 8 → Fin 8 → Spec.Word) (input : Vector (List U8) 8) (k : Nat)
    (w : Vector StateWords 8) : Prop :=
  ∀ i : Fin 8, toFn w[i] = Spec.chain (h0 i) 0 input[i] k ∧ 64 * k ≤ input[i].length ∧
    (0 < k → 64 * k < input[i].length)

/-- One lane, one block. -/
theorem hash8_lane (h0 : Fin 8 → Spec.Word) (input : List U8) (k : Nat) (hw : StateWords)
    (msg : Block) (fin ln : Bool) (hh : toFn hw = Spec.chain h0 0 input k)
    (hm : msg.toList = (input.drop (64 * k)).take 64)
    (r : StateWords)
    (hr : r = core hw (Portable.msgWords msg) ((BitVec.ofNat 64 (64 * k + 64)).setWidth 32)
      ((BitVec.ofNat 64 (64 * k + 64) >>> 32).setWidth 32)
      (State.flagWord fin) (State.flagWord (fin && ln))) :
    (fin = false → toFn r = Spec.chain h0 0 input (k + 1)) ∧
    (fin = true → 64 * k + 64 = input.length → toFn r = Spec.absorb h0 0 input ln) := by
  rw [← compress_eq_core] at hr
  subst hr
  rw [compress_spec, hm, hh]
  constructor
  · rintro rfl
    rw [Bool.false_and, Spec.chain]
    simp [Nat.mul_add]
  · rintro rfl h
    rw [Bool.true_and, take_all_of (by omega)]
    rw [Spec.absorb_eq h0 0 input ln k 64 (by omega) (by omega) (by omega)]
    congr 1
    omega

/-- What the loop returns. -/
def H8Post (form : Vector StateWords 8 → Vector StateWords 8) (h0 : Fin 8 → Fin 8 → Spec.Word)
    (params : Vector Params 8) (input : Vector (List U8) 8) : Hash8Exit → Prop
  | .ret hs => ∀ i : Fin 8, hs[i].bytes.toList =
      Spec.digestBytes (Spec.absorb (h0 i) 0 input[i] params[i].lastNode) 32 ∧
        hs[i].len = params[i].hashLength
  | .brk words count => ∃ k w, words = form w ∧ count = 64 * k ∧ H8Inv h0 input k w

seal core in
theorem hash8Loop_ok (E : Env) (form : Vector StateWords 8 → Vector StateWords 8)
    (hvec : ∀ w, (defaultCompressImpl E).vectorize8.call E w = .ok (form w))
    (hinv : ∀ w, form (form w) = w)
    (hcmp : ∀ w msg cl ch lb ln,
      (defaultCompressImpl E).compress8Vectorized.call E (form w) msg cl ch lb ln =
        .ok (form (Vector.ofFn fun i : Fin 8 =>
          core w[i] (Portable.msgWords msg[i]) cl[i] ch[i] lb[i] ln[i])))
    (h0 : Fin 8 → Fin 8 → Spec.Word) (params : Vector Params 8) (input : Vector (List U8) 8)
    (fuel k : Nat) (w : Vector StateWords 8) (hi : H8Inv h0 input k w)
    (hf : input[0].length < fuel + 64 * k) :
    ∃ ex, hash8Loop E (defaultCompressImpl E) params input fuel (form w) (64 * k) = .ok ex ∧
      H8Post form h0 params input ex := by
  induction fuel generalizing k w with
  | zero => have : 64 * k ≤ input[0].length := (hi 0).2.1; omega
  | succ fuel ih =>
    have hle : ∀ l ∈ [input[0], input[1], input[2], input[3], input[4], input[5], input[6], input[7]],
        64 * k ≤ l.length := by
      intro l hl
      simp only [List.mem_cons, List.not_mem_nil, or_false] at hl
      rcases hl with rfl | rfl | rfl | rfl | rfl | rfl | rfl | rfl
      · exact (hi 0).2.1
      · exact (hi 1).2.1
      · exact (hi 2).2.1
      · exact (hi 3).2.1
      · exact (hi 4).2.1
      · exact (hi 5).2.1
      · exact (hi 6).2.1
      · exact (hi 7).2.1
    unfold hash8Loop BLOCKBYTES
    rw [allRemaining_ok _ _ _ hle, allRemaining_ok _ _ _ hle]
    simp only [bind, Except.bind]
    generalize hua : List.all _ (fun i : List U8 => decide (i.length - 64 * k > 64)) = ua
    generalize hfa : List.all _ (fun i : List U8 => decide (i.length - 64 * k = 64)) = fa
    by_cases hbrk : (!ua && !fa) = true
    · rw [if_pos hbrk]
      exact ⟨_, rfl, k, w, rfl, rfl, hi⟩
    · rw [if_neg hbrk]
      have hUA : ua = true → ∀ i : Fin 8, 64 * k + 64 < input[i].length := by
        intro h i
        rw [h] at hua
        have := (all8 input _).mp hua i
        simp only [decide_eq_true_eq] at this
        omega
      have hFA : fa = true → ∀ i : Fin 8, 64 * k + 64 = input[i].length := by
        intro h i
        rw [h] at hfa
        have := (all8 input _).mp hfa i
        simp only [decide_eq_true_eq] at this
        omega
      have hge : ∀ i : Fin 8, 64 * k + 64 ≤ input[i].length := by
        intro i
        cases hu : ua
        · cases hf' : fa
          · rw [hu, hf'] at hbrk; exact absurd rfl hbrk
          · have := hFA hf' i; omega
        · have := hUA hu i; omega
      obtain ⟨b0, e0, m0⟩ := arrayRef_ok input[0] (64 * k) 64 (hge 0)
      obtain ⟨b1, e1, m1⟩ := arrayRef_ok input[1] (64 * k) 64 (hge 1)
      obtain ⟨b2, e2, m2⟩ := arrayRef_ok input[2] (64 * k) 64 (hge 2)
      obtain ⟨b3, e3, m3⟩ := arrayRef_ok input[3] (64 * k) 64 (hge 3)
      obtain ⟨b4, e4, m4⟩ := arrayRef_ok input[4] (64 * k) 64 (hge 4)
      obtain ⟨b5, e5, m5⟩ := arrayRef_ok input[5] (64 * k) 64 (hge 5)
      obtain ⟨b6, e6, m6⟩ := arrayRef_ok input[6] (64 * k) 64 (hge 6)
      obtain ⟨b7, e7, m7⟩ := arrayRef_ok input[7] (64 * k) 64 (hge 7)
      have hm : ∀ i : Fin 8, (#v[b0, b1, b2, b3, b4, b5, b6, b7] : Vector Block 8)[i].toList =
          (input[i].drop (64 * k)).take 64 := by
        intro i
        match i with
        | 0 => exact m0
        | 1 => exact m1
        | 2 => exact m2
        | 3 => exact m3
        | 4 => exact m4
        | 5 => exact m5
        | 6 => exact m6
        | 7 => exact m7
      rw [e0, e1, e2, e3, e4, e5, e6, e7]
      simp only []
      rw [hcmp]
      simp only []
      generalize hw' : (Vector.ofFn fun i : Fin 8 =>
        core w[i] (Portable.msgWords
          (#v[b0, b1, b2, b3, b4, b5, b6, b7] : Vector Block 8)[i]) _ _ _ _) = w'
      have step := fun i : Fin 8 => hash8_lane (h0 i) input[i] k _ _ fa params[i].lastNode
        (hi i).1 (hm i) w'[i] (by
          rw [← hw']
          simp only [Fin.getElem_fin, Vector.getElem_ofFn, Vector.getElem_replicate]
          congr 1
          · cases fa <;> simp [State.flagWord]
          · cases fa
            · simp [State.flagWord]
            · simp only [if_true, Bool.true_and]
              match i with
              | 0 | 1 | 2 | 3 | 4 | 5 | 6 | 7 => rfl)
      cases hfa' : fa
      · simp only [Bool.false_eq_true, if_false]
        have hu : ua = true := by
          cases hu : ua
          · rw [hu, hfa'] at hbrk; exact absurd rfl hbrk
          · rfl
        refine ih (k + 1) w' ?_ (by omega)
        intro i
        refine ⟨(step i).1 hfa', ?_, fun _ => ?_⟩ <;> (have := hUA hu i; omega)
      · simp only [if_true]
        rw [hvec, hinv]
        refine ⟨_, rfl, ?_⟩
        intro i
        have := (step i).2 hfa' (hFA hfa' i)
        rw [← this, ← stateWordsToBytes_spec]
        match i with
        | 0 | 1 | 2 | 3 | 4 | 5 | 6 | 7 => exact ⟨rfl, rfl⟩

theorem hash8Finish_ok (E : Env) (hE : E.WF) (h0 : Fin 8 → Spec.Word) (p : Params)
    (input : List U8) (k : Nat) (w : StateWords) (hw : toFn w = Spec.chain h0 0 input k)
    (hle : 64 * k ≤ input.length) (hlt : 0 < k → 64 * k < input.length) (hfit : ¬ TooLong E input) :
    ∃ h, hash8Finish E (defaultCompressImpl E) (64 * k) p w input = .ok h ∧
      h.bytes.toList = Spec.digestBytes (Spec.absorb h0 0 input p.lastNode) 32 ∧
      h.len = p.hashLength := by
  unfold hash8Finish
  rw [sliceFrom_ok _ _ hle]
  simp only [bind, Except.bind]
  have hp : Pre E ⟨h0, (defaultCompressImpl E).compress, p.lastNode, p.hashLength⟩ input
      { h := w
        buf := Vector.replicate 64 0
        buflen := 0
        count := BitVec.ofNat 64 (64 * k)
        compressFn := (defaultCompressImpl E).compress
        lastNode := p.lastNode
        hashLength := p.hashLength } (input.drop (64 * k)) := by
    have hz : (0 : U8).toNat = 0 := rfl
    refine ⟨input.take (64 * k), k, ?_, List.take_append_drop _ _, ?_⟩
    · constructor
      · simp only [List.length_take, hz]; omega
      · exact (by decide : (0 : U8).toNat ≤ 64)
      · simp only []
        rw [hw]
        apply Spec.chain_congr
        rw [List.take_take, Nat.min_self]
      · simp
      · simp only [List.length_take, Nat.min_eq_left hle]
      · intro ho
        have : input.length < 2 ^ 64 := Nat.lt_of_not_le fun h => hfit ⟨ho, h⟩
        simp only [List.length_take]; omega
      · rfl
      · exact default_supported E hE
      · rfl
      · rfl
    · intro hk
      right
      intro h
      have := congrArg List.length h
      have := hlt hk
      simp at *; omega
  obtain ⟨s1, e1, r1⟩ := (update_pre hp).elim hfit
  rw [e1]
  simp only []
  obtain ⟨s2, h, e2, _, hb, hl, _⟩ := finalize_ok r1
  rw [e2]
  exact ⟨h, rfl, hb, hl⟩

theorem hash8_ok (E : Env) (hE : E.WF) (params : Vector Params 8) (input : Vector (List U8) 8)
    (hk : ∀ i : Fin 8, params[i].keyLength = 0)
    (ho : ∀ i : Fin 8, params[i].nodeOffset.toNat < 2 ^ 48)
    (hfit : ∀ i : Fin 8, ¬ TooLong E input[i]) :
    ∃ hs, hash8 E params input = .ok hs ∧
      ∀ i : Fin 8, hs[i].bytes.toList =
          Spec.digestBytes (Spec.absorb params[i].values.init 0 input[i] params[i].lastNode) 32 ∧
        hs[i].len = params[i].hashLength := by
  obtain ⟨form, hvec, hinv, hcmp⟩ := layout E
  have ha : ∀ i : Fin 8, assert (decide (params[i].keyLength = 0)) = .ok () := by
    intro i
    rw [decide_eq_true (hk i)]; rfl
  have a0 : assert (decide (params[0].keyLength = 0)) = .ok () := ha 0
  have a1 : assert (decide (params[1].keyLength = 0)) = .ok () := ha 1
  have a2 : assert (decide (params[2].keyLength = 0)) = .ok () := ha 2
  have a3 : assert (decide (params[3].keyLength = 0)) = .ok () := ha 3
  have a4 : assert (decide (params[4].keyLength = 0)) = .ok () := ha 4
  have a5 : assert (decide (params[5].keyLength = 0)) = .ok () := ha 5
  have a6 : assert (decide (params[6].keyLength = 0)) = .ok () := ha 6
  have a7 : assert (decide (params[7].keyLength = 0)) = .ok () := ha 7
  unfold hash8
  rw [a0, a1, a2, a3, a4, a5, a6, a7]
  simp only [bind, Except.bind]
  rw [hvec]
  simp only []
  generalize hw : (#v[params[0].makeWords, params[1].makeWords, params[2].makeWords,
    params[3].makeWords, params[4].makeWords, params[5].makeWords, params[6].makeWords,
    params[7].makeWords] : Vector StateWords 8) = w
  have hI : H8Inv (fun i => params[i].values.init) input 0 w := by
    intro i
    refine ⟨?_, by omega, by omega⟩
    rw [Spec.chain, ← hw]
    show _ = params[i].values.init
    rw [← makeWords_spec _ (ho i)]
    match i with
    | 0 | 1 | 2 | 3 | 4 | 5 | 6 | 7 => rfl
  obtain ⟨ex, e, hex⟩ := hash8Loop_ok E form hvec hinv hcmp _ params input (input[0].length + 1) 0 w hI
    (by omega)
  rw [Nat.mul_zero] at e
  rw [e]
  cases ex with
  | ret hs => exact ⟨hs, rfl, hex⟩
  | brk words count =>
    obtain ⟨k, w', rfl, rfl, hI'⟩ := hex
    simp only []
    rw [hvec, hinv]
    simp only []
    have fin := fun i : Fin 8 => hash8Finish_ok E hE _ params[i] input[i] k w'[i] (hI' i).1
      (hI' i).2.1 (hI' i).2.2 (hfit i)
    obtain ⟨x0, f0, p0⟩ := fin 0
    obtain ⟨x1, f1, p1⟩ := fin 1
    obtain ⟨x2, f2, p2⟩ := fin 2
    obtain ⟨x3, f3, p3⟩ := fin 3
    obtain ⟨x4, f4, p4⟩ := fin 4
    obtain ⟨x5, f5, p5⟩ := fin 5
    obtain ⟨x6, f6, p6⟩ := fin 6
    obtain ⟨x7, f7, p7⟩ := fin 7
    refine ⟨#v[x0, x1, x2, x3, x4, x5, x6, x7], ?_, ?_⟩
    · simp only [Fin.getElem_fin] at f0 f1 f2 f3 f4 f5 f6 f7
      have g0 : hash8Finish E (defaultCompressImpl E) (64 * k) params[0] w'[0] input[0] = .ok x0 := f0
      have g1 : hash8Finish E (defaultCompressImpl E) (64 * k) params[1] w'[1] input[1] = .ok x1 := f1
      have g2 : hash8Finish E (defaultCompressImpl E) (64 * k) params[2] w'[2] input[2] = .ok x2 := f2
      have g3 : hash8Finish E (defaultCompressImpl E) (64 * k) params[3] w'[3] input[3] = .ok x3 := f3
      have g4 : hash8Finish E (defaultCompressImpl E) (64 * k) params[4] w'[4] input[4] = .ok x4 := f4
      have g5 : hash8Finish E (defaultCompressImpl E) (64 * k) params[5] w'[5] input[5] = .ok x5 := f5
      have g6 : hash8Finish E (defaultCompressImpl E) (64 * k) params[6] w'[6] input[6] = .ok x6 := f6
      have g7 : hash8Finish E (defaultCompressImpl E) (64 * k) params[7] w'[7] input[7] = .ok x7 := f7
      rw [g0, g1, g2, g3, g4, g5, g6, g7]
      rfl
    · intro i
      match i with
      | 0 => exact p0
      | 1 => exact p1
      | 2 => exact p2
      | 3 => exact p3
      | 4 => exact p4
      | 5 => exact p5
      | 6 => exact p6
      | 7 => exact p7

theorem hash8_keyed (E : Env) (params : Vector Params 8) (input : Vector (List U8) 8)
    (i : Fin 8) (hk : params[i].keyLength ≠ 0) :
    hash8 E params input = .error .assertFailed := by
  have key : ∀ c : Bool, assert c = .ok () ∨ (assert c = .error .assertFailed) := by
    intro c; cases c
    · exact .inr rfl
    · exact .inl rfl
  have hi : assert (decide (params[i].keyLength = 0)) = .error .assertFailed := by
    rw [decide_eq_false hk]; rfl
  unfold hash8
  simp only [bind, Except.bind]
  rcases key (decide (params[0].keyLength = 0)) with h0 | h0 <;> rw [h0] <;> try rfl
  rcases key (decide (params[1].keyLength = 0)) with h1 | h1 <;> rw [h1] <;> try rfl
  rcases key (decide (params[2].keyLength = 0)) with h2 | h2 <;> rw [h2] <;> try rfl
  rcases key (decide (params[3].keyLength = 0)) with h3 | h3 <;> rw [h3] <;> try rfl
  rcases key (decide (params[4].keyLength = 0)) with h4 | h4 <;> rw [h4] <;> try rfl
  rcases key (decide (params[5].keyLength = 0)) with h5 | h5 <;> rw [h5] <;> try rfl
  rcases key (decide (params[6].keyLength = 0)) with h6 | h6 <;> rw [h6] <;> try rfl
  rcases key (decide (params[7].keyLength = 0)) with h7 | h7 <;> rw [h7] <;> try rfl
  exfalso
  match i, hi with
  | 0, hi => exact nomatch h0.symm.trans hi
  | 1, hi => exact nomatch h1.symm.trans hi
  | 2, hi => exact nomatch h2.symm.trans hi
  | 3, hi => exact nomatch h3.symm.trans hi
  | 4, hi => exact nomatch h4.symm.trans hi
  | 5, hi => exact nomatch h5.symm.trans hi
  | 6, hi => exact nomatch h6.symm.trans hi
  | 7, hi => exact nomatch h7.symm.trans hi

end Blake2s
