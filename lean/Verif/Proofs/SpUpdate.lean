import Verif.Proofs.SpInv
import Verif.Vocab
/-!
# `blake2sp::State::update`
-/

namespace Blake2s.Sp

open Spec.Sp (leafInput)

/-- In the middle of `update`: `rest` is still to be taken in, at the end there will be `goal` rows. -/
structure SpMid (E : Env) (c : Fin 8 → Cfg) (pre total : List U8) (s : State) (rest : List U8)
    (start goal : Nat) : Prop where
  ex : ∃ n m, start ≤ n ∧ Rows E c pre total n s.leaves ∧ Held total n m s ∧ rest = total.drop m ∧
    (0 < n → 448 < s.buflen.toNat + rest.length) ∧
    goal = n + if s.buflen.toNat = 0 then (rest.length - 449) / 512 else 0
  room : s.buflen.toNat = 0 ∨ s.buflen.toNat + rest.length ≤ 1024 ∧ rest.length ≤ 960

theorem Held.row0 {total : List U8} {n m : Nat} {s : State} (h : Held total n m s)
    (hb : 512 ≤ s.buflen.toNat) :
    (subArray s.buf 0 512).toList = (total.drop (512 * n)).take 512 := by
  have h1 := h.len
  have h2 := h.le
  have hm := h.lem
  rw [subArray_toList _ _ _ (by decide), List.drop_zero]
  have h3 : s.buf.toList.take 512 = (s.buf.toList.take s.buflen.toNat).take 512 := by
    rw [List.take_take, Nat.min_eq_left hb]
  rw [h3, h.buf, List.drop_take, List.take_take, Nat.min_eq_left (by omega)]

theorem Held.row1 {total : List U8} {n m : Nat} {s : State} (h : Held total n m s)
    (hb : s.buflen.toNat = 1024) :
    (subArray s.buf 512 512).toList = (total.drop (512 * (n + 1))).take 512 := by
  have h1 := h.len
  have hbuf := h.buf
  rw [subArray_toList _ _ _ (by decide)]
  rw [hb, List.take_of_length_le (by simp)] at hbuf
  rw [hbuf, List.drop_take, List.drop_take, List.drop_drop, List.take_take, Nat.min_eq_left (by omega)]
  rfl

theorem updateBuffered_ends {E : Env} {c : Fin 8 → Cfg} {cr : Cfg} {fn : Compress8Fn}
    {pre data : List U8} {n : Nat} {s : State} (r : SpRep E c cr fn pre data n s) (input : List U8)
    (goal : Nat) (hgoal : goal = n + rowsTaken s.buflen.toNat input.length)
    (hd : E.debugAssertions = true → n < goal → pre = []) :
    Ends (s.updateBuffered E input) (Overrun E pre goal) (fun p =>
      SpMid E c pre (data ++ input) p.1 p.2 n goal ∧ p.1.root = s.root ∧
        p.1.compress8Fn = s.compress8Fn) := by
  obtain ⟨rows, held, hn, root, hfn, sup⟩ := r
  have rows1 := rows.append input
  have held1 : Held (data ++ input) n data.length s := by
    refine ⟨held.len, held.le, ?_, by simp⟩
    rw [held.buf, List.take_length, List.take_left]
  have hin : input = (data ++ input).drop data.length := by rw [List.drop_left]
  unfold State.updateBuffered
  by_cases hb : s.buflen.toNat > 0
  · rw [if_pos hb]
    obtain ⟨s1, t, e, ht, held2, hbl, el, er, ef⟩ := fillBuf_ok (E := E) held1 input hin
    rw [e]
    simp only [bind, Except.bind]
    have hrest : input.drop t = (data ++ input).drop (data.length + t) := by
      rw [← List.drop_drop, List.drop_left]
    by_cases he : (input.drop t).isEmpty = true
    · simp only [he, Bool.not_true, Bool.false_eq_true, if_false]
      have hnil : input.drop t = [] := List.isEmpty_iff.mp he
      refine Ends.pure ⟨⟨⟨n, _, Nat.le_refl n, el ▸ rows1, held2, hrest, ?_, ?_⟩, .inr ?_⟩, er, ef⟩
      · intro h
        have := hn h
        simp only [hbl]; omega
      · have hl : (input.drop t).length = 0 := by rw [hnil]; rfl
        rw [List.length_drop] at hl
        simp only [hbl]
        rw [hgoal, if_neg (by omega)]
        unfold rowsTaken
        have := held.le
        rw [if_pos (by omega)]
      · simp only [hnil, hbl, List.length_nil]
        have := held.le
        simp only [Nat.zero_le, and_true]
        omega
    · have hne : ¬ input.length ≤ t := by
        intro h
        apply he
        rw [List.drop_of_length_le h]; rfl
      have hle := held.le
      have hlen := held2.len
      have hs1 : s1.buflen.toNat = 1024 := by omega
      have hgoal' : goal = n + (s.buflen.toNat + input.length - 449) / 512 := by
        rw [hgoal]
        unfold rowsTaken
        rw [if_neg (by omega)]
      have hd' : E.debugAssertions = true → pre = [] := fun h => hd h (by omega)
      simp only [he, Bool.not_false, if_true]
      have hlong : 512 * (n + 1) + 512 ≤ (data ++ input).length := by
        have := held2.lem
        omega
      rw [← hfn] at sup
      rw [← ef] at sup
      refine ((compress8_ends sup (el ▸ rows1) hd' (by omega) _ (held2.row0 (by omega))).mono
        (fun h => h.mono (by omega)) (fun _ h => h)).bind ?_
      intro lf2 rows2
      have hsub : subChk E s1.buflen (8 * BitVec.ofNat 16 BLOCKBYTES) = .ok 512 := by
        have : s1.buflen = 1024 := BitVec.eq_of_toNat_eq hs1
        rw [this]
        unfold subChk
        rw [if_neg (by cases E.overflowChecks <;> decide)]
        rfl
      rw [hsub]
      simp only []
      unfold BLOCKBYTES
      split
      · rename_i h448
        simp only [List.length_drop] at h448
        refine ((compress8_ends sup rows2 hd' (by omega) _ (held2.row1 hs1)).mono
          (fun h => h.mono (by omega)) (fun _ h => h)).bind ?_
        intro lf3 rows3
        refine Ends.pure ⟨⟨⟨n + 1 + 1, _, by omega, rows3, ⟨?_, ?_, ?_, ?_⟩, hrest, ?_, ?_⟩, .inl rfl⟩,
          er, ef⟩
        · show data.length + t = 512 * (n + 1 + 1) + 0
          omega
        · show 0 ≤ 1024
          omega
        · show s1.buf.toList.take 0 = _
          rw [List.drop_of_length_le (by simp; omega)]; rfl
        · exact held2.lem
        · intro _
          simp only [List.length_drop]
          omega
        · show goal = n + 1 + 1 + if (0 : Nat) = 0 then _ else 0
          rw [if_pos rfl, List.length_drop]
          omega
      · rename_i h448
        simp only [List.length_drop] at h448
        obtain ⟨v, ev, hv⟩ := copyFromSlice_ok (subArray s1.buf 0 512) 0 512
          ((subArray s1.buf 512 512).toList.take 512) (by decide) (by decide) (by simp)
        have e512 : (512 : U16).toNat = 512 := rfl
        simp only [e512]
        rw [sliceTo_ok _ _ (by simp)]
        simp only []
        rw [ev]
        have hv' : v.toList = (subArray s1.buf 512 512).toList := by
          rw [hv, List.take_zero, List.nil_append, List.take_of_length_le (by simp),
            List.drop_of_length_le (by simp), List.append_nil]
        refine Ends.pure ⟨⟨⟨n + 1, _, by omega, rows2, ⟨?_, ?_, ?_, ?_⟩, hrest, ?_, ?_⟩, .inr ?_⟩, er, ef⟩
        · simp only [e512]; omega
        · simp only [e512]; omega
        · show (v ++ subArray s1.buf 512 512).toList.take 512 = _
          rw [Vector.toList_append, List.take_append_of_le_length (by simp),
            List.take_of_length_le (by simp), hv', held2.row1 hs1, List.drop_take,
            show data.length + t - 512 * (n + 1) = 512 by omega]
        · exact held2.lem
        · intro _
          simp only [e512]
          omega
        · show goal = n + 1 + if (512 : Nat) = 0 then _ else 0
          rw [if_neg (by omega)]
          omega
        · simp only [List.length_drop, e512]
          omega
  · rw [if_neg hb]
    refine Ends.pure ⟨⟨⟨n, _, Nat.le_refl n, rows1, held1, hin, ?_, ?_⟩, .inl ?_⟩, rfl, rfl⟩
    · intro h
      have := hn h
      simp only []
      omega
    · have h0 : s.buflen.toNat = 0 := by omega
      simp only [h0, if_true]
      rw [hgoal, h0]
      unfold rowsTaken
      rw [if_neg (by omega), Nat.zero_add]
    · show s.buflen.toNat = 0
      omega

theorem updateLoop_ends {E : Env} {c : Fin 8 → Cfg} {pre total : List U8} {fn : Compress8Fn}
    (hfn : fn.Supported E) (fuel n : Nat) (lf : Vector Blake2s.State 8) (rest : List U8)
    (goal : Nat) (hgoal : goal = n + (rest.length - 449) / 512)
    (hd : E.debugAssertions = true → n < goal → pre = []) (hf : rest.length < fuel)
    (rows : Rows E c pre total n lf) (hrest : rest = total.drop (512 * n))
    (hn : 0 < n → 448 < rest.length) :
    Ends (State.updateLoop E fn fuel lf rest) (Overrun E pre goal) (fun p =>
      Rows E c pre total goal p.1 ∧ p.2 = total.drop (512 * goal) ∧ (0 < goal → 448 < p.2.length) ∧
        p.2.length ≤ 960) := by
  induction fuel generalizing n lf rest with
  | zero => omega
  | succ fuel ih =>
    unfold State.updateLoop BLOCKBYTES
    by_cases hi : rest.length > 15 * 64
    · rw [if_pos hi]
      obtain ⟨v, e, hv⟩ := arrayRef_ok rest 0 512 (by omega)
      rw [e]
      have hlen : 512 * (n + 1) ≤ total.length := by
        rw [hrest] at hi; simp at hi; omega
      refine ((compress8_ends hfn rows (fun h => hd h (by omega)) hlen v
        (by rw [hv, hrest]; rfl)).mono (fun h => h.mono (by omega)) (fun _ h => h)).bind ?_
      intro lf' rows'
      rw [sliceFrom_ok _ _ (by omega)]
      refine ih (n + 1) lf' _ ?_ (fun h h' => hd h (by omega)) (by simp; omega) rows' ?_ ?_
      · rw [List.length_drop]
        omega
      · rw [hrest, List.drop_drop]; rfl
      · intro _
        simp only [List.length_drop]
        omega
    · rw [if_neg hi]
      have : goal = n := by omega
      subst this
      exact Ends.pure ⟨rows, hrest, hn, by show rest.length ≤ 960; omega⟩

theorem updateLoop_idle (E : Env) (fn : Compress8Fn) (fuel : Nat) (lf : Vector Blake2s.State 8)
    (rest : List U8) (h : rest.length ≤ 960) :
    State.updateLoop E fn (fuel + 1) lf rest = .ok (lf, rest) := by
  unfold State.updateLoop BLOCKBYTES
  rw [if_neg (by omega)]
  rfl

theorem update_ends {E : Env} {c : Fin 8 → Cfg} {cr : Cfg} {fn : Compress8Fn}
    {pre data : List U8} {n : Nat} {s : State} (r : SpRep E c cr fn pre data n s) (input : List U8)
    (goal : Nat) (hgoal : goal = n + rowsTaken (data.length - 512 * n) input.length)
    (hd : E.debugAssertions = true → n < goal → pre = []) :
    Ends (s.update E input) (Overrun E pre goal)
      (fun s' => SpRep E c cr fn pre (data ++ input) goal s') := by
  have hheld : data.length - 512 * n = s.buflen.toNat := by
    have := r.held.len
    omega
  rw [hheld] at hgoal
  unfold State.update
  refine (updateBuffered_ends r input goal hgoal hd).bind ?_
  rintro ⟨s1, rest⟩ ⟨⟨⟨n1, m, hn1, rows, held, hrest, hn, hg⟩, room⟩, er, ef⟩
  simp only at rows held hrest hn room er ef hg
  have loop : Ends (State.updateLoop E s1.compress8Fn (rest.length + 1) s1.leaves rest)
      (Overrun E pre goal) (fun p =>
        ∃ m, Rows E c pre (data ++ input) goal p.1 ∧
          Held (data ++ input) goal m s1 ∧ p.2 = (data ++ input).drop m ∧
          (0 < goal → 448 < s1.buflen.toNat + p.2.length) ∧
          s1.buflen.toNat + p.2.length ≤ 1024) := by
    by_cases hb : s1.buflen.toNat = 0
    · have hm : m = 512 * n1 := by have := held.len; omega
      rw [if_pos hb] at hg
      refine (updateLoop_ends (by rw [ef, r.fnEq]; exact r.sup) _ n1 s1.leaves rest goal hg ?_
        (by omega) rows (by rw [hrest, hm]) (by rw [hb] at hn; simpa using hn)).mono (fun h => h) ?_
      · intro h h'
        exact hd h (by omega)
      rintro ⟨lf, p⟩ ⟨rows', hp, hn', hle⟩
      simp only at rows' hp hn' hle
      refine ⟨512 * goal, rows', ⟨?_, ?_, ?_, ?_⟩, hp, ?_, ?_⟩
      · omega
      · omega
      · rw [hb, List.drop_of_length_le (by simp; omega)]; rfl
      · exact rows'.le
      · rw [hb]; simpa using hn'
      · simp only [hb]; omega
    · have hroom : s1.buflen.toNat + rest.length ≤ 1024 ∧ rest.length ≤ 960 := by
        rcases room with h | h
        · exact absurd h hb
        · exact h
      rw [updateLoop_idle _ _ _ _ _ hroom.2]
      rw [if_neg hb, Nat.add_zero] at hg
      subst hg
      exact Ends.pure ⟨m, rows, held, hrest, hn, hroom.1⟩
  refine loop.bind ?_
  rintro ⟨lf, rest2⟩ ⟨m2, rows2, held2, hr2, hn2, hroom2⟩
  simp only at rows2 held2 hr2 hn2 hroom2
  have held3 : Held (data ++ input) goal m2 ({ s1 with leaves := lf } : State) :=
    ⟨held2.len, held2.le, held2.buf, held2.lem⟩
  obtain ⟨s3, t, e, ht, held4, hbl, el, er3, ef3⟩ := fillBuf_ok (E := E) held3 rest2 hr2
  simp only []
  rw [e]
  have htl : t = rest2.length := by
    rw [ht]
    show min (1024 - s1.buflen.toNat) rest2.length = rest2.length
    omega
  rw [htl, List.drop_length]
  simp only [bind, Except.bind]
  rw [debugAssert_true E (by rfl)]
  have htot : m2 + rest2.length = (data ++ input).length := by
    rw [hr2, List.length_drop]
    have := held2.lem
    omega
  refine Ends.pure ⟨?_, ?_, ?_, ?_, ?_, ?_⟩
  · rw [el]; exact rows2
  · rw [← htot, ← htl]; exact held4
  · intro h
    rw [hbl, htl]
    exact hn2 h
  · rw [er3]; show Rep E cr [] s1.root; rw [er]; exact r.root
  · rw [ef3]; show s1.compress8Fn = fn; rw [ef]; exact r.fnEq
  · exact r.sup

end Blake2s.Sp
