import Verif.Proofs.KeptSp
/-!
# Consequences of the description of the buffer
-/

namespace Blake2s.Kept

theorem append_getD_left {a b : List U8} {q : Nat} (h : q < a.length) : (a ++ b).getD q 0 = a.getD q 0 := by
  simp only [List.getD_eq_getElem?_getD]
  rw [List.getElem?_append_left h]

theorem append_getD_right {a b : List U8} {q : Nat} (h : a.length ≤ q) :
    (a ++ b).getD q 0 = b.getD (q - a.length) 0 := by
  simp only [List.getD_eq_getElem?_getD]
  rw [List.getElem?_append_right h]

/-- Zero, or a byte of `data` at the same place of its block. -/
def Remains (data : List U8) (i : Nat) (b : U8) : Prop :=
  b = 0 ∨ ∃ q, q < data.length ∧ q % 64 = i ∧ b = data.getD q 0

theorem Remains.append {data : List U8} {i : Nat} {b : U8} (h : Remains data i b) (x : List U8) :
    Remains (data ++ x) i b := by
  rcases h with h | ⟨q, h1, h2, h3⟩
  · exact .inl h
  · exact .inr ⟨q, by rw [List.length_append]; omega, h2, by rw [h3, append_getD_left h1]⟩

theorem Remains.place {data : List U8} {i : Nat} (hi : i < 64) {b : U8} (h : Remains data i b) (x : List U8) :
    Remains (data ++ x) i (place data.length x b i) := by
  unfold Kept.place
  simp only []
  split
  · rename_i hq
    refine .inr ⟨_, by rw [List.length_append]; exact hq.2, by omega, ?_⟩
    rw [append_getD_right hq.1]
  · split
    · rename_i hq
      refine .inr ⟨_, by rw [List.length_append]; exact hq.2.2, by omega, ?_⟩
      rw [append_getD_right hq.2.1]
    · exact h.append x

theorem Remains.after {i : Nat} (hi : i < 64) (ops : List Op) {data : List U8} {b : U8} (h : Remains data i b) :
    Remains (data ++ fed ops) i (after data.length b i ops) := by
  induction ops generalizing data b with
  | nil => simpa [fed, Kept.after] using h
  | cons op ops ih =>
    cases op with
    | update x =>
      have := ih (h.place hi x)
      rw [List.length_append, List.append_assoc] at this
      exact this
    | write x =>
      have := ih (h.place hi x)
      rw [List.length_append, List.append_assoc] at this
      exact this
    | finalize =>
      refine ih (b := if waiting data.length ≤ i then 0 else b) ?_
      split
      · exact .inl rfl
      · exact h
    | flush => exact ih h
    | setLastNode _ => exact ih h
    | forcePortable => exact ih h

/-- Small pieces all pass through the buffer. -/
theorem after_small {i : Nat} (hi : i < 64) (pieces : List (List U8)) (hp : ∀ x ∈ pieces, x.length ≤ 64)
    {data : List U8} {b : U8}
    (h : ∀ q, q < data.length → data.length ≤ q + 64 → q % 64 = i → b = data.getD q 0) (q : Nat)
    (h1 : q < (data ++ pieces.flatten).length) (h2 : (data ++ pieces.flatten).length ≤ q + 64)
    (h3 : q % 64 = i) :
    after data.length b i (pieces.map Op.update) = (data ++ pieces.flatten).getD q 0 := by
  induction pieces generalizing data b with
  | nil =>
    simp only [List.flatten_nil, List.append_nil] at h1 h2 ⊢
    exact h q h1 h2 h3
  | cons x pieces ih =>
    have hx := hp x (List.mem_cons_self ..)
    have := ih (fun y hy => hp y (List.mem_cons_of_mem _ hy)) (data := data ++ x)
      (b := place data.length x b i) ?_ ?_ ?_
    · rw [List.length_append] at this
      rw [List.map_cons, Kept.after, this, List.flatten_cons, List.append_assoc]
    · clear ih h1 h2 h3 hp
      clear q
      intro q h1 h2 h3
      rw [List.length_append] at h1 h2
      unfold place
      simp only []
      by_cases hq : data.length ≤ q
      · rw [append_getD_right hq]
        split
        · rename_i hc
          congr 1
          omega
        · rename_i hc
          rw [if_pos (by omega)]
          congr 1
          omega
      · rw [if_neg (by omega), if_neg (by omega), append_getD_left (by omega)]
        exact h q (by omega) (by omega) h3
    · rw [List.flatten_cons, ← List.append_assoc] at h1; exact h1
    · rw [List.flatten_cons, ← List.append_assoc] at h2; exact h2

theorem lastBlock_length {x : List U8} : (lastBlock x).length = waiting x.length := by
  unfold lastBlock
  rw [List.length_drop]
  have : waiting x.length ≤ x.length := by unfold waiting; split <;> omega
  omega

/-- One piece after a whole block. -/
theorem place_block {x : List U8} (hx : x ≠ []) (b : U8) {i : Nat} (hi : i < 64) :
    place 64 x b i = if i < (lastBlock x).length then (lastBlock x).getD i 0 else b := by
  have hpos := List.length_pos_iff.mpr hx
  rw [lastBlock_length]
  unfold lastBlock
  rw [drop_getD]
  have hw : waiting x.length = (x.length - 1) % 64 + 1 := by unfold waiting; rw [if_neg (by omega)]
  rw [hw]
  unfold place
  simp only []
  by_cases h : i < (x.length - 1) % 64 + 1
  · rw [if_pos h, if_pos (by omega)]
    congr 1
    omega
  · rw [if_neg h, if_neg (by omega), if_neg (by omega)]

theorem lastBlock_append {a x : List U8} (ha : a.length = 64) (hx : x ≠ []) : lastBlock (a ++ x) = lastBlock x := by
  have hpos := List.length_pos_iff.mpr hx
  have hw : waiting (a ++ x).length = waiting x.length := by
    unfold waiting
    rw [List.length_append, if_neg (by omega), if_neg (by omega)]
    omega
  have hle : waiting x.length ≤ x.length := by unfold waiting; split <;> omega
  unfold lastBlock
  rw [hw, List.length_append, show a.length + x.length - waiting x.length = a.length + (x.length - waiting x.length) by
    omega, List.drop_append]
  rw [List.drop_eq_nil_of_le (by omega), List.nil_append]
  congr 1
  omega

end Blake2s.Kept

namespace Blake2s

theorem run_snoc {E : Env} {s s' : State} {ops : List Op} {op : Op} {hs : List Hash}
    (h : s.run E (ops ++ [op]) = .ok (s', hs)) :
    ∃ s1 h1 h2, s.run E ops = .ok (s1, h1) ∧ s1.run E [op] = .ok (s', h2) := by
  rw [run_append] at h
  cases e : s.run E ops with
  | error f => rw [e] at h; cases h
  | ok x =>
    rw [e] at h
    simp only [bind, Except.bind] at h
    cases e2 : x.1.run E [op] with
    | error f => rw [e2] at h; cases h
    | ok y =>
      rw [e2] at h
      cases h
      exact ⟨x.1, x.2, y.2, rfl, by rw [e2]⟩

/-- After `finalize` the buffer holds the last block and zeros. -/
theorem Rep.finalized {E : Env} {c : Cfg} {data : List U8} {s s' : State} {d : Hash} (r : Rep E c data s)
    (h : s.finalize E = .ok (s', d)) : s'.buf.toList = Kept.padded (Kept.lastBlock data) := by
  have hw := r.waiting
  obtain ⟨s1, d1, e, _, _, _, e1⟩ := finalize_ok r
  rw [e] at h
  cases h
  obtain ⟨k, w, _⟩ := r
  have hl := w.len
  have hle := w.le
  have hb : s.buf.toList.take s.buflen.toNat = Kept.lastBlock data := by
    rw [w.buf, Kept.lastBlock, ← hw]
    congr 1
    omega
  refine State.buf_eq ?_ fun i hi => ?_
  · refine Kept.padded_length ?_
    rw [Kept.lastBlock_length]
    exact Kept.waiting_le _
  · rw [e1, Kept.padded_getD, ← hb]
    unfold State.at
    exact zeroTail_getD _ _ _ hi

end Blake2s
