import Verif.Spec
/-!
# How a message is dealt out to the leaves of BLAKE2sp
-/

namespace Spec.Sp

/-- `leafInput` for a message that starts at byte `off`. -/
def dealt (i off : Nat) (msg : List Byte) : List Byte :=
  ((msg.zipIdx off).filter fun bk => (bk.2 / 64) % 8 == i).map Prod.fst

theorem dealt_zero (i : Nat) (msg : List Byte) : dealt i 0 msg = leafInput i msg := rfl

theorem dealt_nil (i off : Nat) : dealt i off [] = [] := rfl

theorem dealt_append (i off : Nat) (a b : List Byte) :
    dealt i off (a ++ b) = dealt i off a ++ dealt i (off + a.length) b := by
  unfold dealt
  rw [List.zipIdx_append, List.filter_append, List.map_append]

theorem dealt_cons (i off : Nat) (x : Byte) (l : List Byte) :
    dealt i off (x :: l) = (if off / 64 % 8 = i then [x] else []) ++ dealt i (off + 1) l := by
  unfold dealt
  rw [List.zipIdx_cons, List.filter_cons]
  by_cases h : off / 64 % 8 = i
  · simp [h]
  · simp [h]

theorem dealt_period (i off n : Nat) (l : List Byte) : dealt i (off + 512 * n) l = dealt i off l := by
  induction l generalizing off with
  | nil => rfl
  | cons x l ih =>
    rw [dealt_cons, dealt_cons, show off + 512 * n + 1 = off + 1 + 512 * n by omega, ih]
    rw [show (off + 512 * n) / 64 % 8 = off / 64 % 8 by omega]

/-- Within one block all bytes go to the same leaf. -/
theorem dealt_within (i q r : Nat) (l : List Byte) (h : r + l.length ≤ 64) :
    dealt i (64 * q + r) l = if q % 8 = i then l else [] := by
  induction l generalizing r with
  | nil => simp [dealt_nil]
  | cons x l ih =>
    simp only [List.length_cons] at h
    rw [dealt_cons, show 64 * q + r + 1 = 64 * q + (r + 1) by omega, ih (r + 1) (by omega),
      show (64 * q + r) / 64 = q by omega]
    split <;> simp

/-- One block after another. -/
theorem dealt_step (i q : Nat) (l : List Byte) :
    dealt i (64 * q) l = (if q % 8 = i then l.take 64 else []) ++ dealt i (64 * (q + 1)) (l.drop 64) := by
  conv => lhs; rw [← List.take_append_drop 64 l]
  rw [dealt_append, show 64 * q = 64 * q + 0 by omega, dealt_within _ _ _ _ (by simp; omega)]
  congr 1
  by_cases h : l.length ≤ 64
  · rw [List.drop_of_length_le h]; rfl
  · rw [show 64 * q + 0 + (l.take 64).length = 64 * (q + 1) by simp; omega]

theorem leafInput_append (i n : Nat) (a b : List Byte) (h : a.length = 512 * n) :
    leafInput i (a ++ b) = leafInput i a ++ leafInput i b := by
  rw [← dealt_zero, dealt_append, h, dealt_period]; rfl

/-- Up to sixteen blocks: each leaf gets two of them. -/
theorem leafInput_two (i : Fin 8) (b : List Byte) (h : b.length ≤ 1024) :
    leafInput i b = (b.drop (64 * i)).take 64 ++ (b.drop (64 * (i + 8))).take 64 := by
  rw [← dealt_zero, show 0 = 64 * 0 by rfl]
  iterate 16 rw [dealt_step]
  simp only [List.drop_drop, Nat.reduceAdd, Nat.reduceMod]
  rw [List.drop_of_length_le h, dealt_nil]
  obtain ⟨i, hi⟩ := i
  match i, hi with
  | 0, _ | 1, _ | 2, _ | 3, _ | 4, _ | 5, _ | 6, _ | 7, _ => simp

/-- Up to eight blocks: each leaf gets one of them. -/
theorem leafInput_one (i : Fin 8) (b : List Byte) (h : b.length ≤ 512) :
    leafInput i b = (b.drop (64 * i)).take 64 := by
  rw [leafInput_two i b (by omega), List.drop_of_length_le (i := 64 * (i.val + 8)) (by omega)]
  simp

theorem leafInput_nil (i : Nat) : leafInput i [] = [] := rfl

theorem leafInput_length_le (i : Nat) (l : List Byte) : (leafInput i l).length ≤ l.length := by
  unfold leafInput
  rw [List.length_map]
  exact Nat.le_trans (List.length_filter_le _ _) (by simp)

/-- One more row of eight blocks. -/
theorem leafInput_row (i : Fin 8) (n : Nat) (l : List Byte) (h : 512 * (n + 1) ≤ l.length) :
    leafInput i (l.take (512 * (n + 1))) =
      leafInput i (l.take (512 * n)) ++ (((l.drop (512 * n)).take 512).drop (64 * i)).take 64 := by
  rw [show 512 * (n + 1) = 512 * n + 512 by omega, List.take_add,
    leafInput_append i n _ _ (by simp; omega), leafInput_one i ((l.drop _).take 512) (by simp; omega)]

theorem leafInput_rows_length (i : Fin 8) (n : Nat) (l : List Byte) (h : 512 * n ≤ l.length) :
    (leafInput i (l.take (512 * n))).length = 64 * n := by
  induction n with
  | zero => simp [leafInput_nil]
  | succ n ih =>
    rw [leafInput_row i n l h, List.length_append, ih (by omega)]
    simp
    omega

/-- The eight parts have together the length of the message. -/
theorem leafInput_length_sum (l : List Byte) (off : Nat) :
    (dealt 0 off l).length + (dealt 1 off l).length + (dealt 2 off l).length +
      (dealt 3 off l).length + (dealt 4 off l).length + (dealt 5 off l).length +
      (dealt 6 off l).length + (dealt 7 off l).length = l.length := by
  induction l generalizing off with
  | nil => rfl
  | cons x l ih =>
    have := ih (off + 1)
    simp only [dealt_cons, List.length_append, List.length_cons]
    have h : off / 64 % 8 < 8 := by omega
    generalize off / 64 % 8 = m at h ⊢
    match m, h with
    | 0, _ | 1, _ | 2, _ | 3, _ | 4, _ | 5, _ | 6, _ | 7, _ => simp; omega

end Spec.Sp
