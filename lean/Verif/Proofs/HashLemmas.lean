import Verif.Proofs.StateFinal
/-!
# `Hash`: hex encoding and equality
-/

namespace Blake2s

theorem hexTable_ok (n : Nat) (h : n < 16) : hexTable n = .ok (hexDigit n) := by
  have : ∀ n : Fin 16, "0123456789abcdef".toList[n.val]? = some (hexDigit n.val) := by decide
  unfold hexTable
  rw [this ⟨n, h⟩]
  rfl

theorem nibble_hi (b : U8) : (b >>> 4).toNat = b.toNat / 16 := by
  simp [BitVec.toNat_ushiftRight, Nat.shiftRight_eq_div_pow]

theorem nibble_lo (b : U8) : (b &&& 0xf).toNat = b.toNat % 16 := by
  rw [BitVec.toNat_and]
  exact Nat.and_two_pow_sub_one_eq_mod b.toNat 4

theorem push_ok (s : List Char) (c : Char) (h : s.length < 64) :
    arrayStringPush (2 * OUTBYTES) s c = .ok (s ++ [c]) := by
  unfold arrayStringPush
  rw [if_pos (show s.length < 2 * OUTBYTES from h)]
  rfl

theorem bytesToHexLoop_ok (b : List U8) (s : List Char) (h : s.length + 2 * b.length ≤ 64) :
    bytesToHexLoop b s = .ok (s ++ hexOf b) := by
  induction b generalizing s with
  | nil => simp [bytesToHexLoop, hexOf]; rfl
  | cons x xs ih =>
    rw [List.length_cons] at h
    unfold bytesToHexLoop
    have h1 : x.toNat < 256 := x.isLt
    rw [nibble_hi, nibble_lo, hexTable_ok _ (by omega), hexTable_ok _ (by omega)]
    simp only [bind, Except.bind]
    rw [push_ok _ _ (by omega)]
    simp only []
    rw [push_ok _ _ (by simp; omega)]
    simp only []
    rw [ih _ (by simp; omega)]
    simp [hexOf]

theorem or_fold_zero (l : List U8) (acc : U8) :
    l.foldl (· ||| ·) acc = 0 ↔ acc = 0 ∧ ∀ x ∈ l, x = 0 := by
  induction l generalizing acc with
  | nil => simp
  | cons x xs ih =>
    rw [List.foldl_cons, ih]
    have : acc ||| x = 0 ↔ acc = 0 ∧ x = 0 := BitVec.or_eq_zero_iff
    rw [this]
    simp [and_assoc]

theorem zipWith_xor_zero (a b : List U8) (h : a.length = b.length) :
    (∀ x ∈ List.zipWith (· ^^^ ·) a b, x = 0) ↔ a = b := by
  induction a generalizing b with
  | nil =>
    cases b with
    | nil => simp
    | cons => simp at h
  | cons x xs ih =>
    cases b with
    | nil => simp at h
    | cons y ys =>
      have := ih ys (by simpa using h)
      simp only [List.zipWith_cons_cons, List.mem_cons, forall_eq_or_imp, this, List.cons.injEq]
      have hx : x ^^^ y = 0 ↔ x = y := BitVec.xor_eq_zero_iff
      rw [hx]

theorem constantTimeEq_eq (a b : List U8) : constantTimeEq a b = decide (a = b) := by
  unfold constantTimeEq
  by_cases h : a.length = b.length
  · rw [Bool.eq_iff_iff]
    simp only [Bool.and_eq_true, beq_iff_eq, h, true_and, decide_eq_true_eq]
    rw [or_fold_zero]
    simp only [true_and]
    exact zipWith_xor_zero a b h
  · have : a ≠ b := fun e => h (by rw [e])
    simp [h, this]

end Blake2s
