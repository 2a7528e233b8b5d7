import Verif.Model.X86
/-!
# Lanes of packed registers
-/

namespace Blake2s.X86

theorem getLsbD_pack (w k : Nat) (f : Nat → BitVec w) (j : Nat) :
    (pack w k f).getLsbD j = (decide (j < w * k) && (f (j / w)).getLsbD (j % w)) := by
  induction k with
  | zero => simp [pack]
  | succ k ih =>
    simp only [pack, BitVec.getLsbD_cast, BitVec.getLsbD_append, ih]
    by_cases hw : w = 0
    · subst hw; simp
    have hw' : 0 < w := Nat.pos_of_ne_zero hw
    by_cases h : j < w * k
    · have h2 : j < w * (k + 1) := by rw [Nat.mul_succ]; omega
      simp [h, h2]
    · simp only [h, decide_false, Bool.false_and]
      by_cases h2 : j < w * (k + 1)
      · have h3 : j / w = k := by
          apply Nat.div_eq_of_lt_le
          · rw [Nat.mul_comm]; omega
          · rw [Nat.mul_comm]; exact h2
        have h4 : j % w = j - w * k := by
          have := Nat.div_add_mod j w
          rw [h3] at this; omega
        simp [h2, h3, h4]
      · simp only [h2, decide_false, Bool.false_and]
        apply BitVec.getLsbD_of_ge
        rw [Nat.mul_succ] at h2
        omega

theorem getLsbD_lane {n : Nat} (w i : Nat) (x : BitVec n) (j : Nat) :
    (lane w i x).getLsbD j = (decide (j < w) && x.getLsbD (w * i + j)) := by
  simp [lane]

theorem lane_pack {w k i : Nat} (f : Nat → BitVec w) (h : i < k) : lane w i (pack w k f) = f i := by
  apply BitVec.eq_of_getLsbD_eq
  intro j hj
  rw [getLsbD_lane, getLsbD_pack]
  have h1 : w * i + j < w * k := by
    calc w * i + j < w * i + w := by omega
      _ = w * (i + 1) := by rw [Nat.mul_succ]
      _ ≤ w * k := Nat.mul_le_mul_left _ h
  have h2 : (w * i + j) / w = i := by
    rw [Nat.mul_add_div (by omega)]; simp [Nat.div_eq_of_lt hj]
  have h3 : (w * i + j) % w = j := by
    rw [Nat.mul_add_mod]; exact Nat.mod_eq_of_lt hj
  simp [hj, h1, h2, h3]

/-- A narrow lane of a wide lane. -/
theorem lane_lane {n w m i j : Nat} (x : BitVec n) (h : i < m) :
    lane w i (lane (w * m) j x) = lane w (m * j + i) x := by
  apply BitVec.eq_of_getLsbD_eq
  intro b hb
  simp only [getLsbD_lane]
  have h1 : w * i + b < w * m := by
    calc w * i + b < w * i + w := by omega
      _ = w * (i + 1) := by rw [Nat.mul_succ]
      _ ≤ w * m := Nat.mul_le_mul_left _ h
  have h2 : w * m * j + (w * i + b) = w * (m * j + i) + b := by
    rw [Nat.mul_add, Nat.mul_assoc]; omega
  simp [hb, h1, h2]

/-- A narrow lane of a register packed from wide lanes. -/
theorem lane_pack_wide {w m k i : Nat} (f : Nat → BitVec (w * m)) (h : i < m * k) :
    lane w i (pack (w * m) k f) = lane w (i % m) (f (i / m)) := by
  have hm : 0 < m := by
    rcases Nat.eq_zero_or_pos m with h0 | h0
    · subst h0; simp at h
    · exact h0
  have hk : i / m < k := Nat.div_lt_of_lt_mul h
  rw [← lane_pack f hk, lane_lane _ (Nat.mod_lt _ hm), Nat.div_add_mod]

/-- A wide lane of a register packed from narrow lanes. -/
theorem lane_pack_narrow {w m k i : Nat} (f : Nat → BitVec w) (h : i < k) :
    lane (w * m) i (pack w (m * k) f) = pack w m (fun j => f (m * i + j)) := by
  apply BitVec.eq_of_getLsbD_eq
  intro b hb
  rw [getLsbD_lane, getLsbD_pack, getLsbD_pack]
  by_cases hw : w = 0
  · subst hw; simp at hb
  have hw' : 0 < w := Nat.pos_of_ne_zero hw
  have h1 : w * m * i + b < w * (m * k) := by
    calc w * m * i + b < w * m * i + w * m := by omega
      _ = w * m * (i + 1) := by rw [Nat.mul_succ]
      _ ≤ w * m * k := Nat.mul_le_mul_left _ h
      _ = w * (m * k) := Nat.mul_assoc ..
  have h2 : (w * m * i + b) / w = m * i + b / w := by
    rw [Nat.mul_assoc, Nat.mul_add_div hw']
  have h3 : (w * m * i + b) % w = b % w := by
    rw [Nat.mul_assoc, Nat.mul_add_mod]
  simp [hb, h1, h2, h3]

/-- A wide lane is the packing of its narrow lanes. -/
theorem pack_lane {n w m i : Nat} (x : BitVec n) :
    pack w m (fun j => lane w (m * i + j) x) = lane (w * m) i x := by
  apply BitVec.eq_of_getLsbD_eq
  intro b hb
  rw [getLsbD_pack, getLsbD_lane, getLsbD_lane]
  by_cases hw : w = 0
  · subst hw; simp at hb
  have hw' : 0 < w := Nat.pos_of_ne_zero hw
  have h2 : w * (m * i + b / w) + b % w = w * m * i + b := by
    rw [Nat.mul_add, Nat.mul_assoc, Nat.add_assoc, Nat.div_add_mod]
  simp [hb, h2, Nat.mod_lt _ hw']

/-- Two registers with the same lanes are equal. -/
theorem eq_of_lanes {w k : Nat} {x y : BitVec (w * k)} (h : ∀ i, i < k → lane w i x = lane w i y) :
    x = y := by
  apply BitVec.eq_of_getLsbD_eq
  intro b hb
  by_cases hw : w = 0
  · subst hw; simp at hb
  have hw' : 0 < w := Nat.pos_of_ne_zero hw
  have := congrArg (fun z : BitVec w => z.getLsbD (b % w)) (h (b / w) (Nat.div_lt_of_lt_mul hb))
  simp only [getLsbD_lane, Nat.mod_lt _ hw', Nat.div_add_mod, decide_true, Bool.true_and] at this
  exact this

theorem lane_xor {n w i : Nat} (x y : BitVec n) : lane w i (x ^^^ y) = lane w i x ^^^ lane w i y := by
  apply BitVec.eq_of_getLsbD_eq
  intro b hb
  simp only [getLsbD_lane, BitVec.getLsbD_xor, hb, decide_true, Bool.true_and]

theorem lane_or {n w i : Nat} (x y : BitVec n) : lane w i (x ||| y) = lane w i x ||| lane w i y := by
  apply BitVec.eq_of_getLsbD_eq
  intro b hb
  simp only [getLsbD_lane, BitVec.getLsbD_or, hb, decide_true, Bool.true_and]

/-- Shifting a 128-bit register left by whole 32-bit lanes. -/
theorem lane_shl {q i : Nat} (x : M128) (h : i < 4) :
    lane 32 i (x <<< (32 * q)) = if i < q then 0 else lane 32 (i - q) x := by
  apply BitVec.eq_of_getLsbD_eq
  intro b hb
  split
  · rename_i hq
    simp [getLsbD_lane]
    omega
  · rename_i hq
    simp only [getLsbD_lane, BitVec.getLsbD_shiftLeft, hb, decide_true, Bool.true_and]
    have h1 : 32 * i + b < 128 := by omega
    have h2 : ¬ (32 * i + b < 32 * q) := by omega
    have h3 : 32 * i + b - 32 * q = 32 * (i - q) + b := by omega
    simp [h1, h2, h3]

/-- Shifting a 128-bit register right by whole 32-bit lanes. -/
theorem lane_shr {q i : Nat} (x : M128) : lane 32 i (x >>> (32 * q)) = lane 32 (q + i) x := by
  apply BitVec.eq_of_getLsbD_eq
  intro b hb
  simp only [getLsbD_lane, BitVec.getLsbD_ushiftRight]
  congr 2
  omega

theorem lane_zero_of_ge {i : Nat} (x : M128) (h : 4 ≤ i) : lane 32 i x = 0 := by
  apply BitVec.eq_of_getLsbD_eq
  intro b hb
  rw [getLsbD_lane, BitVec.getLsbD_of_ge _ _ (by omega)]
  simp

/-- Four bytes as one 32-bit word. -/
theorem pack4 (f : Nat → BitVec 8) :
    (pack 8 4 f : BitVec 32) = f 3 ++ f 2 ++ f 1 ++ f 0 := by
  apply BitVec.eq_of_getLsbD_eq
  intro b hb
  rw [getLsbD_pack]
  simp only [BitVec.getLsbD_append]
  have h8 : b < 8 * 4 := hb
  rcases Nat.lt_or_ge b 8 with h | h
  · have h1 : b / 8 = 0 := by omega
    have h2 : b % 8 = b := by omega
    simp [h, h1, h2, hb]
  rcases Nat.lt_or_ge b 16 with h' | h'
  · have h1 : b / 8 = 1 := by omega
    have h2 : b % 8 = b - 8 := by omega
    have h3 : b - 8 < 8 := by omega
    have h4 : ¬ b < 8 := by omega
    simp [h1, h2, h3, h4, hb]
  rcases Nat.lt_or_ge b 24 with h'' | h''
  · have h1 : b / 8 = 2 := by omega
    have h2 : b % 8 = b - 8 - 8 := by omega
    have h3 : b - 8 - 8 < 8 := by omega
    have h4 : ¬ b < 8 := by omega
    have h5 : ¬ b - 8 < 8 := by omega
    simp [h1, h2, h3, h4, h5, hb]
  · have h1 : b / 8 = 3 := by omega
    have h2 : b % 8 = b - 8 - 8 - 8 := by omega
    have h3 : ¬ b - 8 - 8 < 8 := by omega
    have h4 : ¬ b < 8 := by omega
    have h5 : ¬ b - 8 < 8 := by omega
    simp [h1, h2, h3, h4, h5, hb]

end Blake2s.X86
