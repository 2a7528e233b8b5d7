import Verif.Proofs.StateInv
import Verif.Vocab
/-!
# The initial chaining value computed by `make_words` is IV xor parameter block
-/

namespace Blake2s

theorem append4_getLsbD (b0 b1 b2 b3 : BitVec 8) (i : Nat) :
    (b3 ++ b2 ++ b1 ++ b0).getLsbD i =
      if i < 8 then b0.getLsbD i else if i < 16 then b1.getLsbD (i - 8)
      else if i < 24 then b2.getLsbD (i - 16) else b3.getLsbD (i - 24) := by
  rw [BitVec.getLsbD_append, BitVec.getLsbD_append, BitVec.getLsbD_append]
  by_cases h0 : i < 8
  · simp [h0]
  · by_cases h1 : i < 16
    · simp [h0, h1, show i - 8 < 8 by omega]
    · by_cases h2 : i < 24
      · simp [h0, h1, h2, show ¬ i - 8 < 8 by omega,
          show i - 8 - 8 = i - 16 by omega]
        omega
      · simp [h0, h1, h2, show ¬ i - 8 < 8 by omega,
          show ¬ i - 8 - 8 < 8 by omega, show i - 8 - 8 - 8 = i - 24 by omega]


theorem wordLE_getLsbD (b0 b1 b2 b3 : Spec.Byte) (i : Nat) :
    (Spec.wordLE b0 b1 b2 b3).getLsbD i =
      if i < 8 then b0.getLsbD i else if i < 16 then b1.getLsbD (i - 8)
      else if i < 24 then b2.getLsbD (i - 16) else b3.getLsbD (i - 24) :=
  append4_getLsbD b0 b1 b2 b3 i

theorem word0 (b0 b1 b2 b3 : U8) :
    b0.setWidth 32 ^^^ (b1.setWidth 32 <<< 8) ^^^ (b2.setWidth 32 <<< 16) ^^^
      (b3.setWidth 32 <<< 24) = Spec.wordLE b0 b1 b2 b3 := by
  apply BitVec.eq_of_getLsbD_eq
  intro i hi
  rw [wordLE_getLsbD]
  simp only [BitVec.getLsbD_xor, BitVec.getLsbD_setWidth, BitVec.getLsbD_shiftLeft, hi, decide_true,
    Bool.true_and]
  by_cases h0 : i < 8
  · simp [h0, show i < 16 by omega, show i < 24 by omega]
  · have hb0 : b0.getLsbD i = false := BitVec.getLsbD_of_ge _ _ (by omega)
    by_cases h1 : i < 16
    · simp [h0, h1, hb0, show i < 24 by omega]; omega
    · have hb1 : b1.getLsbD (i - 8) = false := BitVec.getLsbD_of_ge _ _ (by omega)
      by_cases h2 : i < 24
      · simp [h0, h1, h2, hb0, hb1]; omega
      · have hb2 : b2.getLsbD (i - 16) = false := BitVec.getLsbD_of_ge _ _ (by omega)
        simp [h0, h1, h2, hb0, hb1, hb2]; omega

theorem word1 (x : U32) :
    Spec.wordLE (x.extractLsb' 0 8) (x.extractLsb' 8 8) (x.extractLsb' 16 8) (x.extractLsb' 24 8) =
      x := by
  apply BitVec.eq_of_getLsbD_eq
  intro i hi
  rw [wordLE_getLsbD]
  simp only [BitVec.getLsbD_extractLsb']
  split
  · simp [*]
  · split
    · simp [show i - 8 < 8 by omega, show 8 + (i - 8) = i by omega]
    · split
      · simp [show i - 16 < 8 by omega, show 16 + (i - 16) = i by omega]
      · simp [show i - 24 < 8 by omega, show 24 + (i - 24) = i by omega]

theorem word2 (x : U64) :
    Spec.wordLE ((x.setWidth 48).extractLsb' 0 8) ((x.setWidth 48).extractLsb' 8 8)
      ((x.setWidth 48).extractLsb' 16 8) ((x.setWidth 48).extractLsb' 24 8) = x.setWidth 32 := by
  rw [← word1 (x.setWidth 32)]
  congr 1 <;>
  · apply BitVec.eq_of_getLsbD_eq
    intro i hi
    simp only [BitVec.getLsbD_extractLsb', BitVec.getLsbD_setWidth]
    simp [show i < 48 by omega, show 8 + i < 48 by omega, show 16 + i < 48 by omega,
      show 24 + i < 48 by omega, show i < 32 by omega, show 8 + i < 32 by omega,
      show 16 + i < 32 by omega, show 24 + i < 32 by omega]

theorem word3 (x : U64) (a b : U8) (hx : x.toNat < 2 ^ 48) :
    (x >>> 32).setWidth 32 ^^^ (a.setWidth 32 <<< 16) ^^^ (b.setWidth 32 <<< 24) =
    Spec.wordLE ((x.setWidth 48).extractLsb' 32 8) ((x.setWidth 48).extractLsb' 40 8) a b := by
  rw [← word0]
  congr 2
  have hhi : ∀ j, 48 ≤ j → x.getLsbD j = false := by
    intro j hj
    rw [BitVec.getLsbD, Nat.testBit_lt_two_pow]
    exact Nat.lt_of_lt_of_le hx (Nat.pow_le_pow_right (by decide) hj)
  apply BitVec.eq_of_getLsbD_eq
  intro i hi
  simp only [BitVec.getLsbD_xor, BitVec.getLsbD_setWidth, BitVec.getLsbD_shiftLeft,
    BitVec.getLsbD_extractLsb', BitVec.getLsbD_ushiftRight, hi, decide_true, Bool.true_and]
  by_cases h0 : i < 8
  · simp [h0, show 32 + i < 48 by omega]
  · by_cases h1 : i < 16
    · simp [h0, show i - 8 < 8 by omega, show 40 + (i - 8) = 32 + i by omega,
        show 32 + i < 48 by omega, show i - 8 < 32 by omega]
    · simp [h0, show ¬ i - 8 < 8 by omega, hhi (32 + i) (by omega)]

theorem makeWords_spec (p : Params) (h : p.nodeOffset.toNat < 2 ^ 48) :
    toFn p.makeWords = p.values.init := by
  have e : p.values.block = [p.hashLength, p.keyLength, p.fanout, p.maxDepth,
      p.maxLeafLength.extractLsb' 0 8, p.maxLeafLength.extractLsb' 8 8,
      p.maxLeafLength.extractLsb' 16 8, p.maxLeafLength.extractLsb' 24 8,
      (p.nodeOffset.setWidth 48).extractLsb' 0 8, (p.nodeOffset.setWidth 48).extractLsb' 8 8,
      (p.nodeOffset.setWidth 48).extractLsb' 16 8, (p.nodeOffset.setWidth 48).extractLsb' 24 8,
      (p.nodeOffset.setWidth 48).extractLsb' 32 8, (p.nodeOffset.setWidth 48).extractLsb' 40 8,
      p.nodeDepth, p.innerHashLength,
      p.salt[0], p.salt[1], p.salt[2], p.salt[3], p.salt[4], p.salt[5], p.salt[6], p.salt[7],
      p.personal[0], p.personal[1], p.personal[2], p.personal[3], p.personal[4], p.personal[5],
      p.personal[6], p.personal[7]] := by
    have hs : p.values.salt.toList = [p.salt[0], p.salt[1], p.salt[2], p.salt[3], p.salt[4],
        p.salt[5], p.salt[6], p.salt[7]] := by
      show p.salt.toList = _
      conv => lhs; rw [eta8 p.salt]
      rfl
    have hp : p.values.personal.toList = [p.personal[0], p.personal[1], p.personal[2],
        p.personal[3], p.personal[4], p.personal[5], p.personal[6], p.personal[7]] := by
      show p.personal.toList = _
      conv => lhs; rw [eta8 p.personal]
      rfl
    simp only [Spec.Params.block]
    rw [hs, hp]
    rfl
  funext i
  simp only [Spec.Params.init, e]
  match i with
  | 0 =>
    show IV[0] ^^^ p.hashLength.setWidth 32 ^^^ (p.keyLength.setWidth 32 <<< 8) ^^^
      (p.fanout.setWidth 32 <<< 16) ^^^ (p.maxDepth.setWidth 32 <<< 24) =
      IV[0] ^^^ Spec.wordLE p.hashLength p.keyLength p.fanout p.maxDepth
    rw [← word0]
    simp only [BitVec.xor_assoc]
  | 1 =>
    show IV[1] ^^^ p.maxLeafLength = IV[1] ^^^ Spec.wordLE (p.maxLeafLength.extractLsb' 0 8)
      (p.maxLeafLength.extractLsb' 8 8) (p.maxLeafLength.extractLsb' 16 8)
      (p.maxLeafLength.extractLsb' 24 8)
    rw [word1]
  | 2 =>
    show IV[2] ^^^ p.nodeOffset.setWidth 32 = IV[2] ^^^ Spec.wordLE
      ((p.nodeOffset.setWidth 48).extractLsb' 0 8) ((p.nodeOffset.setWidth 48).extractLsb' 8 8)
      ((p.nodeOffset.setWidth 48).extractLsb' 16 8) ((p.nodeOffset.setWidth 48).extractLsb' 24 8)
    rw [word2]
  | 3 =>
    show IV[3] ^^^ (p.nodeOffset >>> 32).setWidth 32 ^^^ (p.nodeDepth.setWidth 32 <<< 16) ^^^
      (p.innerHashLength.setWidth 32 <<< 24) = IV[3] ^^^ Spec.wordLE
      ((p.nodeOffset.setWidth 48).extractLsb' 32 8) ((p.nodeOffset.setWidth 48).extractLsb' 40 8)
      p.nodeDepth p.innerHashLength
    rw [← word3 _ _ _ h]
    simp only [BitVec.xor_assoc]
  | 4 => rfl
  | 5 => rfl
  | 6 => rfl
  | 7 => rfl

end Blake2s
