import Verif.Vectors.Data
import Verif.Proofs.VectorEval
/-!
# Evaluation of the specification: BLAKE2sp, no key
-/

namespace Vectors

theorem plainSp_0 : Fast.agrees Fast.plainSp 0 ((plainSp.drop 0).take 32) = true := by decide +kernel

theorem plainSp_32 : Fast.agrees Fast.plainSp 32 ((plainSp.drop 32).take 32) = true := by decide +kernel

theorem plainSp_64 : Fast.agrees Fast.plainSp 64 ((plainSp.drop 64).take 32) = true := by decide +kernel

theorem plainSp_96 : Fast.agrees Fast.plainSp 96 ((plainSp.drop 96).take 32) = true := by decide +kernel

theorem plainSp_128 : Fast.agrees Fast.plainSp 128 ((plainSp.drop 128).take 32) = true := by decide +kernel

theorem plainSp_160 : Fast.agrees Fast.plainSp 160 ((plainSp.drop 160).take 32) = true := by decide +kernel

theorem plainSp_192 : Fast.agrees Fast.plainSp 192 ((plainSp.drop 192).take 32) = true := by decide +kernel

theorem plainSp_224 : Fast.agrees Fast.plainSp 224 ((plainSp.drop 224).take 32) = true := by decide +kernel

theorem plainSp_length : plainSp.length = 256 := by decide +kernel

theorem plainSp_table {n : Nat} (h : n < 256) : Fast.plainSp n = plainSp.getD n 0 := by
  have hl := plainSp_length
  have cut : 0 ≤ n ∧ n < 0 + 32 ∨ 32 ≤ n ∧ n < 32 + 32 ∨ 64 ≤ n ∧ n < 64 + 32 ∨ 96 ≤ n ∧ n < 96 + 32 ∨ 128 ≤ n ∧ n < 128 + 32 ∨ 160 ≤ n ∧ n < 160 + 32 ∨ 192 ≤ n ∧ n < 192 + 32 ∨ 224 ≤ n ∧ n < 224 + 32 := by omega
  rcases cut with ⟨a, b⟩ | ⟨a, b⟩ | ⟨a, b⟩ | ⟨a, b⟩ | ⟨a, b⟩ | ⟨a, b⟩ | ⟨a, b⟩ | ⟨a, b⟩
  · exact Fast.agrees_part plainSp_0 (by omega) a b
  · exact Fast.agrees_part plainSp_32 (by omega) a b
  · exact Fast.agrees_part plainSp_64 (by omega) a b
  · exact Fast.agrees_part plainSp_96 (by omega) a b
  · exact Fast.agrees_part plainSp_128 (by omega) a b
  · exact Fast.agrees_part plainSp_160 (by omega) a b
  · exact Fast.agrees_part plainSp_192 (by omega) a b
  · exact Fast.agrees_part plainSp_224 (by omega) a b

end Vectors
