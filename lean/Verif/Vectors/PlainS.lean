import Verif.Vectors.Data
import Verif.Proofs.VectorEval
/-!
# Evaluation of the specification: BLAKE2s, no key
-/

namespace Vectors

theorem plainS_0 : Fast.agrees Fast.plainS 0 ((plainS.drop 0).take 32) = true := by decide +kernel

theorem plainS_32 : Fast.agrees Fast.plainS 32 ((plainS.drop 32).take 32) = true := by decide +kernel

theorem plainS_64 : Fast.agrees Fast.plainS 64 ((plainS.drop 64).take 32) = true := by decide +kernel

theorem plainS_96 : Fast.agrees Fast.plainS 96 ((plainS.drop 96).take 32) = true := by decide +kernel

theorem plainS_128 : Fast.agrees Fast.plainS 128 ((plainS.drop 128).take 32) = true := by decide +kernel

theorem plainS_160 : Fast.agrees Fast.plainS 160 ((plainS.drop 160).take 32) = true := by decide +kernel

theorem plainS_192 : Fast.agrees Fast.plainS 192 ((plainS.drop 192).take 32) = true := by decide +kernel

theorem plainS_224 : Fast.agrees Fast.plainS 224 ((plainS.drop 224).take 32) = true := by decide +kernel

theorem plainS_length : plainS.length = 256 := by decide +kernel

theorem plainS_table {n : Nat} (h : n < 256) : Fast.plainS n = plainS.getD n 0 := by
  have hl := plainS_length
  have cut : 0 ≤ n ∧ n < 0 + 32 ∨ 32 ≤ n ∧ n < 32 + 32 ∨ 64 ≤ n ∧ n < 64 + 32 ∨ 96 ≤ n ∧ n < 96 + 32 ∨ 128 ≤ n ∧ n < 128 + 32 ∨ 160 ≤ n ∧ n < 160 + 32 ∨ 192 ≤ n ∧ n < 192 + 32 ∨ 224 ≤ n ∧ n < 224 + 32 := by omega
  rcases cut with ⟨a, b⟩ | ⟨a, b⟩ | ⟨a, b⟩ | ⟨a, b⟩ | ⟨a, b⟩ | ⟨a, b⟩ | ⟨a, b⟩ | ⟨a, b⟩
  · exact Fast.agrees_part plainS_0 (by omega) a b
  · exact Fast.agrees_part plainS_32 (by omega) a b
  · exact Fast.agrees_part plainS_64 (by omega) a b
  · exact Fast.agrees_part plainS_96 (by omega) a b
  · exact Fast.agrees_part plainS_128 (by omega) a b
  · exact Fast.agrees_part plainS_160 (by omega) a b
  · exact Fast.agrees_part plainS_192 (by omega) a b
  · exact Fast.agrees_part plainS_224 (by omega) a b

end Vectors
