import Verif.Vectors.Data
import Verif.Proofs.VectorEval
/-!
# Evaluation of the specification: BLAKE2s, key 00 01 … 1f
-/

namespace Vectors

theorem keyedS_0 : Fast.agrees Fast.keyedS 0 ((keyedS.drop 0).take 32) = true := by decide +kernel

theorem keyedS_32 : Fast.agrees Fast.keyedS 32 ((keyedS.drop 32).take 32) = true := by decide +kernel

theorem keyedS_64 : Fast.agrees Fast.keyedS 64 ((keyedS.drop 64).take 32) = true := by decide +kernel

theorem keyedS_96 : Fast.agrees Fast.keyedS 96 ((keyedS.drop 96).take 32) = true := by decide +kernel

theorem keyedS_128 : Fast.agrees Fast.keyedS 128 ((keyedS.drop 128).take 32) = true := by decide +kernel

theorem keyedS_160 : Fast.agrees Fast.keyedS 160 ((keyedS.drop 160).take 32) = true := by decide +kernel

theorem keyedS_192 : Fast.agrees Fast.keyedS 192 ((keyedS.drop 192).take 32) = true := by decide +kernel

theorem keyedS_224 : Fast.agrees Fast.keyedS 224 ((keyedS.drop 224).take 32) = true := by decide +kernel

theorem keyedS_length : keyedS.length = 256 := by decide +kernel

theorem keyedS_table {n : Nat} (h : n < 256) : Fast.keyedS n = keyedS.getD n 0 := by
  have hl := keyedS_length
  have cut : 0 ≤ n ∧ n < 0 + 32 ∨ 32 ≤ n ∧ n < 32 + 32 ∨ 64 ≤ n ∧ n < 64 + 32 ∨ 96 ≤ n ∧ n < 96 + 32 ∨ 128 ≤ n ∧ n < 128 + 32 ∨ 160 ≤ n ∧ n < 160 + 32 ∨ 192 ≤ n ∧ n < 192 + 32 ∨ 224 ≤ n ∧ n < 224 + 32 := by omega
  rcases cut with ⟨a, b⟩ | ⟨a, b⟩ | ⟨a, b⟩ | ⟨a, b⟩ | ⟨a, b⟩ | ⟨a, b⟩ | ⟨a, b⟩ | ⟨a, b⟩
  · exact Fast.agrees_part keyedS_0 (by omega) a b
  · exact Fast.agrees_part keyedS_32 (by omega) a b
  · exact Fast.agrees_part keyedS_64 (by omega) a b
  · exact Fast.agrees_part keyedS_96 (by omega) a b
  · exact Fast.agrees_part keyedS_128 (by omega) a b
  · exact Fast.agrees_part keyedS_160 (by omega) a b
  · exact Fast.agrees_part keyedS_192 (by omega) a b
  · exact Fast.agrees_part keyedS_224 (by omega) a b

end Vectors
