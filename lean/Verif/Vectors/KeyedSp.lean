import Verif.Vectors.Data
import Verif.Proofs.VectorEval
/-!
# Evaluation of the specification: BLAKE2sp, key 00 01 … 1f
-/

namespace Vectors

theorem keyedSp_0 : Fast.agrees Fast.keyedSp 0 ((keyedSp.drop 0).take 32) = true := by decide +kernel

theorem keyedSp_32 : Fast.agrees Fast.keyedSp 32 ((keyedSp.drop 32).take 32) = true := by decide +kernel

theorem keyedSp_64 : Fast.agrees Fast.keyedSp 64 ((keyedSp.drop 64).take 32) = true := by decide +kernel

theorem keyedSp_96 : Fast.agrees Fast.keyedSp 96 ((keyedSp.drop 96).take 32) = true := by decide +kernel

theorem keyedSp_128 : Fast.agrees Fast.keyedSp 128 ((keyedSp.drop 128).take 32) = true := by decide +kernel

theorem keyedSp_160 : Fast.agrees Fast.keyedSp 160 ((keyedSp.drop 160).take 32) = true := by decide +kernel

theorem keyedSp_192 : Fast.agrees Fast.keyedSp 192 ((keyedSp.drop 192).take 32) = true := by decide +kernel

theorem keyedSp_224 : Fast.agrees Fast.keyedSp 224 ((keyedSp.drop 224).take 32) = true := by decide +kernel

theorem keyedSp_length : keyedSp.length = 256 := by decide +kernel

theorem keyedSp_table {n : Nat} (h : n < 256) : Fast.keyedSp n = keyedSp.getD n 0 := by
  have hl := keyedSp_length
  have cut : 0 ≤ n ∧ n < 0 + 32 ∨ 32 ≤ n ∧ n < 32 + 32 ∨ 64 ≤ n ∧ n < 64 + 32 ∨ 96 ≤ n ∧ n < 96 + 32 ∨ 128 ≤ n ∧ n < 128 + 32 ∨ 160 ≤ n ∧ n < 160 + 32 ∨ 192 ≤ n ∧ n < 192 + 32 ∨ 224 ≤ n ∧ n < 224 + 32 := by omega
  rcases cut with ⟨a, b⟩ | ⟨a, b⟩ | ⟨a, b⟩ | ⟨a, b⟩ | ⟨a, b⟩ | ⟨a, b⟩ | ⟨a, b⟩ | ⟨a, b⟩
  · exact Fast.agrees_part keyedSp_0 (by omega) a b
  · exact Fast.agrees_part keyedSp_32 (by omega) a b
  · exact Fast.agrees_part keyedSp_64 (by omega) a b
  · exact Fast.agrees_part keyedSp_96 (by omega) a b
  · exact Fast.agrees_part keyedSp_128 (by omega) a b
  · exact Fast.agrees_part keyedSp_160 (by omega) a b
  · exact Fast.agrees_part keyedSp_192 (by omega) a b
  · exact Fast.agrees_part keyedSp_224 (by omega) a b

end Vectors
