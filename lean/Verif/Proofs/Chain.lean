import Verif.Spec
/-!
# The chaining values of `Spec.absorb`
-/

namespace Spec

theorem chain_front (h : Fin 8 → Word) (off : Nat) (data : List Byte) (k : Nat) :
    chain h off data (k + 1) =
      chain (F h (blockWords (data.take 64)) (off + 64) false false) (off + 64) (data.drop 64) k := by
  induction k with
  | zero => simp [chain]
  | succ k ih =>
    rw [chain, ih]
    conv => rhs; rw [chain]
    rw [List.drop_drop, show 64 + 64 * k = 64 * (k + 1) by omega,
      show off + 64 * (k + 1 + 1) = off + 64 + 64 * (k + 1) by omega]

theorem chain_congr (h : Fin 8 → Word) (off : Nat) (a b : List Byte) (k : Nat)
    (hab : a.take (64 * k) = b.take (64 * k)) : chain h off a k = chain h off b k := by
  induction k with
  | zero => rfl
  | succ k ih =>
    have h1 : a.take (64 * k) = b.take (64 * k) := by
      have := congrArg (List.take (64 * k)) hab
      simpa [List.take_take, show min (64 * k) (64 * (k + 1)) = 64 * k by omega] using this
    have h2 : (a.drop (64 * k)).take 64 = (b.drop (64 * k)).take 64 := by
      have := congrArg (List.drop (64 * k)) hab
      simpa [List.drop_take, show 64 * (k + 1) - 64 * k = 64 by omega] using this
    rw [chain, chain, ih h1, h2]

theorem chain_append (h : Fin 8 → Word) (off : Nat) (a b : List Byte) (k : Nat)
    (hk : 64 * k ≤ a.length) : chain h off (a ++ b) k = chain h off a k := by
  apply chain_congr
  rw [List.take_append_of_le_length hk]

/-- Going on from a chaining value. -/
theorem absorb_chain (h : Fin 8 → Word) (off : Nat) (data rest : List Byte) (ln : Bool) (k : Nat)
    (hlen : data.length = 64 * k) (hk : 0 < k → rest ≠ []) :
    absorb (chain h off data k) (off + 64 * k) rest ln = absorb h off (data ++ rest) ln := by
  induction k generalizing h off data with
  | zero =>
    have : data = [] := List.length_eq_zero_iff.mp hlen
    subst this
    rfl
  | succ k ih =>
    have hr := List.length_pos_iff.mpr (hk (by omega))
    conv => rhs; rw [absorb]
    rw [if_neg (by rw [List.length_append]; omega), List.take_append_of_le_length (by omega),
      List.drop_append_of_le_length (by omega), ← ih _ _ _ (by simp; omega) (fun _ => hk (by omega)),
      chain_front]
    congr 1
    omega

/-- `absorb` in terms of `chain`. -/
theorem absorb_eq (h : Fin 8 → Word) (off : Nat) (data : List Byte) (ln : Bool) (k b : Nat)
    (hlen : data.length = 64 * k + b) (hb : b ≤ 64) (hk : 0 < k → 0 < b) :
    absorb h off data ln =
      F (chain h off data k) (blockWords (data.drop (64 * k))) (off + data.length) true ln := by
  induction k generalizing h off data with
  | zero =>
    rw [absorb, if_pos (by omega)]
    simp [chain]
  | succ k ih =>
    have := hk (by omega)
    rw [absorb, if_neg (by omega), ih _ _ _ (by simp; omega) (fun _ => this), chain_front,
      List.drop_drop, show 64 + 64 * k = 64 * (k + 1) by omega]
    congr 1
    simp; omega

end Spec
