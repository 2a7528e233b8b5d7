import Verif.Proofs.Usize
import Verif.Props.Single
/-!
# The width of `usize` (C52)

`leakage E calls` (Verif/Model/Leak.lean) says, among other things, what the exact result of every addition and
subtraction of `usize` is that the program `calls` makes the crate perform, and which positions in memory are
used. `Event.Fits w` (Verif/Usize.lean) says that these fit into a `usize` of `w` bits.
-/

namespace Blake2s

/-- **C52.** On a machine whose `usize` has `w ≥ 16` bits (Rust has no others), a program can only pass slices of
at most `isize::MAX = 2^(w-1) - 1` bytes. Whatever such a program does with the crate, in debug or release builds
and on any CPU, the exact results of all additions and subtractions of `usize` are from `0` to `2^w - 1`, so that
they never overflow; and no position in memory is larger than `isize::MAX`. -/
theorem C52_usize (E : Env) (w : Nat) (hw : 16 ≤ w) (calls : List Call)
    (h : ∀ c ∈ calls, ∀ b ∈ c.slices, b.length < 2 ^ (w - 1)) :
    ∀ e ∈ leakage E calls, e.Fits w := by
  have h2 : 2 ^ w = 2 * 2 ^ (w - 1) := by
    rw [← Nat.pow_succ', Nat.succ_eq_add_one, Nat.sub_add_cancel (by omega)]
  intro e he
  have := (programT_sz (Nat.pow_le_pow_right (by omega) (by omega : 15 ≤ w - 1)) E calls h).1 e he
  cases e with
  | usize n =>
    have t : 0 ≤ n ∧ n < 2 * ((2 ^ (w - 1) : Nat) : Int) := this
    refine ⟨t.1, ?_⟩
    have e : (2 : Int) ^ w = 2 * ((2 ^ (w - 1) : Nat) : Int) := by exact_mod_cast h2
    rw [e]
    exact t.2
  | address n => exact this
  | _ => trivial

/-- Additions and subtractions of `usize` do occur: filling the buffer of a state with three bytes that holds five
already, and the loop of `hash8_exact` over two blocks. -/
example : Event.usize 59 ∈ leakage debugAvx2 [.update 0 [1, 2, 3, 4, 5], .update 0 [6, 7, 8]] ∧
    Event.usize 8 ∈ leakage debugAvx2 [.update 0 [1, 2, 3, 4, 5], .update 0 [6, 7, 8]] ∧
    Event.usize 128 ∈ (Avx2.hash8ExactT Params.new (Vector.replicate 8 (List.replicate 128 7))).2 := by
  decide +kernel

/-- The longest slices there can be with a `usize` of 16 bits. -/
example : ∀ e ∈ leakage debugAvx2 [.blake2sp (List.replicate 32767 0) 0, .eqSlice 0 (List.replicate 32767 0)],
    e.Fits 16 := by
  refine C52_usize _ 16 (by decide) _ ?_
  simp only [List.mem_cons, List.not_mem_nil, or_false, forall_eq_or_imp, forall_eq, Call.slices,
    List.length_replicate]
  decide

end Blake2s
