import Verif.Model.Leak
/-!
# Numbers that fit into `usize`

The width of `usize` and what has to fit into it, read off a trace (Verif/Model/Leak.lean).
-/

namespace Blake2s

/-- What a machine whose `usize` has `w` bits can do at one event: the exact result of an addition or a
subtraction of `usize` has to be a `usize`, and a position in memory has to be at most `isize::MAX`, which is
`2^(w-1) - 1`. For src/lib.rs and src/blake2sp.rs as a whole. -/
def Event.Fits (w : Nat) : Event → Prop
  | .usize n => 0 ≤ n ∧ n < 2 ^ w
  | .address n => n < 2 ^ (w - 1)
  | _ => True

end Blake2s
