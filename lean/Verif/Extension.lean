import Verif.SpecTrace
/-!
# Digests cannot be extended (C58)

An attack on some hash functions: the digest of a message is the state in which the computation of the digest of a
longer message finds itself on the way, so that whoever knows the digest can go on from there.
-/

namespace Spec

/-- What a compression is given besides the chaining value. -/
def FInput.message (x : FInput) : (Fin 16 → Word) × BitVec 64 × Bool × Bool := (x.m, x.t, x.final, x.lastNode)

/-- The chaining value `h` is handed on from one compression to the next. -/
def PassesThrough (trace : List FInput) (h : Fin 8 → Word) : Prop :=
  ∃ before x y after, trace = before ++ x :: y :: after ∧ x.output = h ∧ y.h = h

end Spec
