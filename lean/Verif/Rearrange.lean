import Verif.Machine
/-!
# Rearranging programs (C56)

Which variables a call reads and writes, interleavings of two programs, and what it means that one piece of a
program can be put in place of another. Everything here is about the text of programs and about their outputs
(`Verif/Machine.lean`).
-/

namespace Blake2s

/-- A variable of a program. -/
inductive Var where
  | params (i : Nat)
  | state (i : Nat)
  | hash (i : Nat)
  | spParams (i : Nat)
  | spState (i : Nat)
deriving DecidableEq

/-- The variables a call reads: its arguments, in Rust `&x` and `&mut x`. -/
def Call.reads : Call → List Var
  | .newParams _ | .newState _ | .blake2s .. | .blake2sp .. | .spNewParams _ | .spNewState _ => []
  | .cloneParams _ p | .set p _ | .toState _ p | .hash4Exact p _ _ | .hash8Exact p _ _ => [.params p]
  | .hash8 p _ _ => p.toList.map .params
  | .cloneState _ s | .update s _ | .write s _ | .flush s | .setLastNode s _ | .finalize s _ | .count s
  | .debugState s | .forcePortable s => [.state s]
  | .update8 s _ | .finalize8 s _ => s.toList.map .state
  | .cloneHash _ h | .asBytes h | .toHex h | .debugHash h | .eqSlice h _ => [.hash h]
  | .eqHash a b => [.hash a, .hash b]
  | .spCloneParams _ p | .spSet p _ | .spDebugParams p | .spToState _ p => [.spParams p]
  | .spUpdate s _ | .spWrite s _ | .spFlush s | .spFinalize s _ | .spCount s | .spDebugState s
  | .spForcePortable s => [.spState s]

/-- The variables a call may change: those it assigns to, and arguments `&mut x`. -/
def Call.writes : Call → List Var
  | .newParams p | .cloneParams p _ | .set p _ => [.params p]
  | .newState s | .toState s _ | .cloneState s _ | .update s _ | .write s _ | .flush s | .setLastNode s _
  | .forcePortable s => [.state s]
  | .finalize s h => [.state s, .hash h]
  | .blake2s _ h | .cloneHash h _ | .blake2sp _ h => [.hash h]
  | .update8 s _ => s.toList.map .state
  | .finalize8 s h => s.toList.map .state ++ h.toList.map .hash
  | .hash4Exact _ _ h => h.toList.map .hash
  | .hash8Exact _ _ h | .hash8 _ _ h => h.toList.map .hash
  | .spNewParams p | .spCloneParams p _ | .spSet p _ => [.spParams p]
  | .spNewState s | .spToState s _ | .spUpdate s _ | .spWrite s _ | .spFlush s | .spForcePortable s => [.spState s]
  | .spFinalize s h => [.spState s, .hash h]
  | .count _ | .debugState _ | .asBytes _ | .toHex _ | .debugHash _ | .eqHash .. | .eqSlice .. | .spDebugParams _
  | .spCount _ | .spDebugState _ => []

/-- Neither call changes a variable that the other one reads or changes. In Rust this is what the borrow checker
asks of calls that happen at the same time in two threads. -/
def Call.Apart (c d : Call) : Prop :=
  (∀ v ∈ c.writes, v ∉ d.reads ∧ v ∉ d.writes) ∧ ∀ v ∈ d.writes, v ∉ c.reads ∧ v ∉ c.writes

instance (c d : Call) : Decidable (c.Apart d) := by unfold Call.Apart; infer_instance

/-- Two threads: every call of one is apart from every call of the other. -/
def Apart (p q : List Call) : Prop := ∀ c ∈ p, ∀ d ∈ q, c.Apart d

instance (p q : List Call) : Decidable (Apart p q) := by unfold Apart; infer_instance

/-- One order in which the elements of two lists can come: `true` takes the next one of the first list, `false` of
the second; when the order is used up, or that list is, what remains comes list by list. -/
def interleave {α : Type} : List Bool → List α → List α → List α
  | true :: order, x :: xs, ys => x :: interleave order xs ys
  | false :: order, xs, y :: ys => y :: interleave order xs ys
  | _, xs, ys => xs ++ ys

/-- A program's outputs, or `none` if it panics. -/
def outputs (E : Env) (calls : List Call) : Option (List Out) := (program E calls).toOption

/-- The outputs other than `()`. -/
def said (E : Env) (calls : List Call) : Option (List Out) := (outputs E calls).map (List.filter (· ≠ .unit))

/-- The call returns `()`, or an object that goes to a variable. -/
def Call.quiet : Call → Bool
  | .write .. | .count _ | .debugState _ | .asBytes _ | .toHex _ | .debugHash _ | .eqHash .. | .eqSlice ..
  | .spDebugParams _ | .spWrite .. | .spCount _ | .spDebugState _ => false
  | _ => true

/-- Putting `b` in place of `a` changes nothing in any program, in any environment: it says the same, or panics
just the same. -/
def Interchangeable (a b : List Call) : Prop :=
  ∀ E : Env, E.WF → ∀ before after : List Call, (∀ c ∈ before ++ a ++ b ++ after, c.Legal) →
    said E (before ++ a ++ after) = said E (before ++ b ++ after)

/-- `b` can be put in place of `a` in any program that does not panic. -/
def Replaceable (a b : List Call) : Prop :=
  ∀ E : Env, E.WF → ∀ before after : List Call, (∀ c ∈ before ++ a ++ b ++ after, c.Legal) →
    ∀ o, said E (before ++ a ++ after) = some o → said E (before ++ b ++ after) = some o

/-- Hashing one input with the State variable `t`. -/
def hashWith (t p : Nat) (input : List U8) (h : Nat) : List Call := [.toState t p, .update t input, .finalize t h]

/-- Hashing `n` inputs one after the other with the State variable `t`. -/
def hashEach {n : Nat} (t : Nat) (p : Vector Nat n) (input : Vector (List U8) n) (h : Vector Nat n) : List Call :=
  (List.finRange n).flatMap fun i => hashWith t p[i] input[i] h[i]

end Blake2s
