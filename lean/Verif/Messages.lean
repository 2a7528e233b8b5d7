import Verif.Model.Leak
/-!
# Panic messages

What a program prints when it panics, read off its trace (Verif/Model/Leak.lean), and what it should print.
-/

namespace Blake2s

/-- The panic messages in a trace. For src/lib.rs and src/blake2sp.rs as a whole. -/
def messages (t : List Event) : List String :=
  t.filterMap fun e => match e with
    | .panic m => some m
    | _ => none

/-- The faults that are Rust panics. Not panics: undefined behaviour (a read out of bounds, an instruction the CPU
does not have) and, in the model only, the end of the fuel of a loop. For src/lib.rs and src/blake2sp.rs as a
whole. -/
def Fault.isPanic : Fault → Bool
  | .assertFailed | .debugAssertFailed | .overflow | .indexOutOfRange | .capacity => true
  | .outOfBoundsRead | .illegalInstruction | .nonTermination => false

/-- What a setter of BLAKE2s parameters complains about. For src/lib.rs:210-282. -/
def Setter.complaint : Setter → List String
  | .hashLength n => if 1 ≤ n ∧ n ≤ 32 then [] else ["Bad hash length: " ++ toString n]
  | .key k => if k.length ≤ 32 then [] else ["Bad key length: " ++ toString k.length]
  | .salt s => if s.length ≤ 8 then [] else ["Bad salt length: " ++ toString s.length]
  | .personal s => if s.length ≤ 8 then [] else ["Bad personalization length: " ++ toString s.length]
  | .maxDepth n => if n.toNat = 0 then ["Bad max depth: 0"] else []
  | .nodeOffset n => if n.toNat < 2 ^ 48 then [] else ["Bad node offset: " ++ toString n.toNat]
  | .innerHashLength n => if n ≤ 32 then [] else ["Bad inner hash length: " ++ toString n]
  | .fanout _ | .maxLeafLength _ | .nodeDepth _ | .lastNode _ => []

/-- What a setter of BLAKE2sp parameters complains about. For src/blake2sp.rs:34-50. -/
def Sp.Setter.complaint : Sp.Setter → List String
  | .hashLength n => if 1 ≤ n ∧ n ≤ 32 then [] else ["Bad hash length: " ++ toString n]
  | .key k => if k.length ≤ 32 then [] else ["Bad key length: " ++ toString k.length]

/-- What is said about a fault. The message of a failed assertion is the complaint of a setter, or that about the
inputs of `hash4_exact` and `hash8_exact` (both name the latter), or that about a key length other than 0 given to
`hash8`; that of a debug assertion quotes the two numbers that should have been equal; that of an overflow is fixed.
For src/lib.rs and src/blake2sp.rs as a whole. -/
def Fault.Says : Fault → String → Prop
  | .assertFailed, m => (∃ c : Setter, m ∈ c.complaint) ∨ m = "invalid hash8_exact inputs" ∨
      ∃ k : Nat, k ≠ 0 ∧ m = "assertion failed: `(left == right)`\n  left: `0`,\n right: `" ++ toString k ++ "`"
  | .overflow, m => m = "attempt to add with overflow" ∨ m = "attempt to subtract with overflow"
  | .debugAssertFailed, m => ∃ a b : Nat, a ≠ b ∧
      m = "assertion failed: `(left == right)`\n  left: `" ++ toString a ++ "`,\n right: `" ++ toString b ++ "`"
  | _, _ => True

end Blake2s
