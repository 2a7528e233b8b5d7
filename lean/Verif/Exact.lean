import Verif.Abstract
/-!
# The exact machine (C34)

`Verif/Abstract.lean` says what the crate is meant to do, and leaves open what it does where it departs
from that. This machine leaves nothing open: it is the same except that

* `hash4_exact` and `hash8_exact` forget the key when the vector code is in use (C19);
* a `blake2sp::State` remembers how many rows of eight blocks it has passed on to its leaves; with a key,
  the hash depends on that number (C30), and a debug build panics when it stops being zero;
* the `blake2sp` functions panic, with overflow checks on, exactly when a byte counter overflows: that of
  a leaf in `update` and `finalize`, the sum in `count` and `Debug`;
* the `Debug` text of a `blake2sp::State` is given.

It still has no buffer, no block, no chaining value, no eight-way anything; of the platform it knows only
whether the vector code is in use.
-/

namespace Blake2s.Exact

open Abstract (AState toState newParams newSpParams debugSpParams)

/-- How the crate was compiled, and whether the CPU has AVX2 and the crate uses it. -/
structure Build extends Abstract.Build where
  vector : Bool

/-- The build of an environment. -/
def buildOf (E : Env) : Build := ⟨⟨E.overflowChecks, E.debugAssertions⟩, E.usesAvx2⟩

/-- A `blake2sp::State`: hash length, key, all bytes fed, and how many times 512 of these bytes have been
passed on to the leaves. -/
structure SpState where
  hashLength : U8
  key : List U8
  fed : List U8
  rows : Nat

/-- `blake2sp` `to_state`. -/
def toSpState (v : Sp.View) : SpState := ⟨v.hashLength, v.key, [], 0⟩

/-- The rows passed on after `update`. -/
def SpState.rowsWith (s : SpState) (input : List U8) : Nat :=
  s.rows + Sp.rowsTaken (s.fed.length - 512 * s.rows) input.length

/-- `update`. -/
def SpState.update (b : Build) (s : SpState) (input : List U8) : R SpState :=
  if b.debugAssertions ∧ s.key ≠ [] ∧ s.rows < s.rowsWith input then
    .error .debugAssertFailed
  else if b.overflowChecks ∧ 2 ^ 64 ≤ (Spec.keyBlock s.key).length + 64 * s.rowsWith input then
    .error .overflow
  else
    .ok { s with fed := s.fed ++ input, rows := s.rowsWith input }

/-- The bytes counted by leaf `i` once everything has been passed on to it. -/
def SpState.leafCount (s : SpState) (i : Fin 8) : Nat :=
  64 * s.rows + (Spec.keyBlock s.key).length +
    (Spec.Sp.leafInput i (s.fed.drop (512 * s.rows))).length

/-- `finalize`. -/
def SpState.digest (b : Build) (s : SpState) : R (List U8) :=
  if b.overflowChecks ∧ ∃ i, 2 ^ 64 ≤ s.leafCount i then .error .overflow
  else if s.key = [] then .ok (Spec.Sp.hash s.hashLength [] s.fed)
  else .ok (Sp.keyedHash s.hashLength s.key s.rows s.fed)

/-- `count`: eight key blocks, if there is a key, and the bytes fed. -/
def SpState.count (b : Build) (s : SpState) : R U64 :=
  if b.overflowChecks ∧ 2 ^ 64 ≤ 8 * (Spec.keyBlock s.key).length + s.fed.length then .error .overflow
  else .ok (BitVec.ofNat 64 (8 * (Spec.keyBlock s.key).length + s.fed.length))

/-- `Debug` of the leaves 0 to 3: the bytes counted so far. -/
def SpState.debugLeaf (s : SpState) : String :=
  "State { count: " ++ toString ((64 * s.rows + (Spec.keyBlock s.key).length) % 2 ^ 64) ++
    ", hash_length: 32, last_node: false }"

/-- `Debug` of the root. -/
def SpState.debugRoot (s : SpState) : String :=
  "State { count: 0, hash_length: " ++ toString s.hashLength.toNat ++ ", last_node: true }"

/-- `Debug`. -/
def SpState.debug (b : Build) (s : SpState) : R String := do
  let c ← s.count b
  return "State { count: " ++ toString c.toNat ++
    ", root: " ++ s.debugRoot ++ ", leaf0: " ++ s.debugLeaf ++ ", leaf1: " ++ s.debugLeaf ++
    ", leaf2: " ++ s.debugLeaf ++ ", leaf3: " ++ s.debugLeaf ++ " }"

/-- The digests of `hash4_exact` and `hash8_exact`. -/
def exactDigest (b : Build) (v : View) (input : List U8) : List U8 :=
  if b.vector then
    Spec.digestBytes (Spec.absorb v.values.init 0 input v.lastNode) v.values.digestLength.toNat
  else Spec.hash v.values v.key v.lastNode input

/-- The variables of the program. -/
structure XWorld where
  params : Nat → View
  state : Nat → AState
  hash : Nat → List U8
  spParams : Nat → Sp.View
  spState : Nat → SpState

/-- The variables at the start. -/
def XWorld.init : XWorld where
  params := fun _ => newParams
  state := fun _ => toState newParams
  hash := fun _ => Spec.blake2s []
  spParams := fun _ => newSpParams
  spState := fun _ => toSpState newSpParams

/-- Assigning a `Params` variable. -/
def XWorld.setParams (w : XWorld) (i : Nat) (v : View) : R (XWorld × Out) :=
  .ok ({ w with params := assign w.params i v }, .unit)

/-- Assigning a `State` variable. -/
def XWorld.setState (w : XWorld) (i : Nat) (s : AState) (o : Out := .unit) : R (XWorld × Out) :=
  .ok ({ w with state := assign w.state i s }, o)

/-- Assigning a `Hash` variable. -/
def XWorld.setHash (w : XWorld) (i : Nat) (h : List U8) : R (XWorld × Out) :=
  .ok ({ w with hash := assign w.hash i h }, .unit)

/-- Assigning several `State` variables. -/
def XWorld.setStates {n : Nat} (w : XWorld) (is : Vector Nat n) (ss : Vector AState n) :
    R (XWorld × Out) :=
  .ok ({ w with state := assignAll w.state is ss }, .unit)

/-- Assigning several `Hash` variables. -/
def XWorld.setHashes {n : Nat} (w : XWorld) (is : Vector Nat n) (hs : Vector (List U8) n) :
    R (XWorld × Out) :=
  .ok ({ w with hash := assignAll w.hash is hs }, .unit)

/-- Assigning a `blake2sp::Params` variable. -/
def XWorld.setSpParams (w : XWorld) (i : Nat) (v : Sp.View) : R (XWorld × Out) :=
  .ok ({ w with spParams := assign w.spParams i v }, .unit)

/-- Assigning a `blake2sp::State` variable. -/
def XWorld.setSpState (w : XWorld) (i : Nat) (s : SpState) (o : Out := .unit) : R (XWorld × Out) :=
  .ok ({ w with spState := assign w.spState i s }, o)

/-- One call. -/
def XWorld.call (b : Build) (w : XWorld) : Call → R (XWorld × Out)
  | .newParams p => w.setParams p newParams
  | .cloneParams dst src => w.setParams dst (w.params src)
  | .set p c => if c.InRange then w.setParams p (c.effect (w.params p)) else .error .assertFailed
  | .newState s => w.setState s (toState newParams)
  | .toState s p => w.setState s (toState (w.params p))
  | .cloneState dst src => w.setState dst (w.state src)
  | .update s input =>
    if (w.state s).overflows b.toBuild input then .error .overflow
    else w.setState s ((w.state s).update input)
  | .write s input =>
    if (w.state s).overflows b.toBuild input then .error .overflow
    else w.setState s ((w.state s).update input) (.length input.length)
  | .flush _ => .ok (w, .unit)
  | .setLastNode s b => w.setState s { w.state s with lastNode := b }
  | .finalize s h => w.setHash h (w.state s).digest
  | .count s => .ok (w, .count (BitVec.ofNat 64 (w.state s).counted))
  | .debugState s => .ok (w, .text (w.state s).debug.toList)
  | .forcePortable _ => .ok (w, .unit)
  | .blake2s input h => w.setHash h (Spec.blake2s input)
  | .update8 s input =>
    if ∃ i : Fin 8, (w.state s[i]).overflows b.toBuild input[i] then .error .overflow
    else w.setStates s (Vector.ofFn fun i : Fin 8 => (w.state s[i]).update input[i])
  | .finalize8 s h => w.setHashes h (Vector.ofFn fun i : Fin 8 => (w.state s[i]).digest)
  | .hash4Exact p input h =>
    if ExactLengths input input[0].length then
      w.setHashes h (input.map (exactDigest b (w.params p)))
    else .error .assertFailed
  | .hash8Exact p input h =>
    if ExactLengths input input[0].length then
      w.setHashes h (input.map (exactDigest b (w.params p)))
    else .error .assertFailed
  | .hash8 p input h =>
    if ∀ i : Fin 8, (w.params p[i]).key = [] then
      w.setHashes h (Vector.ofFn fun i : Fin 8 =>
        Spec.hash (w.params p[i]).values [] (w.params p[i]).lastNode input[i])
    else .error .assertFailed
  | .cloneHash dst src => w.setHash dst (w.hash src)
  | .asBytes h => .ok (w, .bytes (w.hash h))
  | .toHex h => .ok (w, .hex (hexOf (w.hash h)))
  | .debugHash h => .ok (w, .hex ("Hash(0x".toList ++ hexOf (w.hash h) ++ ")".toList))
  | .eqHash x y => .ok (w, .bool (decide (w.hash x = w.hash y)))
  | .eqSlice h s => .ok (w, .bool (decide (w.hash h = s)))
  | .blake2sp input h => w.setHash h (Spec.Sp.blake2sp input)
  | .spNewParams p => w.setSpParams p newSpParams
  | .spCloneParams dst src => w.setSpParams dst (w.spParams src)
  | .spSet p c =>
    if c.InRange then w.setSpParams p (c.effect (w.spParams p)) else .error .assertFailed
  | .spDebugParams p => .ok (w, .text (debugSpParams (w.spParams p)).toList)
  | .spNewState s => w.setSpState s (toSpState newSpParams)
  | .spToState s p => w.setSpState s (toSpState (w.spParams p))
  | .spUpdate s input => do w.setSpState s (← (w.spState s).update b input)
  | .spWrite s input => do w.setSpState s (← (w.spState s).update b input) (.length input.length)
  | .spFlush _ => .ok (w, .unit)
  | .spFinalize s h => do w.setHash h (← (w.spState s).digest b)
  | .spCount s => do return (w, .count (← (w.spState s).count b))
  | .spDebugState s => do return (w, .text (← (w.spState s).debug b).toList)
  | .spForcePortable _ => .ok (w, .unit)

/-- Running a program. -/
def XWorld.run (b : Build) (w : XWorld) : List Call → R (List Out)
  | [] => .ok []
  | c :: cs => do
    let (w, o) ← w.call b c
    return o :: (← w.run b cs)

/-- A program run from the start: its outputs, or the panic. -/
def program (b : Build) (calls : List Call) : R (List Out) := XWorld.init.run b calls

end Blake2s.Exact
