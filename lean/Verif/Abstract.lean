import Verif.Machine
/-!
# The abstract machine (C34)

The same calls as in `Verif/Machine.lean`, but on mathematical objects and with the hash functions of
`Verif/Spec.lean`:

* a `Params` is the values last set (`View`);
* a `State` is its parameters, all bytes fed, and the last-node flag;
* a `Hash` is a byte string;
* a `blake2sp::Params` is a hash length and a key; a `blake2sp::State` is those and all bytes fed.

There is no buffer, no block, no chaining value, no eight-way anything, no platform.

Where the code deviates from its documentation the machine does as follows.

* `count` includes the key block (C05) or the eight key blocks (C29).
* The hashes of `hash4_exact` and `hash8_exact` with keyed parameters are unspecified (C19).
* A keyed `blake2sp::State` that is fed more than it buffers (`Sp.Buffered`, C30) panics if debug
  assertions are on; otherwise its contents become unspecified.
* A `blake2sp::State` fed 2^64 bytes or more with overflow checks on becomes unspecified, and the call
  may or may not panic (only a leaf that gets 2^64 bytes panics).
* The debug text of `blake2sp::State` is unspecified (it shows how far the leaves have got).

Unspecified things are `none`.
-/

namespace Blake2s.Abstract

/-- How the crate was compiled. -/
structure Build where
  overflowChecks : Bool
  debugAssertions : Bool

/-- A `State`. -/
structure AState where
  values : Spec.Params
  key : List U8
  fed : List U8
  lastNode : Bool

/-- A `blake2sp::State`. -/
structure ASpState where
  hashLength : U8
  key : List U8
  fed : List U8

/-- The variables of the program. -/
structure AWorld where
  params : Nat → View
  state : Nat → AState
  hash : Nat → Option (List U8)
  spParams : Nat → Sp.View
  spState : Nat → Option ASpState

/-- `Params::new()`. -/
def newParams : View := ⟨Spec.sequential 32 0, [], false⟩

/-- `blake2sp::Params::new()`. -/
def newSpParams : Sp.View := ⟨32, []⟩

/-- `to_state`. -/
def toState (v : View) : AState := ⟨v.values, v.key, [], v.lastNode⟩

/-- `blake2sp` `to_state`. -/
def toSpState (v : Sp.View) : ASpState := ⟨v.hashLength, v.key, []⟩

/-- The bytes counted: the key block, if there is a key, and the bytes fed. -/
def AState.counted (s : AState) : Nat := (Spec.keyBlock s.key).length + s.fed.length

/-- The bytes counted: eight key blocks, if there is a key, and the bytes fed. -/
def ASpState.counted (s : ASpState) : Nat := 8 * (Spec.keyBlock s.key).length + s.fed.length

/-- `update`. -/
def AState.update (s : AState) (input : List U8) : AState := { s with fed := s.fed ++ input }

/-- The counter would overflow. -/
def AState.overflows (b : Build) (s : AState) (input : List U8) : Bool :=
  b.overflowChecks && decide (2 ^ 64 ≤ s.counted + input.length)

/-- `finalize`. -/
def AState.digest (s : AState) : List U8 := Spec.hash s.values s.key s.lastNode s.fed

/-- `blake2sp` `finalize`. -/
def ASpState.digest (s : ASpState) : List U8 := Spec.Sp.hash s.hashLength s.key s.fed

/-- `Debug` of a `State`. -/
def AState.debug (s : AState) : String :=
  "State { count: " ++ toString (s.counted % 2 ^ 64) ++
    ", hash_length: " ++ toString s.values.digestLength.toNat ++
    ", last_node: " ++ (if s.lastNode then "true" else "false") ++ " }"

/-- `Debug` of a `blake2sp::Params`. -/
def debugSpParams (v : Sp.View) : String :=
  "Params { hash_length: " ++ toString v.hashLength.toNat ++ ", key_length: " ++
    toString v.key.length ++ " }"

/-- `update` of a `blake2sp::State`: panic, or the new contents. -/
inductive SpUpdate where
  | panics
  | returns (s : Option ASpState) (sure : Bool)

/-- `update` of a `blake2sp::State`. -/
def spUpdate (b : Build) (s : Option ASpState) (input : List U8) : SpUpdate :=
  match s with
  | none => .returns none false
  | some s =>
    if s.key ≠ [] ∧ ¬ Sp.Buffered s.fed.length input.length then
      if b.debugAssertions then .panics else .returns none false
    else if b.overflowChecks ∧ 2 ^ 64 ≤ s.fed.length + input.length then
      .returns none false
    else
      .returns (some { s with fed := s.fed ++ input }) true

/-- The variables at the start. -/
def AWorld.init : AWorld where
  params := fun _ => newParams
  state := fun _ => toState newParams
  hash := fun _ => some (Spec.blake2s [])
  spParams := fun _ => newSpParams
  spState := fun _ => some (toSpState newSpParams)

/-- What a call does: it panics; or it returns, with new contents of the variables and an output
(`none`: unspecified). `sure = false` means that the call may panic after all. -/
inductive Result where
  | panics
  | returns (w : AWorld) (out : Option Out) (sure : Bool)

/-- A call that changes nothing and returns `o`. -/
def AWorld.query (w : AWorld) (o : Option Out) : Result := .returns w o true

/-- Assigning a `Params` variable. -/
def AWorld.setParams (w : AWorld) (i : Nat) (v : View) : Result :=
  .returns { w with params := assign w.params i v } (some .unit) true

/-- Assigning a `State` variable. -/
def AWorld.setState (w : AWorld) (i : Nat) (s : AState) (o : Out := .unit) : Result :=
  .returns { w with state := assign w.state i s } (some o) true

/-- Assigning a `Hash` variable. -/
def AWorld.setHash (w : AWorld) (i : Nat) (h : Option (List U8)) : Result :=
  .returns { w with hash := assign w.hash i h } (some .unit) true

/-- Assigning several `State` variables. -/
def AWorld.setStates {n : Nat} (w : AWorld) (is : Vector Nat n) (ss : Vector AState n) : Result :=
  .returns { w with state := assignAll w.state is ss } (some .unit) true

/-- Assigning several `Hash` variables. -/
def AWorld.setHashes {n : Nat} (w : AWorld) (is : Vector Nat n) (hs : Vector (Option (List U8)) n) :
    Result :=
  .returns { w with hash := assignAll w.hash is hs } (some .unit) true

/-- The digests of `hash4_exact` and `hash8_exact`. -/
def exactDigest (v : View) (input : List U8) : Option (List U8) :=
  if v.key = [] then some (Spec.hash v.values [] v.lastNode input) else none

/-- One call. -/
def AWorld.call (b : Build) (w : AWorld) : Call → Result
  | .newParams p => w.setParams p newParams
  | .cloneParams dst src => w.setParams dst (w.params src)
  | .set p c => if c.InRange then w.setParams p (c.effect (w.params p)) else .panics
  | .newState s => w.setState s (toState newParams)
  | .toState s p => w.setState s (toState (w.params p))
  | .cloneState dst src => w.setState dst (w.state src)
  | .update s input =>
    if (w.state s).overflows b input then .panics else w.setState s ((w.state s).update input)
  | .write s input =>
    if (w.state s).overflows b input then .panics
    else w.setState s ((w.state s).update input) (.length input.length)
  | .flush _ => w.query (some .unit)
  | .setLastNode s b => w.setState s { w.state s with lastNode := b }
  | .finalize s h => w.setHash h (some (w.state s).digest)
  | .count s => w.query (some (.count (BitVec.ofNat 64 (w.state s).counted)))
  | .debugState s => w.query (some (.text (w.state s).debug.toList))
  | .forcePortable _ => w.query (some .unit)
  | .blake2s input h => w.setHash h (some (Spec.blake2s input))
  | .update8 s input =>
    if ∃ i : Fin 8, (w.state s[i]).overflows b input[i] then .panics
    else w.setStates s (Vector.ofFn fun i : Fin 8 => (w.state s[i]).update input[i])
  | .finalize8 s h => w.setHashes h (Vector.ofFn fun i : Fin 8 => some (w.state s[i]).digest)
  | .hash4Exact p input h =>
    if ExactLengths input input[0].length then
      w.setHashes h (input.map (exactDigest (w.params p)))
    else .panics
  | .hash8Exact p input h =>
    if ExactLengths input input[0].length then
      w.setHashes h (input.map (exactDigest (w.params p)))
    else .panics
  | .hash8 p input h =>
    if ∀ i : Fin 8, (w.params p[i]).key = [] then
      w.setHashes h (Vector.ofFn fun i : Fin 8 =>
        some (Spec.hash (w.params p[i]).values [] (w.params p[i]).lastNode input[i]))
    else .panics
  | .cloneHash dst src => w.setHash dst (w.hash src)
  | .asBytes h => w.query ((w.hash h).map .bytes)
  | .toHex h => w.query ((w.hash h).map fun b => .hex (hexOf b))
  | .debugHash h =>
    w.query ((w.hash h).map fun b => .hex ("Hash(0x".toList ++ hexOf b ++ ")".toList))
  | .eqHash x y => w.query <|
    match w.hash x, w.hash y with
    | some a, some b => some (.bool (decide (a = b)))
    | _, _ => none
  | .eqSlice h s => w.query ((w.hash h).map fun b => .bool (decide (b = s)))
  | .blake2sp input h => w.setHash h (some (Spec.Sp.blake2sp input))
  | .spNewParams p =>
    .returns { w with spParams := assign w.spParams p newSpParams } (some .unit) true
  | .spCloneParams dst src =>
    .returns { w with spParams := assign w.spParams dst (w.spParams src) } (some .unit) true
  | .spSet p c =>
    if c.InRange then
      .returns { w with spParams := assign w.spParams p (c.effect (w.spParams p)) } (some .unit) true
    else .panics
  | .spDebugParams p => w.query (some (.text (debugSpParams (w.spParams p)).toList))
  | .spNewState s =>
    .returns { w with spState := assign w.spState s (some (toSpState newSpParams)) } (some .unit) true
  | .spToState s p =>
    .returns { w with spState := assign w.spState s (some (toSpState (w.spParams p))) }
      (some .unit) true
  | .spUpdate s input =>
    match spUpdate b (w.spState s) input with
    | .panics => .panics
    | .returns x sure => .returns { w with spState := assign w.spState s x } (some .unit) sure
  | .spWrite s input =>
    match spUpdate b (w.spState s) input with
    | .panics => .panics
    | .returns x sure =>
      .returns { w with spState := assign w.spState s x } (some (.length input.length)) sure
  | .spFlush _ => w.query (some .unit)
  | .spFinalize s h => .returns
      { w with hash := assign w.hash h ((w.spState s).map ASpState.digest) } (some .unit)
      (w.spState s).isSome
  | .spCount s => .returns w
      ((w.spState s).map fun x => .count (BitVec.ofNat 64 x.counted)) (w.spState s).isSome
  | .spDebugState s => .returns w none (w.spState s).isSome
  | .spForcePortable _ => w.query (some .unit)

/-- What a program does: its outputs, in order; whether it then panics; and whether it is certain not to
panic before that. -/
structure Run where
  outs : List (Option Out)
  panics : Bool
  sure : Bool

/-- Running a program. -/
def AWorld.run (b : Build) (w : AWorld) : List Call → Run
  | [] => ⟨[], false, true⟩
  | c :: cs =>
    match w.call b c with
    | .panics => ⟨[], true, true⟩
    | .returns w o sure =>
      let r := w.run b cs
      ⟨o :: r.outs, r.panics, sure && r.sure⟩

/-- A program run from the start. -/
def program (b : Build) (calls : List Call) : Run := AWorld.init.run b calls

/-- A specified output must be the actual one. -/
def Allows : List (Option Out) → List Out → Prop
  | [], [] => True
  | some o :: os, x :: xs => o = x ∧ Allows os xs
  | none :: os, _ :: xs => Allows os xs
  | _, _ => False

/-- A call that sets no key and does not print a `blake2sp::State`. -/
def Plain : Call → Prop
  | .set _ (.key k) => k = []
  | .spSet _ (.key k) => k = []
  | .spDebugState _ => False
  | _ => True

/-- All bytes passed to the crate by a program. -/
def bytesPassed (calls : List Call) : Nat :=
  (calls.map fun c => (c.slices.map List.length).sum).sum

end Blake2s.Abstract
