import Verif.Vocab
import Verif.Model.Many
/-!
# Programs that use the crate

A client program is a list of calls of the crate's public functions on named variables. Every variable
initially holds a default object (`Params::new()`, `State::new()`, …, the hash of the empty string).
Each call has an output; a panic ends the program. Rust's ownership rules appear in two places: each
object lives in exactly one variable, and the eight `&mut` arguments of `update8` / `finalize8` are
eight different variables (`Call.Legal`).
-/

namespace Blake2s

/-- One call of a public function. The `Nat`s name variables; each type of object has its own names. -/
inductive Call where
  -- `Params` (src/lib.rs:163-303)
  | newParams (p : Nat)
  | cloneParams (dst src : Nat)
  | set (p : Nat) (c : Setter)
  -- `State` (src/lib.rs:305-466)
  | newState (s : Nat)
  | toState (s p : Nat)
  | cloneState (dst src : Nat)
  | update (s : Nat) (input : List U8)
  | write (s : Nat) (input : List U8)
  | flush (s : Nat)
  | setLastNode (s : Nat) (b : Bool)
  | finalize (s h : Nat)
  | count (s : Nat)
  | debugState (s : Nat)
  | forcePortable (s : Nat)
  -- free functions (src/lib.rs:159-161, 523-1019)
  | blake2s (input : List U8) (h : Nat)
  | update8 (s : Vector Nat 8) (input : Vector (List U8) 8)
  | finalize8 (s h : Vector Nat 8)
  | hash4Exact (p : Nat) (input : Vector (List U8) 4) (h : Vector Nat 4)
  | hash8Exact (p : Nat) (input : Vector (List U8) 8) (h : Vector Nat 8)
  | hash8 (p : Vector Nat 8) (input : Vector (List U8) 8) (h : Vector Nat 8)
  -- `Hash` (src/lib.rs:468-521)
  | cloneHash (dst src : Nat)
  | asBytes (h : Nat)
  | toHex (h : Nat)
  | debugHash (h : Nat)
  | eqHash (a b : Nat)
  | eqSlice (h : Nat) (b : List U8)
  -- `blake2sp` (src/blake2sp.rs)
  | blake2sp (input : List U8) (h : Nat)
  | spNewParams (p : Nat)
  | spCloneParams (dst src : Nat)
  | spSet (p : Nat) (c : Sp.Setter)
  | spDebugParams (p : Nat)
  | spNewState (s : Nat)
  | spToState (s p : Nat)
  | spUpdate (s : Nat) (input : List U8)
  | spWrite (s : Nat) (input : List U8)
  | spFlush (s : Nat)
  | spFinalize (s h : Nat)
  | spCount (s : Nat)
  | spDebugState (s : Nat)
  | spForcePortable (s : Nat)

/-- What a call returns to the program (objects returned go to a variable instead). -/
inductive Out where
  | unit
  | count (n : U64)
  | length (n : Nat)
  | bytes (b : List U8)
  | text (t : List Char)
  | hex (t : List Char)
  | bool (b : Bool)
deriving DecidableEq

/-- The variables of the program. -/
structure World where
  params : Nat → Params
  state : Nat → State
  hash : Nat → Hash
  spParams : Nat → Sp.Params
  spState : Nat → Sp.State

/-- Assignment to one variable. -/
def assign {α : Type} (f : Nat → α) (i : Nat) (x : α) : Nat → α := fun j => if j = i then x else f j

/-- Assignment to several variables, in order. -/
def assignAll {α : Type} {n : Nat} (f : Nat → α) (is : Vector Nat n) (xs : Vector α n) : Nat → α :=
  (is.toList.zip xs.toList).foldl (fun f ix => assign f ix.1 ix.2) f

/-- The variables at the start. -/
def World.init (E : Env) : R World := do
  let s ← State.new E
  let h ← Blake2s.blake2s E []
  let t ← Sp.State.new E
  return { params := fun _ => Params.new
           state := fun _ => s
           hash := fun _ => h
           spParams := fun _ => Sp.Params.new
           spState := fun _ => t }

/-- Running one call. -/
def World.call (E : Env) (w : World) : Call → R (World × Out)
  | .newParams p => pure ({ w with params := Blake2s.assign w.params p Params.new }, .unit)
  | .cloneParams dst src =>
    pure ({ w with params := Blake2s.assign w.params dst (w.params src) }, .unit)
  | .set p c => do
    let x ← (w.params p).set c
    return ({ w with params := Blake2s.assign w.params p x }, .unit)
  | .newState s => do
    let x ← State.new E
    return ({ w with state := Blake2s.assign w.state s x }, .unit)
  | .toState s p => do
    let x ← (w.params p).toState E
    return ({ w with state := Blake2s.assign w.state s x }, .unit)
  | .cloneState dst src =>
    pure ({ w with state := Blake2s.assign w.state dst (w.state src) }, .unit)
  | .update s input => do
    let x ← (w.state s).update E input
    return ({ w with state := Blake2s.assign w.state s x }, .unit)
  | .write s input => do
    let (x, n) ← (w.state s).write E input
    return ({ w with state := Blake2s.assign w.state s x }, .length n)
  | .flush s => pure ({ w with state := Blake2s.assign w.state s (w.state s).flush }, .unit)
  | .setLastNode s b =>
    pure ({ w with state := Blake2s.assign w.state s ((w.state s).setLastNode b) }, .unit)
  | .finalize s h => do
    let (x, d) ← (w.state s).finalize E
    return ({ w with state := Blake2s.assign w.state s x
                     hash := Blake2s.assign w.hash h d }, .unit)
  | .count s => pure (w, .count (w.state s).getCount)
  | .debugState s => pure (w, .text (w.state s).debug.toList)
  | .forcePortable s =>
    pure ({ w with state := Blake2s.assign w.state s (w.state s).forcePortable }, .unit)
  | .blake2s input h => do
    let d ← Blake2s.blake2s E input
    return ({ w with hash := Blake2s.assign w.hash h d }, .unit)
  | .update8 s input => do
    let xs ← Blake2s.update8 E (s.map w.state) input
    return ({ w with state := assignAll w.state s xs }, .unit)
  | .finalize8 s h => do
    let (xs, ds) ← Blake2s.finalize8 E (s.map w.state)
    return ({ w with state := assignAll w.state s xs
                     hash := assignAll w.hash h ds }, .unit)
  | .hash4Exact p input h => do
    let ds ← Blake2s.hash4Exact E (w.params p) input
    return ({ w with hash := assignAll w.hash h ds }, .unit)
  | .hash8Exact p input h => do
    let ds ← Blake2s.hash8Exact E (w.params p) input
    return ({ w with hash := assignAll w.hash h ds }, .unit)
  | .hash8 p input h => do
    let ds ← Blake2s.hash8 E (p.map w.params) input
    return ({ w with hash := assignAll w.hash h ds }, .unit)
  | .cloneHash dst src => pure ({ w with hash := Blake2s.assign w.hash dst (w.hash src) }, .unit)
  | .asBytes h => do return (w, .bytes (← (w.hash h).asBytes))
  | .toHex h => do return (w, .hex (← (w.hash h).toHex))
  | .debugHash h => do return (w, .hex (← (w.hash h).debug))
  | .eqHash a b => do return (w, .bool (← (w.hash a).eqHash (w.hash b)))
  | .eqSlice h b => do return (w, .bool (← (w.hash h).eqSlice b))
  | .blake2sp input h => do
    let d ← Blake2s.blake2sp E input
    return ({ w with hash := Blake2s.assign w.hash h d }, .unit)
  | .spNewParams p => pure ({ w with spParams := Blake2s.assign w.spParams p Sp.Params.new }, .unit)
  | .spCloneParams dst src =>
    pure ({ w with spParams := Blake2s.assign w.spParams dst (w.spParams src) }, .unit)
  | .spSet p c => do
    let x ← (w.spParams p).set c
    return ({ w with spParams := Blake2s.assign w.spParams p x }, .unit)
  | .spDebugParams p => pure (w, .text (w.spParams p).debug.toList)
  | .spNewState s => do
    let x ← Sp.State.new E
    return ({ w with spState := Blake2s.assign w.spState s x }, .unit)
  | .spToState s p => do
    let x ← (w.spParams p).toState E
    return ({ w with spState := Blake2s.assign w.spState s x }, .unit)
  | .spUpdate s input => do
    let x ← (w.spState s).update E input
    return ({ w with spState := Blake2s.assign w.spState s x }, .unit)
  | .spWrite s input => do
    let (x, n) ← (w.spState s).write E input
    return ({ w with spState := Blake2s.assign w.spState s x }, .length n)
  | .spFlush s => pure ({ w with spState := Blake2s.assign w.spState s (w.spState s).flush }, .unit)
  | .spFinalize s h => do
    let (x, d) ← (w.spState s).finalize E
    return ({ w with spState := Blake2s.assign w.spState s x, hash := Blake2s.assign w.hash h d }, .unit)
  | .spCount s => do return (w, .count (← (w.spState s).getCount E))
  | .spDebugState s => do return (w, .text (← (w.spState s).debug E).toList)
  | .spForcePortable s =>
    pure ({ w with spState := Blake2s.assign w.spState s (w.spState s).forcePortable }, .unit)

/-- Running a program: all outputs, and the variables at the end; or the panic. -/
def World.run (E : Env) (w : World) : List Call → R (World × List Out)
  | [] => pure (w, [])
  | c :: cs => do
    let (w, o) ← w.call E c
    let (w, os) ← w.run E cs
    return (w, o :: os)

/-- All byte slices passed to a call. -/
def Call.slices : Call → List (List U8)
  | .set _ (.key b) | .set _ (.salt b) | .set _ (.personal b) => [b]
  | .update _ b | .write _ b | .blake2s b _ => [b]
  | .update8 _ b => b.toList
  | .hash4Exact _ b _ => b.toList
  | .hash8Exact _ b _ => b.toList
  | .hash8 _ b _ => b.toList
  | .eqSlice _ b | .blake2sp b _ | .spSet _ (.key b) | .spUpdate _ b | .spWrite _ b => [b]
  | _ => []

/-- What the Rust language guarantees of every call: eight `&mut` arguments are eight different
variables, and no slice is longer than `isize::MAX` bytes. -/
def Call.Legal (c : Call) : Prop :=
  (∀ b ∈ c.slices, b.length < 2 ^ 63) ∧
  match c with
  | .update8 s _ => s.toList.Nodup
  | .finalize8 s _ => s.toList.Nodup
  | _ => True

/-- A program run from the start: its outputs, or the panic. -/
def program (E : Env) (calls : List Call) : R (List Out) := do
  let w ← World.init E
  let (_, os) ← w.run E calls
  return os

/-! ## Vocabulary for comparing programs -/

/-- A setter call with `f` applied to its bytes. -/
def Setter.mapBytes (f : List U8 → List U8) : Setter → Setter
  | .key b => .key (f b)
  | .salt b => .salt (f b)
  | .personal b => .personal (f b)
  | c => c

/-- A setter call with `f` applied to its bytes. -/
def Sp.Setter.mapBytes (f : List U8 → List U8) : Sp.Setter → Sp.Setter
  | .key b => .key (f b)
  | c => c

/-- A call with `f` applied to every byte string passed: messages, keys, salts, personalisations. -/
def Call.mapBytes (f : List U8 → List U8) : Call → Call
  | .set p c => .set p (c.mapBytes f)
  | .update s b => .update s (f b)
  | .write s b => .write s (f b)
  | .blake2s b h => .blake2s (f b) h
  | .update8 s b => .update8 s (b.map f)
  | .hash4Exact p b h => .hash4Exact p (b.map f) h
  | .hash8Exact p b h => .hash8Exact p (b.map f) h
  | .hash8 p b h => .hash8 p (b.map f) h
  | .eqSlice h b => .eqSlice h (f b)
  | .blake2sp b h => .blake2sp (f b) h
  | .spSet p c => .spSet p (c.mapBytes f)
  | .spUpdate s b => .spUpdate s (f b)
  | .spWrite s b => .spWrite s (f b)
  | c => c

/-- The call with zeros for all bytes passed. Two calls have the same shape if they differ only in the
values of such bytes (not in lengths or other arguments). -/
def Call.shape : Call → Call := Call.mapBytes fun b => List.replicate b.length 0

/-- The call without forcing the portable implementation: `force_portable` becomes `flush`, which
changes nothing. -/
def Call.unforced : Call → Call
  | .forcePortable s => .flush s
  | .spForcePortable s => .spFlush s
  | c => c

/-- The part of an output that may not depend on the bytes of messages and keys: everything (counts,
numbers of bytes written, debug texts) except that of digests only the length counts, and results of
comparing digests do not count. -/
def Out.visible : Out → Out
  | .bytes b => .length b.length
  | .hex t => .length t.length
  | .bool _ => .unit
  | o => o

/-- Whether the call prints a digest in hexadecimal: `Hash::to_hex`, or `Debug` of `Hash`. -/
def Call.printsHex : Call → Bool
  | .toHex _ => true
  | .debugHash _ => true
  | _ => false

/-- The digest in hexadecimal that an output consists of, if it is one. -/
def Out.hexText : Out → Option (List Char)
  | .hex t => some t
  | _ => none

/-- Which `Params` variables have a key after the call. -/
def Call.keyed (k : Nat → Bool) : Call → Nat → Bool
  | .newParams p => assign k p false
  | .cloneParams dst src => assign k dst (k src)
  | .set p (.key b) => assign k p !b.isEmpty
  | _ => k

/-- Whether `default_compress_impl` picks the vector code (src/lib.rs:1024-1058). -/
def Env.usesAvx2 (E : Env) : Bool := E.x86 && E.std && E.avx2

/-- The program never passes `Params` with a key to `hash4_exact` or `hash8_exact`; `k` tells which
`Params` variables have a key at the start. -/
def NoKeyedExact (k : Nat → Bool) : List Call → Prop
  | [] => True
  | c :: cs =>
    (match c with
      | .hash4Exact p _ _ => k p = false
      | .hash8Exact p _ _ => k p = false
      | _ => True) ∧ NoKeyedExact (c.keyed k) cs

end Blake2s
