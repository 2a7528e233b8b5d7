import Verif.Machine
/-!
# The life of each object (C33)

For a program with many objects, the calls that made one particular object what it is: the setter calls
behind its parameters and the calls on the object itself, where a clone inherits the life of the
original, and an eight-way function counts as eight single calls. Lives are computed from the text of
the program alone.
-/

namespace Blake2s

/-- The life of a `State`: the setter calls on its `Params`, then the calls on the `State`. -/
structure Life where
  setters : List Setter
  ops : List Op

/-- The life of a `blake2sp::State`. -/
structure SpLife where
  setters : List Sp.Setter
  ops : List Sp.Op

/-- Where a `Hash` came from: from finalizing a state with the given life, or from one input of
`hash4_exact` / `hash8_exact`. -/
inductive HashLife where
  | finalized (l : Life)
  | spFinalized (l : SpLife)
  | exact4 (setters : List Setter) (input : List U8)
  | exact8 (setters : List Setter) (input : List U8)

/-- The lives of all variables. -/
structure Lives where
  params : Nat → List Setter
  state : Nat → Life
  hash : Nat → HashLife
  spParams : Nat → List Sp.Setter
  spState : Nat → SpLife

/-- One more call in the life of a `State`. -/
def Life.then (l : Life) (op : Op) : Life := ⟨l.setters, l.ops ++ [op]⟩

/-- One more call in the life of a `blake2sp::State`. -/
def SpLife.then (l : SpLife) (op : Sp.Op) : SpLife := ⟨l.setters, l.ops ++ [op]⟩

/-- The variables at the start. -/
def Lives.init : Lives where
  params := fun _ => []
  state := fun _ => ⟨[], []⟩
  hash := fun _ => .finalized ⟨[], [.update []]⟩
  spParams := fun _ => []
  spState := fun _ => ⟨[], []⟩

/-- A call on one `State`. -/
def Lives.op (l : Lives) (s : Nat) (o : Op) : Lives :=
  { l with state := assign l.state s ((l.state s).then o) }

/-- A call on one `blake2sp::State`. -/
def Lives.spOp (l : Lives) (s : Nat) (o : Sp.Op) : Lives :=
  { l with spState := assign l.spState s ((l.spState s).then o) }

/-- Eight calls, on eight `State`s. -/
def Lives.op8 (l : Lives) (s : Vector Nat 8) (o : Fin 8 → Op) : Lives :=
  { l with state := assignAll l.state s (Vector.ofFn fun i : Fin 8 => (l.state s[i]).then (o i)) }

/-- Several new hashes. -/
def Lives.hashes {n : Nat} (l : Lives) (h : Vector Nat n) (x : Fin n → HashLife) : Lives :=
  { l with hash := assignAll l.hash h (Vector.ofFn x) }

/-- How a call continues the lives. -/
def Lives.call (l : Lives) : Call → Lives
  | .newParams p => { l with params := assign l.params p [] }
  | .cloneParams dst src => { l with params := assign l.params dst (l.params src) }
  | .set p c => { l with params := assign l.params p (l.params p ++ [c]) }
  | .newState s => { l with state := assign l.state s ⟨[], []⟩ }
  | .toState s p => { l with state := assign l.state s ⟨l.params p, []⟩ }
  | .cloneState dst src => { l with state := assign l.state dst (l.state src) }
  | .update s input => l.op s (.update input)
  | .write s input => l.op s (.write input)
  | .flush s => l.op s .flush
  | .setLastNode s b => l.op s (.setLastNode b)
  | .finalize s h =>
    { l.op s .finalize with hash := assign l.hash h (.finalized (l.state s)) }
  | .forcePortable s => l.op s .forcePortable
  | .blake2s input h => { l with hash := assign l.hash h (.finalized ⟨[], [.update input]⟩) }
  | .update8 s input => l.op8 s fun i => .update input[i]
  | .finalize8 s h => (l.op8 s fun _ => .finalize).hashes h fun i => .finalized (l.state s[i])
  | .hash4Exact p input h => l.hashes h fun i => .exact4 (l.params p) input[i]
  | .hash8Exact p input h => l.hashes h fun i => .exact8 (l.params p) input[i]
  | .hash8 p input h => l.hashes h fun i => .finalized ⟨l.params p[i], [.update input[i]]⟩
  | .cloneHash dst src => { l with hash := assign l.hash dst (l.hash src) }
  | .blake2sp input h => { l with hash := assign l.hash h (.spFinalized ⟨[], [.update input]⟩) }
  | .spNewParams p => { l with spParams := assign l.spParams p [] }
  | .spCloneParams dst src => { l with spParams := assign l.spParams dst (l.spParams src) }
  | .spSet p c => { l with spParams := assign l.spParams p (l.spParams p ++ [c]) }
  | .spNewState s => { l with spState := assign l.spState s ⟨[], []⟩ }
  | .spToState s p => { l with spState := assign l.spState s ⟨l.spParams p, []⟩ }
  | .spUpdate s input => l.spOp s (.update input)
  | .spWrite s input => l.spOp s (.write input)
  | .spFlush s => l.spOp s .flush
  | .spFinalize s h =>
    { l.spOp s .finalize with hash := assign l.hash h (.spFinalized (l.spState s)) }
  | .spForcePortable s => l.spOp s .forcePortable
  | .count _ | .debugState _ | .asBytes _ | .toHex _ | .debugHash _ | .eqHash _ _ | .eqSlice _ _
  | .spDebugParams _ | .spCount _ | .spDebugState _ => l

/-- The lives of all variables after a program. -/
def lives (calls : List Call) : Lives := calls.foldl Lives.call Lives.init

/-- `t` is what a `State` that lives this life, alone, becomes. -/
def Life.Alone (E : Env) (l : Life) (t : State) : Prop :=
  ∃ p, Params.new.setAll l.setters = .ok p ∧ Reaches E p l.ops t

/-- `t` is what a `blake2sp::State` that lives this life, alone, becomes. -/
def SpLife.Alone (E : Env) (l : SpLife) (t : Sp.State) : Prop :=
  ∃ p, Sp.Params.new.setAll l.setters = .ok p ∧ Sp.Reaches E p l.ops t

/-- `h` is what a `Hash` that was made this way, with nothing else around, is. For the functions on
several inputs, the other inputs are replaced by copies of this one. -/
def HashLife.Alone (E : Env) (h : Hash) : HashLife → Prop
  | .finalized l => ∃ t t', l.Alone E t ∧ t.finalize E = .ok (t', h)
  | .spFinalized l => ∃ t t', l.Alone E t ∧ t.finalize E = .ok (t', h)
  | .exact4 cs input => ∃ p hs, Params.new.setAll cs = .ok p ∧
      hash4Exact E p (Vector.replicate 4 input) = .ok hs ∧ ∀ i : Fin 4, hs[i] = h
  | .exact8 cs input => ∃ p hs, Params.new.setAll cs = .ok p ∧
      hash8Exact E p (Vector.replicate 8 input) = .ok hs ∧ ∀ i : Fin 8, hs[i] = h

end Blake2s
