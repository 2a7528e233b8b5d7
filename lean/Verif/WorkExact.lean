import Verif.Work
import Verif.Exact
/-!
# The work of a program

How many blocks each call compresses, as a function of what the exact machine (Verif/Exact.lean) remembers: the
bytes that have been fed to each state, the keys and, for BLAKE2sp, the rows passed on.
-/

namespace Blake2s.Exact

open Abstract (AState)

/-- `update`: the blocks that become known not to be the last. -/
def updateWork (s : AState) (input : List U8) : Nat := blocksFor (s.counted + input.length) - blocksFor s.counted

/-- `hash4_exact` and `hash8_exact`, for each input: the key block is left out where the vector code is in use. -/
def exactWork (b : Build) (v : View) (len : Nat) : Nat :=
  if b.vector then blocksFor len else blocksFor ((Spec.keyBlock v.key).length + len)

/-- `blake2sp` `update`: eight blocks for each row passed on. -/
def SpState.updateWork (s : SpState) (input : List U8) : Nat := 8 * (s.rowsWith input - s.rows)

/-- `blake2sp` `finalize`: the blocks that the leaves have yet to compress, and four at the root. -/
def SpState.finalizeWork (s : SpState) : Nat :=
  ((List.range 8).map fun i => blocksFor ((Spec.keyBlock s.key).length +
    (Spec.Sp.leafInput i (s.fed.drop (512 * s.rows))).length)).sum + 4

/-- The number of blocks compressed by one call (if it returns). The functions that are not listed compress
nothing. -/
def XWorld.work (b : Build) (w : XWorld) : Call → Nat
  | .update s input => updateWork (w.state s) input
  | .write s input => updateWork (w.state s) input
  | .finalize _ _ => 1
  | .blake2s input _ => blocksFor input.length
  | .update8 s input => ((List.finRange 8).map fun i => updateWork (w.state s[i]) input[i]).sum
  | .finalize8 _ _ => 8
  | .hash4Exact p input _ => 4 * exactWork b (w.params p) input[0].length
  | .hash8Exact p input _ => 8 * exactWork b (w.params p) input[0].length
  | .hash8 _ input _ => ((List.finRange 8).map fun i => blocksFor input[i].length).sum
  | .blake2sp input _ => ((List.range 8).map fun i => blocksFor (Spec.Sp.leafInput i input).length).sum + 4
  | .spUpdate s input => (w.spState s).updateWork input
  | .spWrite s input => (w.spState s).updateWork input
  | .spFinalize s _ => (w.spState s).finalizeWork
  | _ => 0

/-- The number of blocks compressed by the calls of a program, or the panic that ends it. -/
def XWorld.workAll (b : Build) (w : XWorld) : List Call → R Nat
  | [] => .ok 0
  | c :: cs => do
    let (w', _) ← w.call b c
    return w.work b c + (← w'.workAll b cs)

/-- The number of blocks that a program compresses. -/
def work (b : Build) (calls : List Call) : R Nat := XWorld.init.workAll b calls

end Blake2s.Exact
