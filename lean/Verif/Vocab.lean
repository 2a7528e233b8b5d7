import Verif.Spec
import Verif.Model.State
import Verif.Model.Many
import Verif.Model.Blake2sp
/-!
# Vocabulary of the property statements

Small definitions used to *state* properties: which parameter sets a caller can build, what values they
carry, and histories of calls on one `State` together with the digests the specification assigns to
them. No proofs here.
-/

namespace Blake2s

deriving instance DecidableEq for Except

/-- The parameter values held by a `Params`, field by field. The node offset has 48 bits. -/
def Params.values (p : Params) : Spec.Params where
  digestLength := p.hashLength
  keyLength := p.keyLength
  fanout := p.fanout
  maxDepth := p.maxDepth
  leafLength := p.maxLeafLength
  nodeOffset := p.nodeOffset.setWidth 48
  nodeDepth := p.nodeDepth
  innerLength := p.innerHashLength
  salt := p.salt
  personal := p.personal

/-- The key bytes held by a `Params`. -/
def Params.keyBytes (p : Params) : List U8 := p.key.toList.take p.keyLength.toNat

/-- One call of a `Params` setter. -/
inductive Setter where
  | hashLength (n : Nat)
  | key (k : List U8)
  | salt (s : List U8)
  | personal (s : List U8)
  | fanout (n : U8)
  | maxDepth (n : U8)
  | maxLeafLength (n : U32)
  | nodeOffset (n : U64)
  | nodeDepth (n : U8)
  | innerHashLength (n : Nat)
  | lastNode (b : Bool)
deriving DecidableEq

/-- The documented range of each setter argument. -/
def Setter.InRange : Setter → Prop
  | .hashLength n => 1 ≤ n ∧ n ≤ 32
  | .key k => k.length ≤ 32
  | .salt s => s.length ≤ 8
  | .personal s => s.length ≤ 8
  | .maxDepth n => n ≠ 0
  | .nodeOffset n => n.toNat < 2 ^ 48
  | .innerHashLength n => n ≤ 32
  | .fanout _ | .maxLeafLength _ | .nodeDepth _ | .lastNode _ => True

instance (c : Setter) : Decidable c.InRange := by
  cases c <;> unfold Setter.InRange <;> infer_instance

/-- Running one setter call. -/
def Params.set (p : Params) : Setter → R Params
  | .hashLength n => p.setHashLength n
  | .key k => p.setKey k
  | .salt s => p.setSalt s
  | .personal s => p.setPersonal s
  | .fanout n => pure (p.setFanout n)
  | .maxDepth n => p.setMaxDepth n
  | .maxLeafLength n => pure (p.setMaxLeafLength n)
  | .nodeOffset n => p.setNodeOffset n
  | .nodeDepth n => pure (p.setNodeDepth n)
  | .innerHashLength n => p.setInnerHashLength n
  | .lastNode b => pure (p.setLastNode b)

/-- Running a list of setter calls. -/
def Params.setAll (p : Params) : List Setter → R Params
  | [] => pure p
  | c :: cs => do (← p.set c).setAll cs

/-- A parameter set that some sequence of setter calls produces from `Params::new()` without
panicking. -/
def Params.Accepted (p : Params) : Prop := ∃ calls, Params.new.setAll calls = .ok p

/-- What a caller sees of a `Params`: the parameter values, the key and the last-node flag. -/
structure View where
  values : Spec.Params
  key : List U8
  lastNode : Bool

/-- The view of a `Params`. -/
def Params.view (p : Params) : View := ⟨p.values, p.keyBytes, p.lastNode⟩

/-- `b` followed by zeros, eight bytes in all. -/
def zeroPadded8 (b : List U8) : Vector U8 8 := Vector.ofFn fun i : Fin 8 => b.getD i.val 0

/-- The effect a setter call should have: it replaces its own parameter and nothing else. -/
def Setter.effect (v : View) : Setter → View
  | .hashLength n => { v with values.digestLength := BitVec.ofNat 8 n }
  | .key k => { v with values.keyLength := BitVec.ofNat 8 k.length, key := k }
  | .salt s => { v with values.salt := zeroPadded8 s }
  | .personal s => { v with values.personal := zeroPadded8 s }
  | .fanout n => { v with values.fanout := n }
  | .maxDepth n => { v with values.maxDepth := n }
  | .maxLeafLength n => { v with values.leafLength := n }
  | .nodeOffset n => { v with values.nodeOffset := BitVec.ofNat 48 n.toNat }
  | .nodeDepth n => { v with values.nodeDepth := n }
  | .innerHashLength n => { v with values.innerLength := BitVec.ofNat 8 n }
  | .lastNode b => { v with lastNode := b }

/-- Which parameter a setter call sets. -/
def Setter.kind : Setter → Fin 11
  | .hashLength _ => 0
  | .key _ => 1
  | .salt _ => 2
  | .personal _ => 3
  | .fanout _ => 4
  | .maxDepth _ => 5
  | .maxLeafLength _ => 6
  | .nodeOffset _ => 7
  | .nodeDepth _ => 8
  | .innerHashLength _ => 9
  | .lastNode _ => 10

/-- One call on a `State`. `forcePortable` is `benchmarks::force_portable`. -/
inductive Op where
  | update (input : List U8)
  | write (input : List U8)
  | flush
  | finalize
  | setLastNode (b : Bool)
  | forcePortable
deriving DecidableEq

/-- Running a history of calls on one `State`; the digests returned by the `finalize` calls are
collected in order. -/
def State.run (E : Env) (s : State) : List Op → R (State × List Hash)
  | [] => pure (s, [])
  | .update input :: ops => do (← s.update E input).run E ops
  | .write input :: ops => do (← s.write E input).1.run E ops
  | .flush :: ops => s.flush.run E ops
  | .finalize :: ops => do
    let (s, h) ← s.finalize E
    let (s, hs) ← s.run E ops
    return (s, h :: hs)
  | .setLastNode b :: ops => (s.setLastNode b).run E ops
  | .forcePortable :: ops => s.forcePortable.run E ops

/-- The bytes a history feeds. -/
def fed : List Op → List U8
  | [] => []
  | .update input :: ops => input ++ fed ops
  | .write input :: ops => input ++ fed ops
  | _ :: ops => fed ops

/-- The last-node flag after a history that starts with flag `ln`. -/
def lastFlag (ln : Bool) : List Op → Bool
  | [] => ln
  | .setLastNode b :: ops => lastFlag b ops
  | _ :: ops => lastFlag ln ops

/-- The digests that the specification assigns to the `finalize` calls of a history, for a state that
has been fed `done` and whose last-node flag is `ln`: each one is the hash of exactly the bytes fed
before it, with the flag as last set. -/
def digests (p : Spec.Params) (key : List U8) (ln : Bool) (done : List U8) :
    List Op → List (List U8)
  | [] => []
  | .update input :: ops => digests p key ln (done ++ input) ops
  | .write input :: ops => digests p key ln (done ++ input) ops
  | .flush :: ops => digests p key ln done ops
  | .finalize :: ops => Spec.hash p key ln done :: digests p key ln done ops
  | .setLastNode b :: ops => digests p key b done ops
  | .forcePortable :: ops => digests p key ln done ops

/-- `n` bytes can be fed to a state made from `p` without a panic: with overflow checks on, the 64-bit
byte counter, which also counts the key block, must not wrap. Without overflow checks there is no
bound. -/
def Fits (E : Env) (p : Params) (n : Nat) : Prop :=
  E.overflowChecks = true → (if p.keyLength = 0 then 0 else 64) + n < 2 ^ 64

/-- `s` is the state that the history `ops` leads to from parameters `p`. -/
def Reaches (E : Env) (p : Params) (ops : List Op) (s : State) : Prop :=
  ∃ s0 hs, p.toState E = .ok s0 ∧ s0.run E ops = .ok (s, hs)

/-- Everything a caller can observe of running a history: the final count and debug text, and all
hashes, or the panic. -/
def seen (r : R (State × List Hash)) : R (U64 × String × List Hash) :=
  r.map fun x => (x.1.getCount, x.1.debug, x.2)

/-- One call on eight `State`s: a call on one of them, or a batch call on all. -/
inductive Op8 where
  | one (i : Fin 8) (op : Op)
  | update8 (input : Vector (List U8) 8)
  | finalize8

/-- Running calls on eight `State`s; the digests are collected in order. -/
def run8 (E : Env) (st : Vector State 8) : List Op8 → R (Vector State 8 × List Hash)
  | [] => pure (st, [])
  | .one i op :: ops => do
    let (s, hs) ← st[i].run E [op]
    let (st, ht) ← run8 E (st.set i s) ops
    return (st, hs ++ ht)
  | .update8 input :: ops => do run8 E (← update8 E st input) ops
  | .finalize8 :: ops => do
    let (st, hs) ← finalize8 E st
    let (st, ht) ← run8 E st ops
    return (st, hs.toList ++ ht)

/-- Everything a caller can observe of running calls on eight `State`s. -/
def seen8 (r : R (Vector State 8 × List Hash)) : R (Vector U64 8 × Vector String 8 × List Hash) :=
  r.map fun x => (x.1.map State.getCount, x.1.map State.debug, x.2)

/-- The lengths that `hash4_exact` and `hash8_exact` demand: all equal, a multiple of 64, not 0. -/
def ExactLengths {n : Nat} (input : Vector (List U8) n) (len : Nat) : Prop :=
  (∀ i : Fin n, input[i].length = len) ∧ len % 64 = 0 ∧ len ≠ 0

instance {n : Nat} (input : Vector (List U8) n) (len : Nat) : Decidable (ExactLengths input len) := by
  unfold ExactLengths; infer_instance

/-- A lower-case hexadecimal digit: '0' is 48, 'a' is 97. -/
def hexDigit (n : Nat) : Char := if n < 10 then Char.ofNat (48 + n) else Char.ofNat (87 + n)

/-- Two hexadecimal digits per byte, most significant first. -/
def hexOf (b : List U8) : List Char :=
  b.flatMap fun x => [hexDigit (x.toNat / 16), hexDigit (x.toNat % 16)]

/-! ## BLAKE2sp -/

namespace Sp

/-- The key bytes held by a `blake2sp::Params`. -/
def Params.keyBytes (p : Params) : List U8 := p.key.toList.take p.keyLength.toNat

/-- One call of a `blake2sp::Params` setter. -/
inductive Setter where
  | hashLength (n : Nat)
  | key (k : List U8)
deriving DecidableEq

/-- The documented range of each setter argument. -/
def Setter.InRange : Setter → Prop
  | .hashLength n => 1 ≤ n ∧ n ≤ 32
  | .key k => k.length ≤ 32

instance (c : Setter) : Decidable c.InRange := by
  cases c <;> unfold Setter.InRange <;> infer_instance

/-- Running one setter call. -/
def Params.set (p : Params) : Setter → R Params
  | .hashLength n => p.setHashLength n
  | .key k => p.setKey k

/-- Running a list of setter calls. -/
def Params.setAll (p : Params) : List Setter → R Params
  | [] => pure p
  | c :: cs => do (← p.set c).setAll cs

/-- A parameter set that some sequence of setter calls produces from `Params::new()` without
panicking. -/
def Params.Accepted (p : Params) : Prop := ∃ calls, Params.new.setAll calls = .ok p

/-- What a caller sees of a `blake2sp::Params`: the hash length and the key. -/
structure View where
  hashLength : U8
  key : List U8
deriving DecidableEq

/-- The view of a `blake2sp::Params`. -/
def Params.view (p : Params) : View := ⟨p.hashLength, p.keyBytes⟩

/-- The effect a setter call should have. -/
def Setter.effect (v : View) : Setter → View
  | .hashLength n => { v with hashLength := BitVec.ofNat 8 n }
  | .key k => { v with key := k }

/-- One call on a `blake2sp::State`. -/
inductive Op where
  | update (input : List U8)
  | write (input : List U8)
  | flush
  | finalize
  | forcePortable
deriving DecidableEq

/-- Running a history of calls on one `blake2sp::State`; the digests returned by the `finalize` calls
are collected in order. -/
def State.run (E : Env) (s : State) : List Op → R (State × List Hash)
  | [] => pure (s, [])
  | .update input :: ops => do (← s.update E input).run E ops
  | .write input :: ops => do (← s.write E input).1.run E ops
  | .flush :: ops => s.flush.run E ops
  | .finalize :: ops => do
    let (s, h) ← s.finalize E
    let (s, hs) ← s.run E ops
    return (s, h :: hs)
  | .forcePortable :: ops => s.forcePortable.run E ops

/-- The bytes a history feeds. -/
def fed : List Op → List U8
  | [] => []
  | .update input :: ops => input ++ fed ops
  | .write input :: ops => input ++ fed ops
  | _ :: ops => fed ops

/-- The digests that the specification assigns to the `finalize` calls of a history, for a state that
has been fed `done`: each one is the BLAKE2sp hash of exactly the bytes fed before it. -/
def digests (hashLength : U8) (key : List U8) (done : List U8) : List Op → List (List U8)
  | [] => []
  | .update input :: ops => digests hashLength key (done ++ input) ops
  | .write input :: ops => digests hashLength key (done ++ input) ops
  | .finalize :: ops => Spec.Sp.hash hashLength key done :: digests hashLength key done ops
  | .flush :: ops => digests hashLength key done ops
  | .forcePortable :: ops => digests hashLength key done ops

/-- `n` bytes are fewer than 2^64; only needed when overflow checks are on. -/
def Fits (E : Env) (n : Nat) : Prop := E.overflowChecks = true → n < 2 ^ 64

/-- After `done` bytes, the next `n` bytes all go to the buffer: the code starts compressing when more
than 960 bytes come at once into the empty buffer, or more than 1024 are to be held. -/
def Buffered (done n : Nat) : Prop := if done = 0 then n ≤ 960 else done + n ≤ 1024

instance (done n : Nat) : Decidable (Buffered done n) := by unfold Buffered; infer_instance

/-- A history during which everything fed stays in the buffer. -/
def AllBuffered (done : Nat) : List Op → Prop
  | [] => True
  | .update b :: ops => Buffered done b.length ∧ AllBuffered (done + b.length) ops
  | .write b :: ops => Buffered done b.length ∧ AllBuffered (done + b.length) ops
  | _ :: ops => AllBuffered done ops

/-! ### What keyed states really compute

A `blake2sp::State` passes its input on to the leaves in rows of eight blocks, 512 bytes; what does not
make up a row yet, and a little more, is held back. Rows go directly to the compression function of each
leaf, *past* the key block that a keyed leaf has waiting in its own buffer. So a keyed leaf hashes first
the blocks of these rows, then the key block, and then the rest. -/

/-- The number of rows that `update` with `len` bytes passes on when `held` bytes are held back. -/
def rowsTaken (held len : Nat) : Nat :=
  if held ≠ 0 ∧ held + len ≤ 1024 then 0 else (held + len - 449) / 512

/-- The number of rows passed on after a history, for a state that has been fed `done` bytes and has
passed on `rows` rows of them. -/
def rowsAfter (rows done : Nat) : List Op → Nat
  | [] => rows
  | .update b :: ops => rowsAfter (rows + rowsTaken (done - 512 * rows) b.length) (done + b.length) ops
  | .write b :: ops => rowsAfter (rows + rowsTaken (done - 512 * rows) b.length) (done + b.length) ops
  | _ :: ops => rowsAfter rows done ops

/-- The 32 bytes that leaf `i` really computes for a non-empty key: the blocks of the first `rows` rows
are hashed before the key block, with a byte counter that starts at 64; the key block and the rest
follow, with the counter set back by 64. -/
def keyedLeaf (hashLength : U8) (key : List U8) (rows : Nat) (msg : List U8) (i : Fin 8) : List U8 :=
  let first := Spec.Sp.leafInput i (msg.take (512 * rows))
  let rest := Spec.Sp.leafInput i (msg.drop (512 * rows))
  let h := Spec.chain
    (Spec.Sp.nodeParams hashLength (BitVec.ofNat 8 key.length) (BitVec.ofNat 48 i.val) 0).init 64 first rows
  Spec.digestBytes (Spec.absorb h (64 * rows) (Spec.keyBlock key ++ rest) (i.val == 7)) 32

/-- The digest that a state with a non-empty key really returns. -/
def keyedHash (hashLength : U8) (key : List U8) (rows : Nat) (msg : List U8) : List U8 :=
  Spec.digestBytes
    (Spec.absorb (Spec.Sp.nodeParams hashLength (BitVec.ofNat 8 key.length) 0 1).init 0
      ((List.finRange 8).flatMap (keyedLeaf hashLength key rows msg)) true) hashLength.toNat

/-- The digests that the `finalize` calls of a history on a state with a non-empty key really return. -/
def keyedDigests (hashLength : U8) (key : List U8) (rows : Nat) (done : List U8) :
    List Op → List (List U8)
  | [] => []
  | .update b :: ops => keyedDigests hashLength key
      (rows + rowsTaken (done.length - 512 * rows) b.length) (done ++ b) ops
  | .write b :: ops => keyedDigests hashLength key
      (rows + rowsTaken (done.length - 512 * rows) b.length) (done ++ b) ops
  | .finalize :: ops => keyedHash hashLength key rows done :: keyedDigests hashLength key rows done ops
  | .flush :: ops => keyedDigests hashLength key rows done ops
  | .forcePortable :: ops => keyedDigests hashLength key rows done ops

/-- `s` is the state that the history `ops` leads to from parameters `p`. -/
def Reaches (E : Env) (p : Params) (ops : List Op) (s : State) : Prop :=
  ∃ s0 hs, p.toState E = .ok s0 ∧ s0.run E ops = .ok (s, hs)

/-- What a caller sees of running a history: the final count and all hashes, or the panic. -/
def seen (E : Env) (r : R (State × List Hash)) : R (U64 × List Hash) := do
  let x ← r
  return (← x.1.getCount E, x.2)

end Sp

end Blake2s
