import Verif.Vocab

/-!
The parts of Rust's standard library through which callers use `impl Write for State` (src/lib.rs:440-449 and
src/blake2sp.rs:405-414, and src/test.rs:196 `write_all`): the provided methods of `std::io::Write`, `std::io::copy` and
`std::io::BufWriter`. They are not in /repo; they are written here after the documentation and source of the standard library, for
an arbitrary `write` that may take only part of what it is given. Writers that return errors are left out, since `write` and
`flush` of both `State`s always return `Ok`.
-/

namespace Blake2s.Io

/-- A `write`: given the writer and the bytes, it returns the new writer and how many of the bytes it took. -/
abbrev WriteFn (σ : Type) := σ → List U8 → R (σ × Nat)

/-- The errors that can come out: `ErrorKind::WriteZero`, or an error of the reader of `copy`. -/
inductive Err where
  | writeZero
  | reader (code : Nat)
deriving DecidableEq

/-- `Write::write_all`: call `write` until everything is taken; `WriteZero` if nothing is taken. A writer that claims to have taken
more than it was given makes the slice `&buf[n..]` panic. -/
def writeAll {σ : Type} (w : WriteFn σ) (s : σ) (buf : List U8) : R (σ × Option Err) :=
  if _hb : buf = [] then .ok (s, none)
  else match w s buf with
    | .error e => .error e
    | .ok (s, n) =>
      if _hn : n = 0 then .ok (s, some .writeZero)
      else if buf.length < n then .error .indexOutOfRange
      else writeAll w s (buf.drop n)
termination_by buf.length
decreasing_by
  have : 0 < buf.length := List.length_pos_iff.2 _hb
  simp only [List.length_drop]; omega

/-- `Write::write_fmt` (the macros `write!` and `writeln!`): the pieces of the text one after the other with `write_all`, up to the
first error. -/
def writeFmt {σ : Type} (w : WriteFn σ) (s : σ) : List (List U8) → R (σ × Option Err)
  | [] => .ok (s, none)
  | b :: bs => match writeAll w s b with
    | .error e => .error e
    | .ok (s, some e) => .ok (s, some e)
    | .ok (s, none) => writeFmt w s bs

/-- `Write::write_vectored` where it is not overridden: `write` of the first buffer that is not empty. -/
def writeVectored {σ : Type} (w : WriteFn σ) (s : σ) (bufs : List (List U8)) : R (σ × Nat) :=
  w s ((bufs.find? fun b => !b.isEmpty).getD [])

/-- One result of `Read::read`: some bytes (none at the end of the file), `ErrorKind::Interrupted`, or another error. -/
inductive Read where
  | bytes (b : List U8)
  | interrupted
  | fail (code : Nat)
deriving DecidableEq

/-- `std::io::copy`: read and `write_all` until the end of the file, trying again when interrupted; the number of bytes copied, or
the first error. A reader is the list of what its `read` returns; after the end of the list it is at the end of the file. -/
def copy {σ : Type} (w : WriteFn σ) (s : σ) (total : Nat) : List Read → R (σ × Except Err Nat)
  | [] => .ok (s, .ok total)
  | .interrupted :: r => copy w s total r
  | .fail c :: _ => .ok (s, .error (.reader c))
  | .bytes b :: r =>
    if b = [] then .ok (s, .ok total)
    else match writeAll w s b with
      | .error e => .error e
      | .ok (s, some e) => .ok (s, .error e)
      | .ok (s, none) => copy w s (total + b.length) r

/-- `std::io::BufWriter` with capacity `cap`. -/
structure BufWriter (σ : Type) where
  inner : σ
  buf : List U8
  cap : Nat

namespace BufWriter

/-- `BufWriter::with_capacity`. -/
def new {σ : Type} (cap : Nat) (s : σ) : BufWriter σ := ⟨s, [], cap⟩

/-- `BufWriter::flush_buf`: hand the buffer to the inner `write` until it is empty; this is also `BufWriter::flush` (followed by the
inner `flush`), what `into_inner` begins with, and what dropping does. -/
def flushBuf {σ : Type} (w : WriteFn σ) (b : BufWriter σ) : R (BufWriter σ × Option Err) :=
  if _hb : b.buf = [] then .ok (b, none)
  else match w b.inner b.buf with
    | .error e => .error e
    | .ok (s, n) =>
      if _hn : n = 0 then .ok (⟨s, b.buf, b.cap⟩, some .writeZero)
      else if b.buf.length < n then .error .indexOutOfRange
      else flushBuf w ⟨s, b.buf.drop n, b.cap⟩
termination_by b.buf.length
decreasing_by
  have : 0 < b.buf.length := List.length_pos_iff.2 _hb
  simp only [List.length_drop]; omega

/-- `BufWriter::write`: bytes that fit go to the buffer; otherwise the buffer is flushed, and bytes that would not fit into an empty
buffer go to the inner `write`. -/
def write {σ : Type} (w : WriteFn σ) (b : BufWriter σ) (input : List U8) : R (BufWriter σ × Except Err Nat) :=
  if input.length < b.cap - b.buf.length then .ok (⟨b.inner, b.buf ++ input, b.cap⟩, .ok input.length)
  else match (if b.cap - b.buf.length < input.length then flushBuf w b else .ok (b, none)) with
    | .error e => .error e
    | .ok (b, some e) => .ok (b, .error e)
    | .ok (b, none) =>
      if b.cap ≤ input.length then match w b.inner input with
        | .error e => .error e
        | .ok (s, n) => .ok (⟨s, b.buf, b.cap⟩, .ok n)
      else .ok (⟨b.inner, b.buf ++ input, b.cap⟩, .ok input.length)

/-- `BufWriter::write_all`: like `write`, with the inner `write_all`. -/
def writeAll {σ : Type} (w : WriteFn σ) (b : BufWriter σ) (input : List U8) : R (BufWriter σ × Option Err) :=
  if input.length < b.cap - b.buf.length then .ok (⟨b.inner, b.buf ++ input, b.cap⟩, none)
  else match (if b.cap - b.buf.length < input.length then flushBuf w b else .ok (b, none)) with
    | .error e => .error e
    | .ok (b, some e) => .ok (b, some e)
    | .ok (b, none) =>
      if b.cap ≤ input.length then match Io.writeAll w b.inner input with
        | .error e => .error e
        | .ok (s, e) => .ok (⟨s, b.buf, b.cap⟩, e)
      else .ok (⟨b.inner, b.buf ++ input, b.cap⟩, none)

/-- One call on a `BufWriter`. -/
inductive Call where
  | write (b : List U8)
  | writeAll (b : List U8)
  | flush
deriving DecidableEq

/-- A sequence of calls. Each `write` is expected to take everything: `none` says that some call returned an error or, for `write`,
took less than it was given; then the rest is not run. -/
def run {σ : Type} (w : WriteFn σ) (b : BufWriter σ) : List Call → R (Option (BufWriter σ))
  | [] => .ok (some b)
  | .write x :: cs => match b.write w x with
    | .error e => .error e
    | .ok (b, .ok n) => if n = x.length then run w b cs else .ok none
    | .ok (_, .error _) => .ok none
  | .writeAll x :: cs => match b.writeAll w x with
    | .error e => .error e
    | .ok (b, none) => run w b cs
    | .ok (_, some _) => .ok none
  | .flush :: cs => match b.flushBuf w with
    | .error e => .error e
    | .ok (b, none) => run w b cs
    | .ok (_, some _) => .ok none

end BufWriter

/-! What these should do, for a writer that only collects bytes. -/

/-- The pieces that a reader delivers before the end of the file or an error. -/
def delivered : List Read → List (List U8)
  | .interrupted :: r => delivered r
  | .bytes (x :: xs) :: r => (x :: xs) :: delivered r
  | _ => []

/-- The first error of a reader, if it comes before the end of the file. -/
def failure : List Read → Option Nat
  | .interrupted :: r => failure r
  | .bytes (_ :: _) :: r => failure r
  | .fail c :: _ => some c
  | _ => none

/-- The bytes given to a `BufWriter`. -/
def given : List BufWriter.Call → List U8
  | [] => []
  | .write b :: cs => b ++ given cs
  | .writeAll b :: cs => b ++ given cs
  | .flush :: cs => given cs

end Blake2s.Io

namespace Blake2s

/-- `finalize` gives the hash of `msg`. -/
def Yields (E : Env) (p : Params) (lastNode : Bool) (msg : List U8) (s : State) : Prop :=
  ∃ s' d, s.finalize E = .ok (s', d) ∧ d.asBytes = .ok (Spec.hash p.values p.keyBytes lastNode msg)

/-- Likewise for BLAKE2sp. -/
def Sp.Yields (E : Env) (p : Sp.Params) (msg : List U8) (s : Sp.State) : Prop :=
  ∃ s' d, s.finalize E = .ok (s', d) ∧ d.asBytes = .ok (Spec.Sp.hash p.hashLength p.keyBytes msg)

end Blake2s
