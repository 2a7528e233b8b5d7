import Verif.Exact
/-!
# The exact machine for programs that catch panics (C44)

A program wraps every call in `catch_unwind` and goes on after a panic. `Verif/Exact.lean` says which calls
panic; here is said what the variables are after a panic:

* a keyed `blake2sp::State` whose `update` fails its debug assertion has silently taken what its buffer of
  1024 bytes could hold, unless the buffer was empty: then it is unchanged;
* every other panic leaves all variables unchanged, except that
* nothing is said after an `update`, `write` or `update8` has panicked because a byte counter overflowed
  (2^64 bytes): there the machine stops.
-/

namespace Blake2s.Exact

/-- A keyed `blake2sp::State` after the debug assertion of `update` has failed. -/
def SpState.interrupted (s : SpState) (input : List U8) : SpState :=
  if s.fed = [] then s else { s with fed := (s.fed ++ input).take 1024 }

/-- The variables after the call has panicked with `f`; `none`: not described. -/
def XWorld.after (w : XWorld) (f : Fault) : Call → Option XWorld
  | .update .. => none
  | .write .. => none
  | .update8 .. => none
  | .spUpdate s input =>
    if f = .debugAssertFailed then
      some { w with spState := assign w.spState s ((w.spState s).interrupted input) }
    else none
  | .spWrite s input =>
    if f = .debugAssertFailed then
      some { w with spState := assign w.spState s ((w.spState s).interrupted input) }
    else none
  | _ => some w

/-- Running a program that catches every panic: what each call returns, or its panic, up to the end or to
the first panic after which the variables are not described. -/
def XWorld.runCaught (b : Build) (w : XWorld) : List Call → List (R Out)
  | [] => []
  | c :: cs =>
    match w.call b c with
    | .ok (w', o) => .ok o :: w'.runCaught b cs
    | .error f =>
      .error f ::
        match w.after f c with
        | some w' => w'.runCaught b cs
        | none => []

/-- A program that catches every panic, run from the start. -/
def caught (b : Build) (calls : List Call) : List (R Out) := XWorld.init.runCaught b calls

end Blake2s.Exact
