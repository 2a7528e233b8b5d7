import Verif.Model.Tests
/-!
# Model of tests/vector_tests.rs

The two tests that go through the official vectors. The test cases, which the code reads from
tests/blake2-kat.json with serde, are an argument.
-/

namespace Blake2s.Tests

/-- tests/vector_tests.rs:22-29 `TestCase`; its strings are lists of characters. -/
structure TestCase where
  hash : List Char
  in_ : List Char
  key : List Char
  out : List Char

/-- The value of a hexadecimal digit in `hex::decode`, which tests/vector_tests.rs:37 calls: digits of
either case are accepted. -/
def fromHexDigit (c : Char) : Option U8 :=
  if '0' ≤ c ∧ c ≤ '9' then some (BitVec.ofNat 8 (c.toNat - 48))
  else if 'a' ≤ c ∧ c ≤ 'f' then some (BitVec.ofNat 8 (c.toNat - 87))
  else if 'A' ≤ c ∧ c ≤ 'F' then some (BitVec.ofNat 8 (c.toNat - 55))
  else none

/-- `hex::decode` of the hex crate, which tests/vector_tests.rs:37 calls; `none` is its error (odd number of
characters, or one that is not a hexadecimal digit). The crate is not in the repository; this is what its
documentation says. -/
def hexDecode : List Char → Option (List U8)
  | [] => some []
  | [_] => none
  | a :: b :: rest =>
    match fromHexDigit a, fromHexDigit b, hexDecode rest with
    | some x, some y, some l => some ((x <<< 4 ||| y) :: l)
    | _, _, _ => none

/-- `.unwrap()`, tests/vector_tests.rs:37. -/
def unwrap {α : Type} : Option α → R α
  | some a => pure a
  | none => throw .assertFailed

/-- tests/vector_tests.rs:37-48, the body of `blake2s_vectors` for one case. -/
def blake2sCase (E : Env) (case : TestCase) : R Unit := do
  let input_bytes ← unwrap (hexDecode case.in_)
  let output ←
    if case.key.isEmpty then
      blake2s E input_bytes
    else do
      let key_bytes ← unwrap (hexDecode case.key)
      let params ← Params.new.setKey key_bytes
      hashOne E params input_bytes
  assertHex output case.out

/-- tests/vector_tests.rs:64-75, the body of `blake2sp_vectors` for one case. -/
def blake2spCase (E : Env) (case : TestCase) : R Unit := do
  let input_bytes ← unwrap (hexDecode case.in_)
  let output ←
    if case.key.isEmpty then
      blake2sp E input_bytes
    else do
      let key_bytes ← unwrap (hexDecode case.key)
      let params ← Sp.Params.new.setKey key_bytes
      let state ← params.toState E
      let state ← state.update E input_bytes
      let (_, hash) ← state.finalize E
      pure hash
  assertHex output case.out

/-- The loops of tests/vector_tests.rs:33-51 and 60-78: the number of cases whose `hash` is `name`. -/
def caseLoop (E : Env) (name : List Char) (body : TestCase → R Unit) (count : U64) :
    List TestCase → R U64
  | [] => pure count
  | case :: rest => do
    if case.hash == name then
      body case
      let count ← addChk E count 1
      caseLoop E name body count rest
    else
      caseLoop E name body count rest

/-- tests/vector_tests.rs:31-56 `blake2s_vectors`. -/
def blake2sVectors (E : Env) (cases : List TestCase) : R Unit := do
  let count ← caseLoop E "blake2s".toList (blake2sCase E) 0 cases
  assert (512 == count)

/-- tests/vector_tests.rs:58-83 `blake2sp_vectors`. -/
def blake2spVectors (E : Env) (cases : List TestCase) : R Unit := do
  let count ← caseLoop E "blake2sp".toList (blake2spCase E) 0 cases
  assert (512 == count)

end Blake2s.Tests
