import Verif.Vocab
/-!
# What stays in memory of keys and input (C55)

A `State` has a buffer of 64 bytes (src/lib.rs:307). Byte number `q` of what is hashed (the key block, if
there is a key, counts as bytes 0 to 63) has its place at `q % 64`, if it gets into the buffer at all: a
block that lies within one piece of input, and is not the end of it, is compressed where it is. Nothing is
erased before `finalize`, so the buffer holds remains of earlier blocks behind the bytes that wait.
-/

namespace Blake2s.Kept

/-- How many of `n` bytes wait in the buffer: the last block is kept, full or not. -/
def waiting (n : Nat) : Nat := if n = 0 then 0 else (n - 1) % 64 + 1

/-- Place `i` of the buffer after feeding `piece` to a state that has been fed `n` bytes, if it was `old`
before. It gets the byte of the last block, if the piece has it; otherwise that of the block that was
begun before, if the piece has it; blocks in between do not get into the buffer. -/
def place (n : Nat) (piece : List U8) (old : U8) (i : Nat) : U8 :=
  let last := 64 * ((n + piece.length - 1) / 64) + i
  let first := 64 * (n / 64) + i
  if n ≤ last ∧ last < n + piece.length then piece.getD (last - n) 0
  else if n % 64 ≠ 0 ∧ n ≤ first ∧ first < n + piece.length then piece.getD (first - n) 0
  else old

/-- Place `i` of the buffer after a history of calls on a state that has been fed `n` bytes, if it was `old`
before. `finalize` erases what does not wait; nothing else does. -/
def after (n : Nat) (old : U8) (i : Nat) : List Op → U8
  | [] => old
  | .update piece :: ops => after (n + piece.length) (place n piece old i) i ops
  | .write piece :: ops => after (n + piece.length) (place n piece old i) i ops
  | .finalize :: ops => after n (if waiting n ≤ i then 0 else old) i ops
  | _ :: ops => after n old i ops

/-- The part of `data` that waits in the buffer: its last block. -/
def lastBlock (data : List U8) : List U8 := data.drop (data.length - waiting data.length)

/-- `b` followed by zeros, 64 bytes in all. -/
def padded (b : List U8) : List U8 := b ++ List.replicate (64 - b.length) 0

end Blake2s.Kept
