import Verif.Model.Prelude
/-!
# Model of src/portable.rs: the compression functions

(`hash4_exact` and `hash8_exact` of src/portable.rs use `Params`/`State` and are in
`Verif/Model/State.lean`.)
-/

namespace Blake2s.Portable

/-- src/portable.rs:12-21 `g`. The indices are `Fin 16` because all call sites pass literals. -/
def g (v : Vector U32 16) (a b c d : Fin 16) (x y : U32) : Vector U32 16 :=
  let v := v.set a (v[a] + v[b] + x)
  let v := v.set d ((v[d] ^^^ v[a]).rotateRight 16)
  let v := v.set c (v[c] + v[d])
  let v := v.set b ((v[b] ^^^ v[c]).rotateRight 12)
  let v := v.set a (v[a] + v[b] + y)
  let v := v.set d ((v[d] ^^^ v[a]).rotateRight 8)
  let v := v.set c (v[c] + v[d])
  let v := v.set b ((v[b] ^^^ v[c]).rotateRight 7)
  v

/-- src/portable.rs:24-39 `round`. -/
def round (r : Fin 12) (m : Vector U32 16) (v : Vector U32 16) : Vector U32 16 :=
  let s := SIGMA[r]
  let v := g v 0 4 8 12 m[s[0]] m[s[1]]
  let v := g v 1 5 9 13 m[s[2]] m[s[3]]
  let v := g v 2 6 10 14 m[s[4]] m[s[5]]
  let v := g v 3 7 11 15 m[s[6]] m[s[7]]
  let v := g v 0 5 10 15 m[s[8]] m[s[9]]
  let v := g v 1 6 11 12 m[s[10]] m[s[11]]
  let v := g v 2 7 8 13 m[s[12]] m[s[13]]
  let v := g v 3 4 9 14 m[s[14]] m[s[15]]
  v

/-- src/portable.rs:67-85: the sixteen little-endian message words. -/
def msgWords (msg : Block) : Vector U32 16 :=
  #v[readU32LE (subArray msg 0 4), readU32LE (subArray msg 4 4),
     readU32LE (subArray msg 8 4), readU32LE (subArray msg 12 4),
     readU32LE (subArray msg 16 4), readU32LE (subArray msg 20 4),
     readU32LE (subArray msg 24 4), readU32LE (subArray msg 28 4),
     readU32LE (subArray msg 32 4), readU32LE (subArray msg 36 4),
     readU32LE (subArray msg 40 4), readU32LE (subArray msg 44 4),
     readU32LE (subArray msg 48 4), readU32LE (subArray msg 52 4),
     readU32LE (subArray msg 56 4), readU32LE (subArray msg 60 4)]

/-- src/portable.rs:45-106 `compress`. `count as u32` truncates; `(count >> 32) as u32` is the high
half. -/
def compress (h : StateWords) (msg : Block) (count : U64) (lastblock lastnode : U32) : StateWords :=
  let v : Vector U32 16 :=
    #v[h[0], h[1], h[2], h[3], h[4], h[5], h[6], h[7],
       IV[0], IV[1], IV[2], IV[3],
       IV[4] ^^^ count.setWidth 32,
       IV[5] ^^^ (count >>> 32).setWidth 32,
       IV[6] ^^^ lastblock,
       IV[7] ^^^ lastnode]
  let m := msgWords msg
  let v := round 0 m v
  let v := round 1 m v
  let v := round 2 m v
  let v := round 3 m v
  let v := round 4 m v
  let v := round 5 m v
  let v := round 6 m v
  let v := round 7 m v
  let v := round 8 m v
  let v := round 9 m v
  #v[h[0] ^^^ (v[0] ^^^ v[8]),
     h[1] ^^^ (v[1] ^^^ v[9]),
     h[2] ^^^ (v[2] ^^^ v[10]),
     h[3] ^^^ (v[3] ^^^ v[11]),
     h[4] ^^^ (v[4] ^^^ v[12]),
     h[5] ^^^ (v[5] ^^^ v[13]),
     h[6] ^^^ (v[6] ^^^ v[14]),
     h[7] ^^^ (v[7] ^^^ v[15])]

/-- src/portable.rs:108-158 `compress8`. The forty positional arguments are five vectors of eight. -/
def compress8 (h : Vector StateWords 8) (msg : Vector Block 8) (count : Vector U64 8)
    (lastblock lastnode : Vector U32 8) : Vector StateWords 8 :=
  #v[compress h[0] msg[0] count[0] lastblock[0] lastnode[0],
     compress h[1] msg[1] count[1] lastblock[1] lastnode[1],
     compress h[2] msg[2] count[2] lastblock[2] lastnode[2],
     compress h[3] msg[3] count[3] lastblock[3] lastnode[3],
     compress h[4] msg[4] count[4] lastblock[4] lastnode[4],
     compress h[5] msg[5] count[5] lastblock[5] lastnode[5],
     compress h[6] msg[6] count[6] lastblock[6] lastnode[6],
     compress h[7] msg[7] count[7] lastblock[7] lastnode[7]]

/-- src/portable.rs:198-201 `vectorize_words8`: does nothing. -/
def vectorizeWords8 (words : Vector StateWords 8) : Vector StateWords 8 := words

/-- The counter expression of src/portable.rs:223 etc.:
`count_low[i] as u64 + ((count_high[i] as u64) << 32)`. -/
def joinCount (E : Env) (lo hi : U32) : R U64 :=
  addChk E (lo.setWidth 64) (hi.setWidth 64 <<< 32)

/-- src/portable.rs:203-276 `compress8_vectorized`. -/
def compress8Vectorized (E : Env) (w : Vector StateWords 8) (msg : Vector Block 8)
    (countLow countHigh lastblock lastnode : Vector U32 8) : R (Vector StateWords 8) := do
  let w0 := compress w[0] msg[0] (← joinCount E countLow[0] countHigh[0]) lastblock[0] lastnode[0]
  let w1 := compress w[1] msg[1] (← joinCount E countLow[1] countHigh[1]) lastblock[1] lastnode[1]
  let w2 := compress w[2] msg[2] (← joinCount E countLow[2] countHigh[2]) lastblock[2] lastnode[2]
  let w3 := compress w[3] msg[3] (← joinCount E countLow[3] countHigh[3]) lastblock[3] lastnode[3]
  let w4 := compress w[4] msg[4] (← joinCount E countLow[4] countHigh[4]) lastblock[4] lastnode[4]
  let w5 := compress w[5] msg[5] (← joinCount E countLow[5] countHigh[5]) lastblock[5] lastnode[5]
  let w6 := compress w[6] msg[6] (← joinCount E countLow[6] countHigh[6]) lastblock[6] lastnode[6]
  let w7 := compress w[7] msg[7] (← joinCount E countLow[7] countHigh[7]) lastblock[7] lastnode[7]
  return #v[w0, w1, w2, w3, w4, w5, w6, w7]

end Blake2s.Portable
