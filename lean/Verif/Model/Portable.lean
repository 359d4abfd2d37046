import Verif.Model.Guts
/-!
# Model of `portable.rs`
-/
namespace Blake2.Portable

/-- The four rotation distances in `g`: blake2b/src/portable.rs 17,19,21,23 and blake2s/src/portable.rs 17,19,21,23. -/
def rots : Alg → Nat × Nat × Nat × Nat
  | .b => (32, 24, 16, 63)
  | .s => (16, 12, 8, 7)

/-- `g`. blake2b/src/portable.rs 15-24, blake2s/src/portable.rs 15-24. -/
def g (al : Alg) (v : Vector (Word al) 16) (a b c d : Fin 16) (x y : Word al) : Vector (Word al) 16 :=
  let v := v.set a (v[a] + v[b] + x)
  let v := v.set d ((v[d] ^^^ v[a]).rotateRight (rots al).1)
  let v := v.set c (v[c] + v[d])
  let v := v.set b ((v[b] ^^^ v[c]).rotateRight (rots al).2.1)
  let v := v.set a (v[a] + v[b] + y)
  let v := v.set d ((v[d] ^^^ v[a]).rotateRight (rots al).2.2.1)
  let v := v.set c (v[c] + v[d])
  v.set b ((v[b] ^^^ v[c]).rotateRight (rots al).2.2.2)

/-- `round`. blake2b/src/portable.rs 29-44, blake2s/src/portable.rs 27-42. -/
def round (a : Alg) (m : Vector (Word a) 16) (v : Vector (Word a) 16) (r : Fin a.rows) : Vector (Word a) 16 :=
  let s := (SIGMA a)[r]
  -- Mix the columns.
  let v := g a v 0 4 8 12 m[s[0]] m[s[1]]
  let v := g a v 1 5 9 13 m[s[2]] m[s[3]]
  let v := g a v 2 6 10 14 m[s[4]] m[s[5]]
  let v := g a v 3 7 11 15 m[s[6]] m[s[7]]
  -- Mix the rows.
  let v := g a v 0 5 10 15 m[s[8]] m[s[9]]
  let v := g a v 1 6 11 12 m[s[10]] m[s[11]]
  let v := g a v 2 7 8 13 m[s[12]] m[s[13]]
  g a v 3 4 9 14 m[s[14]] m[s[15]]

/-- The unrolled sequence of round numbers: `round(0), ..., round(11)` in blake2b/src/portable.rs 96-107,
`round(0), ..., round(9)` in blake2s/src/portable.rs 94-103. -/
def roundNumbers : (a : Alg) → List (Fin a.rows)
  | .b => ([0, 1, 2, 3, 4, 5, 6, 7, 8, 9, 10, 11] : List (Fin 12))
  | .s => ([0, 1, 2, 3, 4, 5, 6, 7, 8, 9] : List (Fin 10))

/-- The message words, "Parse the message bytes as ints in little endian order": portable.rs 75-93. -/
def msgWords (a : Alg) (block : List Byte) : Vector (Word a) 16 :=
  let word (i : Nat) : Word a := fromLE a.w ((block.drop (i * a.wb)).take a.wb)
  #v[word 0, word 1, word 2, word 3, word 4, word 5, word 6, word 7,
     word 8, word 9, word 10, word 11, word 12, word 13, word 14, word 15]

/-- `compress_block`. blake2b/src/portable.rs 47-117, blake2s/src/portable.rs 45-113. -/
def compressBlock (a : Alg) : CompressBlock a := fun block words count lastBlock lastNode =>
  -- Initialize the compression state.
  let v : Vector (Word a) 16 := #v[
    words[0], words[1], words[2], words[3], words[4], words[5], words[6], words[7],
    (IV a)[0], (IV a)[1], (IV a)[2], (IV a)[3],
    (IV a)[4] ^^^ countLow a count,
    (IV a)[5] ^^^ countHigh a count,
    (IV a)[6] ^^^ lastBlock,
    (IV a)[7] ^^^ lastNode]
  let m := msgWords a block
  let v := (roundNumbers a).foldl (round a m) v
  #v[words[0] ^^^ (v[0] ^^^ v[8]), words[1] ^^^ (v[1] ^^^ v[9]),
     words[2] ^^^ (v[2] ^^^ v[10]), words[3] ^^^ (v[3] ^^^ v[11]),
     words[4] ^^^ (v[4] ^^^ v[12]), words[5] ^^^ (v[5] ^^^ v[13]),
     words[6] ^^^ (v[6] ^^^ v[14]), words[7] ^^^ (v[7] ^^^ v[15])]

/-- `portable::compress1_loop`. blake2b/src/portable.rs 119-168, blake2s/src/portable.rs 115-164. -/
def compress1Loop (a : Alg) := Blake2.compress1Loop a (compressBlock a) arrayRef

end Blake2.Portable
