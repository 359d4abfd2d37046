import Verif.Model.Portable
import Verif.Model.Intrinsics
/-!
# Model of the N-way (transposed) compression loops

`blake2b/src/avx2.rs` (N = 4), `blake2b/src/sse41.rs` (N = 2), `blake2s/src/sse41.rs` (N = 4) and `blake2s/src/avx2.rs`
(N = 8) contain the same text for `round`, `compressN_transposed!`, `add_to_counts`, `load_counts`, `store_counts`,
`flags_vec` and `compressN_loop`, up to the number of lanes and the names of the wrapped intrinsics. The text is
modelled once, over a structure `VImpl` of the wrapped intrinsics and transpositions, which the four instance files fill
in with the intrinsics each Rust file uses.
-/
namespace Blake2

/-- `struct Job`. guts.rs 137-142 (blake2s 135-140). `words` is `&mut [Word; 8]` in Rust: the model's callers write the
returned words back to the place the reference points to. -/
structure Job (a : Alg) where
  input : List Byte
  words : Vector (Word a) 8
  count : Count a
  lastNode : Bool

/-- What one SIMD file provides: a register type `R` holding `N` words, and the wrappers around intrinsics.
blake2b/src/sse41.rs 18-101, blake2b/src/avx2.rs 18-105, blake2s/src/sse41.rs 18-93, blake2s/src/avx2.rs 17-94. -/
structure VImpl (a : Alg) (N : Nat) (R : Type) where
  /-- `add` -/
  add : R → R → R
  /-- `xor` -/
  xor : R → R → R
  /-- `eq` -/
  eq : R → R → R
  /-- `and` -/
  and : R → R → R
  /-- `negate_and` -/
  negateAnd : R → R → R
  /-- `rot32` (BLAKE2b) / `rot16` (BLAKE2s) -/
  rotA : R → R
  /-- `rot24` / `rot12` -/
  rotB : R → R
  /-- `rot16` / `rot8` -/
  rotC : R → R
  /-- `rot63` / `rot7` -/
  rotD : R → R
  /-- `set1` -/
  set1 : Word a → R
  /-- `set2` / `set4` / `set8` -/
  setN : Vector (Word a) N → R
  /-- `mem::transmute` to `[Word; DEGREE]` -/
  toInts : R → Vector (Word a) N
  /-- `transpose_state_vecs` -/
  transposeState : Vector (Vector (Word a) 8) N → Vector R 8
  /-- `untranspose_state_vecs` (returns the words of each job) -/
  untransposeState : Vector R 8 → Vector (Vector (Word a) 8) N
  /-- `transpose_msg_vecs` -/
  transposeMsg : Vector (List Byte) N → Vector R 16

namespace NWay
variable {a : Alg} {N : Nat} {R : Type}

/-- First half (columns) of `round`: blake2b/src/avx2.rs 489-544, blake2b/src/sse41.rs 104-159,
blake2s/src/sse41.rs 460-515, blake2s/src/avx2.rs 97-152. The elements of the array `v` are held in sixteen locals. -/
def roundColumns (o : VImpl a N R) (m : Vector R 16) (s : Vector (Fin 16) 16) (v : Vector R 16) : Vector R 16 :=
  let v0 := v[0]
  let v1 := v[1]
  let v2 := v[2]
  let v3 := v[3]
  let v4 := v[4]
  let v5 := v[5]
  let v6 := v[6]
  let v7 := v[7]
  let v8 := v[8]
  let v9 := v[9]
  let v10 := v[10]
  let v11 := v[11]
  let v12 := v[12]
  let v13 := v[13]
  let v14 := v[14]
  let v15 := v[15]
  let v0 := o.add v0 m[s[0]]
  let v1 := o.add v1 m[s[2]]
  let v2 := o.add v2 m[s[4]]
  let v3 := o.add v3 m[s[6]]
  let v0 := o.add v0 v4
  let v1 := o.add v1 v5
  let v2 := o.add v2 v6
  let v3 := o.add v3 v7
  let v12 := o.xor v12 v0
  let v13 := o.xor v13 v1
  let v14 := o.xor v14 v2
  let v15 := o.xor v15 v3
  let v12 := o.rotA v12
  let v13 := o.rotA v13
  let v14 := o.rotA v14
  let v15 := o.rotA v15
  let v8 := o.add v8 v12
  let v9 := o.add v9 v13
  let v10 := o.add v10 v14
  let v11 := o.add v11 v15
  let v4 := o.xor v4 v8
  let v5 := o.xor v5 v9
  let v6 := o.xor v6 v10
  let v7 := o.xor v7 v11
  let v4 := o.rotB v4
  let v5 := o.rotB v5
  let v6 := o.rotB v6
  let v7 := o.rotB v7
  let v0 := o.add v0 m[s[1]]
  let v1 := o.add v1 m[s[3]]
  let v2 := o.add v2 m[s[5]]
  let v3 := o.add v3 m[s[7]]
  let v0 := o.add v0 v4
  let v1 := o.add v1 v5
  let v2 := o.add v2 v6
  let v3 := o.add v3 v7
  let v12 := o.xor v12 v0
  let v13 := o.xor v13 v1
  let v14 := o.xor v14 v2
  let v15 := o.xor v15 v3
  let v12 := o.rotC v12
  let v13 := o.rotC v13
  let v14 := o.rotC v14
  let v15 := o.rotC v15
  let v8 := o.add v8 v12
  let v9 := o.add v9 v13
  let v10 := o.add v10 v14
  let v11 := o.add v11 v15
  let v4 := o.xor v4 v8
  let v5 := o.xor v5 v9
  let v6 := o.xor v6 v10
  let v7 := o.xor v7 v11
  let v4 := o.rotD v4
  let v5 := o.rotD v5
  let v6 := o.rotD v6
  let v7 := o.rotD v7
  #v[v0, v1, v2, v3, v4, v5, v6, v7, v8, v9, v10, v11, v12, v13, v14, v15]

/-- Second half (diagonals) of `round`: blake2b/src/avx2.rs 546-601, blake2b/src/sse41.rs 161-216,
blake2s/src/sse41.rs 517-572, blake2s/src/avx2.rs 154-209. -/
def roundDiagonals (o : VImpl a N R) (m : Vector R 16) (s : Vector (Fin 16) 16) (v : Vector R 16) : Vector R 16 :=
  let v0 := v[0]
  let v1 := v[1]
  let v2 := v[2]
  let v3 := v[3]
  let v4 := v[4]
  let v5 := v[5]
  let v6 := v[6]
  let v7 := v[7]
  let v8 := v[8]
  let v9 := v[9]
  let v10 := v[10]
  let v11 := v[11]
  let v12 := v[12]
  let v13 := v[13]
  let v14 := v[14]
  let v15 := v[15]
  let v0 := o.add v0 m[s[8]]
  let v1 := o.add v1 m[s[10]]
  let v2 := o.add v2 m[s[12]]
  let v3 := o.add v3 m[s[14]]
  let v0 := o.add v0 v5
  let v1 := o.add v1 v6
  let v2 := o.add v2 v7
  let v3 := o.add v3 v4
  let v15 := o.xor v15 v0
  let v12 := o.xor v12 v1
  let v13 := o.xor v13 v2
  let v14 := o.xor v14 v3
  let v15 := o.rotA v15
  let v12 := o.rotA v12
  let v13 := o.rotA v13
  let v14 := o.rotA v14
  let v10 := o.add v10 v15
  let v11 := o.add v11 v12
  let v8 := o.add v8 v13
  let v9 := o.add v9 v14
  let v5 := o.xor v5 v10
  let v6 := o.xor v6 v11
  let v7 := o.xor v7 v8
  let v4 := o.xor v4 v9
  let v5 := o.rotB v5
  let v6 := o.rotB v6
  let v7 := o.rotB v7
  let v4 := o.rotB v4
  let v0 := o.add v0 m[s[9]]
  let v1 := o.add v1 m[s[11]]
  let v2 := o.add v2 m[s[13]]
  let v3 := o.add v3 m[s[15]]
  let v0 := o.add v0 v5
  let v1 := o.add v1 v6
  let v2 := o.add v2 v7
  let v3 := o.add v3 v4
  let v15 := o.xor v15 v0
  let v12 := o.xor v12 v1
  let v13 := o.xor v13 v2
  let v14 := o.xor v14 v3
  let v15 := o.rotC v15
  let v12 := o.rotC v12
  let v13 := o.rotC v13
  let v14 := o.rotC v14
  let v10 := o.add v10 v15
  let v11 := o.add v11 v12
  let v8 := o.add v8 v13
  let v9 := o.add v9 v14
  let v5 := o.xor v5 v10
  let v6 := o.xor v6 v11
  let v7 := o.xor v7 v8
  let v4 := o.xor v4 v9
  let v5 := o.rotD v5
  let v6 := o.rotD v6
  let v7 := o.rotD v7
  let v4 := o.rotD v4
  #v[v0, v1, v2, v3, v4, v5, v6, v7, v8, v9, v10, v11, v12, v13, v14, v15]

/-- `round`. blake2b/src/avx2.rs 488-602, blake2b/src/sse41.rs 103-217, blake2s/src/sse41.rs 459-573,
blake2s/src/avx2.rs 96-210. -/
def round (o : VImpl a N R) (m : Vector R 16) (v : Vector R 16) (r : Fin a.rows) : Vector R 16 :=
  roundDiagonals o m (SIGMA a)[r] (roundColumns o m (SIGMA a)[r] v)

/-- The unrolled sequence of round numbers inside `compressN_transposed!`: blake2b/src/avx2.rs 643-654,
blake2b/src/sse41.rs 257-268 (twelve), blake2s/src/sse41.rs 613-622, blake2s/src/avx2.rs 251-260 (ten). -/
def roundNumbers : (a : Alg) → List (Fin a.rows)
  | .b => ([0, 1, 2, 3, 4, 5, 6, 7, 8, 9, 10, 11] : List (Fin 12))
  | .s => ([0, 1, 2, 3, 4, 5, 6, 7, 8, 9] : List (Fin 10))

/-- `compressN_transposed!`. blake2b/src/avx2.rs 608-665, blake2b/src/sse41.rs 223-279, blake2s/src/sse41.rs 579-633,
blake2s/src/avx2.rs 216-271. -/
def compressTransposed (o : VImpl a N R) (h : Vector R 8) (msg : Vector R 16)
    (countLow countHigh lastBlock lastNode : R) : Vector R 8 :=
  let v : Vector R 16 := #v[
    h[0], h[1], h[2], h[3], h[4], h[5], h[6], h[7],
    o.set1 (IV a)[0], o.set1 (IV a)[1], o.set1 (IV a)[2], o.set1 (IV a)[3],
    o.xor (o.set1 (IV a)[4]) countLow,
    o.xor (o.set1 (IV a)[5]) countHigh,
    o.xor (o.set1 (IV a)[6]) lastBlock,
    o.xor (o.set1 (IV a)[7]) lastNode]
  let v := (roundNumbers a).foldl (round o msg) v
  #v[o.xor (o.xor h[0] v[0]) v[8], o.xor (o.xor h[1] v[1]) v[9],
     o.xor (o.xor h[2] v[2]) v[10], o.xor (o.xor h[3] v[3]) v[11],
     o.xor (o.xor h[4] v[4]) v[12], o.xor (o.xor h[5] v[5]) v[13],
     o.xor (o.xor h[6] v[6]) v[14], o.xor (o.xor h[7] v[7]) v[15]]

/-- `load_counts`. blake2b/src/avx2.rs 783-798, blake2b/src/sse41.rs 343-348, blake2s/src/sse41.rs 742-757,
blake2s/src/avx2.rs 401-424. -/
def loadCounts (o : VImpl a N R) (jobs : Vector (Job a) N) : R × R :=
  (o.setN (jobs.map fun j => countLow a j.count), o.setN (jobs.map fun j => countHigh a j.count))

/-- `store_counts`. blake2b/src/avx2.rs 801-807, blake2b/src/sse41.rs 351-357, blake2s/src/sse41.rs 760-766,
blake2s/src/avx2.rs 427-433. Returns the new counts. -/
def storeCounts (o : VImpl a N R) (low high : R) : Vector (Count a) N :=
  Vector.ofFn fun i => assembleCount a (o.toInts low)[i] (o.toInts high)[i]

/-- `add_to_counts`. blake2b/src/avx2.rs 810-818, blake2b/src/sse41.rs 360-368, blake2s/src/sse41.rs 769-777,
blake2s/src/avx2.rs 436-444. Returns the new `(lo, hi)`. -/
def addToCounts (o : VImpl a N R) (lo hi delta : R) : R × R :=
  let lo := o.add lo delta
  let loReachedZero := o.eq lo (o.set1 0)
  let deltaWasZero := o.eq delta (o.set1 0)
  let hiInc := o.and (o.set1 1) (o.negateAnd deltaWasZero loReachedZero)
  let hi := o.add hi hiInc
  (lo, hi)

/-- `flags_vec`. blake2b/src/avx2.rs 821-828, blake2b/src/sse41.rs 371-373, blake2s/src/sse41.rs 780-787,
blake2s/src/avx2.rs 447-458. -/
def flagsVec (o : VImpl a N R) (flags : Vector Bool N) : R := o.setN (flags.map (flagWord a))

/-- The final-block arguments prepared before the main loop of `compressN_loop`.
blake2b/src/avx2.rs 846-876, blake2b/src/sse41.rs 386-410. -/
structure Fin_ (a : Alg) (N : Nat) (R : Type) where
  offset : Nat
  blocks : Vector (List Byte) N
  countsDelta : R
  lastBlock : R
  lastNode : R

/-- The main loop of `compressN_loop`: blake2b/src/avx2.rs 879-918, blake2b/src/sse41.rs 413-450,
blake2s/src/sse41.rs 838-877, blake2s/src/avx2.rs 538-581. Returns the final offset, state vectors and counts.
`minLen` is the length of the shortest input and bounds the overflow-checked `offset +=`. -/
def loopIter (o : VImpl a N R) (inputs : Vector (List Byte) N) (minLen : Nat) (fin : Fin_ a N R) (stride : Stride) :
    Nat → Nat → Vector R 8 → R → R → Res (Nat × Vector R 8 × R × R)
  | 0, _, _, _, _ => .error .diverge
  | fuel + 1, offset, h, lo, hi => do
    let (blocks, countsDelta, lastBlock, lastNode) ←
      (if offset = fin.offset then
        (.ok (fin.blocks, fin.countsDelta, fin.lastBlock, fin.lastNode) : Res (Vector (List Byte) N × R × R × R))
      else do
        let blocks ← inputs.mapM fun input => rawRef input offset a.bb
        .ok (blocks, o.set1 (BitVec.ofNat a.w a.bb), o.set1 0, o.set1 0))
    let m := o.transposeMsg blocks
    let (lo, hi) := addToCounts o lo hi countsDelta
    let h := compressTransposed o h m lo hi lastBlock lastNode
    if offset = fin.offset then
      .ok (offset, h, lo, hi)
    else do
      let offset ← addUsize minLen offset (stride.padded a)
      loopIter o inputs minLen fin stride fuel offset h lo hi

/-- `iter().map(..).min()`: `None` on an empty list. blake2b/src/avx2.rs 848, blake2b/src/sse41.rs 388. -/
def listMin : List Nat → Option Nat
  | [] => none
  | x :: xs => match listMin xs with
    | none => some x
    | some y => some (min x y)

/-- `compressN_loop`. blake2b/src/avx2.rs 831-929 (`compress4_loop`), blake2b/src/sse41.rs 376-461 (`compress2_loop`),
blake2s/src/sse41.rs 790-888 (`compress4_loop`), blake2s/src/avx2.rs 461-592 (`compress8_loop`). Returns the updated jobs. -/
def compressLoop (o : VImpl a N R) (jobs : Vector (Job a) N) (finalize : Bool) (stride : Stride) :
    Res (Vector (Job a) N) := do
  jobs.toList.forM fun job => inputDebugAsserts a job.input finalize
  let h := o.transposeState (jobs.map (·.words))
  let (lo, hi) := loadCounts o jobs
  let minLen ← match listMin (jobs.toList.map fun job => job.input.length) with
    | some n => (.ok n : Res Nat)
    | none => .error .panic
  let finOffset := minLen - 1
  let finOffset := finOffset - finOffset % stride.padded a
  let fins ← jobs.mapM fun job => finalBlock a job.input finOffset (List.replicate a.bb 0) stride
  let finDelta := o.setN (fins.map fun f => BitVec.ofNat a.w f.2.1)
  let (finLastBlock, finLastNode) :=
    if finalize then
      (flagsVec o (fins.map fun f => f.2.2),
       flagsVec o (Vector.ofFn fun i => fins[i].2.2 && jobs[i].lastNode))
    else (o.set1 0, o.set1 0)
  let fin : Fin_ a N R :=
    { offset := finOffset, blocks := fins.map (·.1), countsDelta := finDelta,
      lastBlock := finLastBlock, lastNode := finLastNode }
  let (offset, h, lo, hi) ← loopIter o (jobs.map (·.input)) minLen fin stride (minLen + 1) 0 h lo hi
  -- Write out the results.
  let words := o.untransposeState h
  let counts := storeCounts o lo hi
  let maxConsumed := offset + stride.padded a
  (Vector.finRange N).mapM fun i => do
    let consumed := min maxConsumed jobs[i].input.length
    let input ← sliceFrom jobs[i].input consumed
    .ok { input := input, words := words[i], count := counts[i], lastNode := jobs[i].lastNode }

end NWay
end Blake2
