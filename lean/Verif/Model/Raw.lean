import Verif.Model.Many
/-!
# The unchecked reads of the vector code, one by one

`Model/Guts` and `Model/NWay` treat a message block as the bytes it holds. The vector code walks through memory with raw
pointers instead: it makes a pointer to the block by `input.as_ptr().add(offset)`, makes further pointers by `block.add(k)`,
and reads 16 or 32 bytes at each. This file models every such step with the condition under which it is defined. The rest of
the vector code reads and writes through references to arrays whose lengths are in their types (`array_refs!`,
`mut_array_refs!`, `transmute` of arrays of the same size), which the compiler checks.
-/
namespace Blake2.Raw
open X86

/-- A raw pointer: the object it was derived from (a slice, or one block) and its offset in it. The bytes of other objects,
even if adjacent in memory, are not accessible through it. -/
structure Ptr where
  bytes : List Byte
  off : Nat

/-- `x.as_ptr()`, and the conversion of a reference to a pointer: the start of the object.
blake2b/src/avx2.rs 460, 837-842, 859, blake2s/src/sse41.rs 169, 438. -/
def asPtr (bytes : List Byte) : Ptr := ⟨bytes, 0⟩

/-- `ptr.add(n)` in bytes: undefined if the result is outside the object (one past its end is allowed).
blake2b/src/avx2.rs 460, 755-775, 892-895, blake2b/src/sse41.rs 329-336, 426-427,
blake2s/src/avx2.rs 375-393, 551-558, blake2s/src/sse41.rs 170-173, 438, 714-734, 851-854. -/
def Ptr.add (p : Ptr) (n : Nat) : Res Ptr :=
  if p.off + n ≤ p.bytes.length then .ok { p with off := p.off + n } else .error .ub

/-- A read of `n` bytes: undefined if they are not all inside the object. blake2b/src/avx2.rs 18-21, 460,
blake2b/src/sse41.rs 17-20, blake2s/src/avx2.rs 17-20, blake2s/src/sse41.rs 17-20, 438. -/
def Ptr.read (p : Ptr) (n : Nat) : Res (List Byte) := rawRef p.bytes p.off n

/-- `loadu(block.add(k))` for `block: *const [Word; DEGREE]` of 32 bytes. blake2b/src/avx2.rs 746-780,
blake2s/src/avx2.rs 364-398. -/
def load256 (block : Ptr) (k : Nat) : Res M256 := do
  let p ← block.add (32 * k)
  let bytes ← p.read 32
  .ok (mm256_loadu_si256 bytes)

/-- `loadu(block.add(k))` for `block: *const [Word; DEGREE]` of 16 bytes. blake2b/src/sse41.rs 324-340,
blake2s/src/sse41.rs 169-173, 705-740. -/
def load128 (block : Ptr) (k : Nat) : Res M128 := do
  let p ← block.add (16 * k)
  let bytes ← p.read 16
  .ok (mm_loadu_si128 bytes)

/-- `avx2::transpose_msg_vecs` of BLAKE2b. blake2b/src/avx2.rs 746-780. -/
def BAvx2.transposeMsg (blocks : Vector Ptr 4) : Res (Vector M256 16) := do
  let l ← blocks.mapM (load256 · 0)
  let t0 := Blake2.BAvx2.transposeVecs l[0] l[1] l[2] l[3]
  let l ← blocks.mapM (load256 · 1)
  let t1 := Blake2.BAvx2.transposeVecs l[0] l[1] l[2] l[3]
  let l ← blocks.mapM (load256 · 2)
  let t2 := Blake2.BAvx2.transposeVecs l[0] l[1] l[2] l[3]
  let l ← blocks.mapM (load256 · 3)
  let t3 := Blake2.BAvx2.transposeVecs l[0] l[1] l[2] l[3]
  .ok #v[t0[0], t0[1], t0[2], t0[3], t1[0], t1[1], t1[2], t1[3], t2[0], t2[1], t2[2], t2[3], t3[0], t3[1], t3[2], t3[3]]

/-- `sse41::transpose_msg_vecs` of BLAKE2b. blake2b/src/sse41.rs 324-340. -/
def BSse41.transposeMsg (blocks : Vector Ptr 2) : Res (Vector M128 16) := do
  let l ← blocks.mapM (load128 · 0)
  let t0 := Blake2.BSse41.transposeVecs l[0] l[1]
  let l ← blocks.mapM (load128 · 1)
  let t1 := Blake2.BSse41.transposeVecs l[0] l[1]
  let l ← blocks.mapM (load128 · 2)
  let t2 := Blake2.BSse41.transposeVecs l[0] l[1]
  let l ← blocks.mapM (load128 · 3)
  let t3 := Blake2.BSse41.transposeVecs l[0] l[1]
  let l ← blocks.mapM (load128 · 4)
  let t4 := Blake2.BSse41.transposeVecs l[0] l[1]
  let l ← blocks.mapM (load128 · 5)
  let t5 := Blake2.BSse41.transposeVecs l[0] l[1]
  let l ← blocks.mapM (load128 · 6)
  let t6 := Blake2.BSse41.transposeVecs l[0] l[1]
  let l ← blocks.mapM (load128 · 7)
  let t7 := Blake2.BSse41.transposeVecs l[0] l[1]
  .ok #v[t0[0], t0[1], t1[0], t1[1], t2[0], t2[1], t3[0], t3[1], t4[0], t4[1], t5[0], t5[1], t6[0], t6[1], t7[0], t7[1]]

/-- `sse41::transpose_msg_vecs` of BLAKE2s. blake2s/src/sse41.rs 705-740. -/
def SSse41.transposeMsg (blocks : Vector Ptr 4) : Res (Vector M128 16) := do
  let l ← blocks.mapM (load128 · 0)
  let t0 := Blake2.SSse41.transposeVecs l[0] l[1] l[2] l[3]
  let l ← blocks.mapM (load128 · 1)
  let t1 := Blake2.SSse41.transposeVecs l[0] l[1] l[2] l[3]
  let l ← blocks.mapM (load128 · 2)
  let t2 := Blake2.SSse41.transposeVecs l[0] l[1] l[2] l[3]
  let l ← blocks.mapM (load128 · 3)
  let t3 := Blake2.SSse41.transposeVecs l[0] l[1] l[2] l[3]
  .ok #v[t0[0], t0[1], t0[2], t0[3], t1[0], t1[1], t1[2], t1[3], t2[0], t2[1], t2[2], t2[3], t3[0], t3[1], t3[2], t3[3]]

/-- `avx2::transpose_msg_vecs` of BLAKE2s. blake2s/src/avx2.rs 364-398. -/
def SAvx2.transposeMsg (blocks : Vector Ptr 8) : Res (Vector M256 16) := do
  let l ← blocks.mapM (load256 · 0)
  let t0 := Blake2.SAvx2.transposeVecs l[0] l[1] l[2] l[3] l[4] l[5] l[6] l[7]
  let l ← blocks.mapM (load256 · 1)
  let t1 := Blake2.SAvx2.transposeVecs l[0] l[1] l[2] l[3] l[4] l[5] l[6] l[7]
  .ok #v[t0[0], t0[1], t0[2], t0[3], t0[4], t0[5], t0[6], t0[7], t1[0], t1[1], t1[2], t1[3], t1[4], t1[5], t1[6], t1[7]]

/-- A single-block compression function that may read outside its block. -/
abbrev CompressBlock (a : Alg) :=
  List Byte → Vector (Word a) 8 → Count a → Word a → Word a → Res (Vector (Word a) 8)

/-- `sse41::compress_block` of BLAKE2s, with `msg_ptr = block.as_ptr() as *const [Word; DEGREE]`. blake2s/src/sse41.rs 151-402. -/
def SSse41.compressBlock : CompressBlock .s := fun block words count lastBlock lastNode => do
  let wordsLow : Vector (BitVec 32) 4 := #v[words[0], words[1], words[2], words[3]]
  let wordsHigh : Vector (BitVec 32) 4 := #v[words[4], words[5], words[6], words[7]]
  let row1 := Blake2.SSse41.loadu wordsLow
  let row2 := Blake2.SSse41.loadu wordsHigh
  let row3 := Blake2.SSse41.loadu #v[(IV .s)[0], (IV .s)[1], (IV .s)[2], (IV .s)[3]]
  let row4 := Blake2.SSse41.xor (Blake2.SSse41.loadu #v[(IV .s)[4], (IV .s)[5], (IV .s)[6], (IV .s)[7]])
    (Blake2.SSse41.setN #v[countLow .s count, countHigh .s count, lastBlock, lastNode])
  let msgPtr := asPtr block
  let m0 ← load128 msgPtr 0
  let m1 ← load128 msgPtr 1
  let m2 ← load128 msgPtr 2
  let m3 ← load128 msgPtr 3
  let v := Blake2.SSse41.rounds m0 m1 m2 m3 ⟨row1, row2, row3, row4⟩
  .ok (Blake2.SSse41.storeu (Blake2.SSse41.xor (Blake2.SSse41.loadu wordsLow) (Blake2.SSse41.xor v.row1 v.row3)) ++
    Blake2.SSse41.storeu (Blake2.SSse41.xor (Blake2.SSse41.loadu wordsHigh) (Blake2.SSse41.xor v.row2 v.row4)))

/-- `&*(input.as_ptr().add(offset) as *const [u8; n])`. blake2b/src/avx2.rs 460, blake2s/src/sse41.rs 438. -/
def deref (input : List Byte) (offset n : Nat) : Res (List Byte) := do
  let p ← (asPtr input).add offset
  p.read n

/-- `input_debug_asserts`, compiled only in debug builds. guts.rs 252-259 (blake2s 250-257). -/
def debugAsserts (dbg : Bool) (a : Alg) (input : List Byte) (finalize : Bool) : Res Unit :=
  if dbg then inputDebugAsserts a input finalize else .ok ()

/-- The `loop` of `compress1_loop`. `readBlock` is `deref` in the vector files and the checked `array_ref!` in portable.rs.
blake2b/src/portable.rs 137-165, blake2s/src/portable.rs 133-161, blake2b/src/avx2.rs 445-475, blake2s/src/sse41.rs 423-453. -/
def compress1Iter (a : Alg) (compressBlock : CompressBlock a) (readBlock : List Byte → Nat → Nat → Res (List Byte))
    (input : List Byte) (finOffset : Nat) (finBlock : List Byte) (finLen : Nat) (finLastBlock finLastNode : Word a)
    (stride : Stride) : Nat → Nat → Count a → Vector (Word a) 8 → Res (Vector (Word a) 8)
  | 0, _, _, _ => .error .diverge
  | fuel + 1, offset, count, words => do
    let (block, countDelta, lastBlock, lastNode) ←
      (if offset = finOffset then
        (.ok (finBlock, finLen, finLastBlock, finLastNode) : Res (List Byte × Nat × Word a × Word a))
      else do
        let block ← readBlock input offset a.bb
        .ok (block, a.bb, flagWord a false, flagWord a false))
    let count := count + BitVec.ofNat (2 * a.w) countDelta
    let words ← compressBlock block words count lastBlock lastNode
    if offset = finOffset then
      .ok words
    else do
      let offset ← addUsize input.length offset (stride.padded a)
      compress1Iter a compressBlock readBlock input finOffset finBlock finLen finLastBlock finLastNode stride
        fuel offset count words

/-- `compress1_loop`. blake2b/src/portable.rs 119-168, blake2s/src/portable.rs 115-164, blake2b/src/avx2.rs 427-478,
blake2s/src/sse41.rs 405-456. -/
def compress1Loop (dbg : Bool) (a : Alg) (compressBlock : CompressBlock a)
    (readBlock : List Byte → Nat → Nat → Res (List Byte))
    (input : List Byte) (words : Vector (Word a) 8) (count : Count a) (lastNode finalize : Bool) (stride : Stride) :
    Res (Vector (Word a) 8) := do
  debugAsserts dbg a input finalize
  let finOffset := input.length - 1
  let finOffset := finOffset - finOffset % stride.padded a
  let buf := List.replicate a.bb 0
  let (finBlock, finLen, _) ← finalBlock a input finOffset buf stride
  let finLastBlock := flagWord a finalize
  let finLastNode := flagWord a (finalize && lastNode)
  compress1Iter a compressBlock readBlock input finOffset finBlock finLen finLastBlock finLastNode stride
    (input.length + 1) 0 count words

section NWay
open Blake2.NWay
variable {a : Alg} {N : Nat} {R : Type}

/-- The main loop of `compressN_loop`, with the pointers `msg_ptrs` to the inputs and `fin_blocks` to the final blocks.
blake2b/src/avx2.rs 879-918, blake2b/src/sse41.rs 413-450, blake2s/src/sse41.rs 838-877, blake2s/src/avx2.rs 538-581. -/
def loopIter (o : VImpl a N R) (transposeMsg : Vector Ptr N → Res (Vector R 16)) (msgPtrs : Vector Ptr N) (minLen : Nat)
    (fin : Fin_ a N R) (stride : Stride) : Nat → Nat → Vector R 8 → R → R → Res (Nat × Vector R 8 × R × R)
  | 0, _, _, _, _ => .error .diverge
  | fuel + 1, offset, h, lo, hi => do
    let (blocks, countsDelta, lastBlock, lastNode) ←
      (if offset = fin.offset then
        (.ok (fin.blocks.map asPtr, fin.countsDelta, fin.lastBlock, fin.lastNode) : Res (Vector Ptr N × R × R × R))
      else do
        let blocks ← msgPtrs.mapM fun p => p.add offset
        .ok (blocks, o.set1 (BitVec.ofNat a.w a.bb), o.set1 0, o.set1 0))
    let m ← transposeMsg blocks
    let (lo, hi) := addToCounts o lo hi countsDelta
    let h := compressTransposed o h m lo hi lastBlock lastNode
    if offset = fin.offset then
      .ok (offset, h, lo, hi)
    else do
      let offset ← addUsize minLen offset (stride.padded a)
      loopIter o transposeMsg msgPtrs minLen fin stride fuel offset h lo hi

/-- `compressN_loop`. blake2b/src/avx2.rs 831-929, blake2b/src/sse41.rs 376-461, blake2s/src/sse41.rs 790-888,
blake2s/src/avx2.rs 461-592. -/
def compressLoop (dbg : Bool) (o : VImpl a N R) (transposeMsg : Vector Ptr N → Res (Vector R 16)) (jobs : Vector (Job a) N)
    (finalize : Bool) (stride : Stride) : Res (Vector (Job a) N) := do
  jobs.toList.forM fun job => debugAsserts dbg a job.input finalize
  let msgPtrs := jobs.map fun job => asPtr job.input
  let h := o.transposeState (jobs.map (·.words))
  let (lo, hi) := loadCounts o jobs
  let minLen ← match listMin (jobs.toList.map fun job => job.input.length) with
    | some n => (.ok n : Res Nat)
    | none => .error .panic
  let finOffset := minLen - 1
  let finOffset := finOffset - finOffset % stride.padded a
  let fins ← jobs.mapM fun job => finalBlock a job.input finOffset (List.replicate a.bb 0) stride
  let finDelta := o.setN (fins.map fun f => BitVec.ofNat a.w f.2.1)
  let (finLastBlock, finLastNode) :=
    if finalize then
      (flagsVec o (fins.map fun f => f.2.2),
       flagsVec o (Vector.ofFn fun i => fins[i].2.2 && jobs[i].lastNode))
    else (o.set1 0, o.set1 0)
  let fin : Fin_ a N R :=
    { offset := finOffset, blocks := fins.map (·.1), countsDelta := finDelta,
      lastBlock := finLastBlock, lastNode := finLastNode }
  let (offset, h, lo, hi) ← loopIter o transposeMsg msgPtrs minLen fin stride (minLen + 1) 0 h lo hi
  let words := o.untransposeState h
  let counts := storeCounts o lo hi
  let maxConsumed := offset + stride.padded a
  (Vector.finRange N).mapM fun i => do
    let consumed := min maxConsumed jobs[i].input.length
    let input ← sliceFrom jobs[i].input consumed
    .ok { input := input, words := words[i], count := counts[i], lastNode := jobs[i].lastNode }
end NWay

/-- A compression function without raw pointers: portable.rs, and `avx2::compress_block` of BLAKE2b
(blake2b/src/avx2.rs 147-425), which reads its block through `array_refs!`. -/
def safe {a : Alg} (compressBlock : Blake2.CompressBlock a) : CompressBlock a := fun block words count lastBlock lastNode =>
  .ok (compressBlock block words count lastBlock lastNode)

/-- `Implementation::compress1_loop`. blake2b/src/guts.rs 96-116, blake2s/src/guts.rs 96-114. -/
def compress1 (dbg : Bool) : (a : Alg) → Platform → List Byte → Vector (Word a) 8 → Count a → (lastNode finalize : Bool) →
    Stride → Res (Vector (Word a) 8)
  | .b, .AVX2 => compress1Loop dbg .b (safe Blake2.BAvx2.compressBlock) deref
  | .b, _ => compress1Loop dbg .b (safe (Portable.compressBlock .b)) arrayRef
  | .s, .AVX2 => compress1Loop dbg .s SSse41.compressBlock deref
  | .s, .SSE41 => compress1Loop dbg .s SSse41.compressBlock deref
  | .s, .Portable => compress1Loop dbg .s (safe (Portable.compressBlock .s)) arrayRef

/-- `Implementation::compress4_loop`, blake2b/src/guts.rs 129-134; `Implementation::compress8_loop`,
blake2s/src/guts.rs 127-132. -/
def compressHi (dbg : Bool) : (a : Alg) → Platform → Vector (Job a) (hiDegree a) → (finalize : Bool) → Stride →
    Res (Vector (Job a) (hiDegree a))
  | .b, .AVX2 => compressLoop dbg Blake2.BAvx2.impl BAvx2.transposeMsg
  | .s, .AVX2 => compressLoop dbg Blake2.SAvx2.impl SAvx2.transposeMsg
  | _, _ => fun _ _ _ => .error .panic

/-- `Implementation::compress2_loop`, blake2b/src/guts.rs 119-126; `Implementation::compress4_loop`,
blake2s/src/guts.rs 117-124. -/
def compressLo (dbg : Bool) : (a : Alg) → Platform → Vector (Job a) (loDegree a) → (finalize : Bool) → Stride →
    Res (Vector (Job a) (loDegree a))
  | .b, .AVX2 => compressLoop dbg Blake2.BSse41.impl BSse41.transposeMsg
  | .b, .SSE41 => compressLoop dbg Blake2.BSse41.impl BSse41.transposeMsg
  | .s, .AVX2 => compressLoop dbg Blake2.SSse41.impl SSse41.transposeMsg
  | .s, .SSE41 => compressLoop dbg Blake2.SSse41.impl SSse41.transposeMsg
  | _, .Portable => fun _ _ _ => .error .panic

end Blake2.Raw
