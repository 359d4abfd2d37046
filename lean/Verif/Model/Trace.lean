import Verif.Model.Api
/-!
# The library, instrumented with a log of its calls of the compression function

Every function below is the function of the same name, without the `T`, of `Verif/Model/Guts.lean`, `NWay.lean`, `Impl.lean`,
`Lib.lean`, `Many.lean` and `Par.lean`, with one addition: just before a compression function (the single-block
`compress_block`, or the N-way `compressN_transposed!`) runs, what it is about to be given is appended to a log. The log is
a ghost: it has no counterpart in the Rust code, and `Verif/Proofs/TraceErase.lean` proves that forgetting it gives back the
uninstrumented functions, for all arguments. The citations are those of the uninstrumented functions.
-/
namespace Blake2

/-- What a compression function is given besides the chaining words: the arguments `block`, `count`, `last_block` and
`last_node` of `compress_block` (blake2b/src/portable.rs 47-53, blake2s/src/portable.rs 45-51), or one lane of the
registers given to `compressN_transposed!`. -/
structure Call (a : Alg) where
  block : List Byte
  count : Count a
  lastBlock : Word a
  lastNode : Word a
deriving DecidableEq

/-- One run of a compression function: for each of its lanes, whose lane it is and what it is given. A single-block
compression has one lane.
The calls of `compress_block` (blake2b/src/portable.rs 47, blake2b/src/avx2.rs 146) and of `compress4_transposed!` (blake2b/src/avx2.rs 608). -/
abbrev Pass (a : Alg) (ι : Type) := List (ι × Call a)

/-- A computation that may fault, and otherwise returns a value and the log of the compressions it ran, in order.
The log is a ghost: no line of /repo. -/
def Traced (a : Alg) (ι α : Type) := Res (α × List (Pass a ι))

namespace Traced
variable {a : Alg} {ι α β : Type}

instance : Monad (Traced a ι) where
  pure x := (.ok (x, []) : Res _)
  bind m f := ((m : Res _) >>= fun r => (f r.1 : Res _) >>= fun r' => .ok (r'.1, r.2 ++ r'.2) : Res _)

/-- Code that runs no compression. -/
instance : MonadLift Res (Traced a ι) where
  monadLift m := (m >>= fun x => .ok (x, []) : Res _)

/-- A fault. Ghost; no line of /repo. -/
def fail (e : Fault) : Traced a ι α := (.error e : Res _)

/-- Append one pass to the log. Ghost; no line of /repo. -/
def emit (p : Pass a ι) : Traced a ι Unit := (.ok ((), [p]) : Res _)

/-- Rename the owners in the log. Ghost; no line of /repo. -/
def relabel {κ : Type} (f : ι → κ) (m : Traced a ι α) : Traced a κ α :=
  ((m : Res _) >>= fun r => .ok (r.1, r.2.map fun p => p.map fun c => (f c.1, c.2)) : Res _)

/-- The outcome: a fault, or a value and the log. Ghost; no line of /repo. -/
def run (m : Traced a ι α) : Res (α × List (Pass a ι)) := m

/-- Forget the log. Ghost; no line of /repo. -/
def erase (m : Traced a ι α) : Res α := (m : Res _) >>= fun r => .ok r.1

end Traced

open Traced (emit)

section Serial
variable {ι : Type}

/-- The `loop` of `compress1_loop`, logged. blake2b/src/portable.rs 137-165, blake2s/src/portable.rs 133-161,
blake2b/src/avx2.rs 445-475, blake2s/src/sse41.rs 423-453. `who` is the owner of the words. -/
def compress1IterT (who : ι) (a : Alg) (compressBlock : CompressBlock a)
    (readBlock : List Byte → Nat → Nat → Res (List Byte))
    (input : List Byte) (finOffset : Nat) (finBlock : List Byte) (finLen : Nat) (finLastBlock finLastNode : Word a)
    (stride : Stride) : Nat → Nat → Count a → Vector (Word a) 8 → Traced a ι (Vector (Word a) 8)
  | 0, _, _, _ => .fail .diverge
  | fuel + 1, offset, count, words => do
    let (block, countDelta, lastBlock, lastNode) ←
      (if offset = finOffset then
        .ok (finBlock, finLen, finLastBlock, finLastNode)
      else do
        let block ← readBlock input offset a.bb
        .ok (block, a.bb, flagWord a false, flagWord a false) : Res (List Byte × Nat × Word a × Word a))
    let count := count + BitVec.ofNat (2 * a.w) countDelta
    emit [(who, ⟨block, count, lastBlock, lastNode⟩)]
    let words := compressBlock block words count lastBlock lastNode
    if offset = finOffset then
      pure words
    else do
      let offset ← addUsize input.length offset (stride.padded a)
      compress1IterT who a compressBlock readBlock input finOffset finBlock finLen finLastBlock finLastNode stride
        fuel offset count words

/-- `compress1_loop`, logged. blake2b/src/portable.rs 119-168, blake2s/src/portable.rs 115-164,
blake2b/src/avx2.rs 427-478, blake2s/src/sse41.rs 405-456. -/
def compress1LoopT (who : ι) (a : Alg) (compressBlock : CompressBlock a)
    (readBlock : List Byte → Nat → Nat → Res (List Byte))
    (input : List Byte) (words : Vector (Word a) 8) (count : Count a) (lastNode finalize : Bool) (stride : Stride) :
    Traced a ι (Vector (Word a) 8) := do
  inputDebugAsserts a input finalize
  let finOffset := input.length - 1
  let finOffset := finOffset - finOffset % stride.padded a
  let buf := List.replicate a.bb 0
  let (finBlock, finLen, _) ← finalBlock a input finOffset buf stride
  let finLastBlock := flagWord a finalize
  let finLastNode := flagWord a (finalize && lastNode)
  compress1IterT who a compressBlock readBlock input finOffset finBlock finLen finLastBlock finLastNode stride
    (input.length + 1) 0 count words

/-- `Implementation::compress1_loop`, logged. blake2b/src/guts.rs 96-116, blake2s/src/guts.rs 96-114. -/
def compress1T (who : ι) : (a : Alg) → Platform → List Byte → Vector (Word a) 8 → Count a → (lastNode finalize : Bool) →
    Stride → Traced a ι (Vector (Word a) 8)
  | .b, .AVX2 => compress1LoopT who .b BAvx2.compressBlock rawRef
  | .b, _ => compress1LoopT who .b (Portable.compressBlock .b) arrayRef
  | .s, .AVX2 => compress1LoopT who .s SSse41.compressBlock rawRef
  | .s, .SSE41 => compress1LoopT who .s SSse41.compressBlock rawRef
  | .s, .Portable => compress1LoopT who .s (Portable.compressBlock .s) arrayRef

end Serial

namespace NWay
variable {a : Alg} {N : Nat} {R ι : Type}

/-- What one run of `compressN_transposed!` is given, lane by lane: the counters and flags are read off the registers.
Ghost; the arguments are those at blake2b/src/avx2.rs 904-911, blake2b/src/sse41.rs 436-443. -/
def passOf (o : VImpl a N R) (ids : Vector ι N) (blocks : Vector (List Byte) N) (lo hi lastBlock lastNode : R) : Pass a ι :=
  (List.finRange N).map fun i => (ids[i], ⟨blocks[i], assembleCount a (o.toInts lo)[i] (o.toInts hi)[i],
    (o.toInts lastBlock)[i], (o.toInts lastNode)[i]⟩)

/-- The main loop of `compressN_loop`, logged. blake2b/src/avx2.rs 879-918, blake2b/src/sse41.rs 413-450,
blake2s/src/sse41.rs 838-877, blake2s/src/avx2.rs 538-581. `ids` are the owners of the lanes. -/
def loopIterT (o : VImpl a N R) (ids : Vector ι N) (inputs : Vector (List Byte) N) (minLen : Nat) (fin : Fin_ a N R)
    (stride : Stride) : Nat → Nat → Vector R 8 → R → R → Traced a ι (Nat × Vector R 8 × R × R)
  | 0, _, _, _, _ => .fail .diverge
  | fuel + 1, offset, h, lo, hi => do
    let (blocks, countsDelta, lastBlock, lastNode) ←
      (if offset = fin.offset then
        .ok (fin.blocks, fin.countsDelta, fin.lastBlock, fin.lastNode)
      else do
        let blocks ← inputs.mapM fun input => rawRef input offset a.bb
        .ok (blocks, o.set1 (BitVec.ofNat a.w a.bb), o.set1 0, o.set1 0) : Res (Vector (List Byte) N × R × R × R))
    let m := o.transposeMsg blocks
    let (lo, hi) := addToCounts o lo hi countsDelta
    emit (passOf o ids blocks lo hi lastBlock lastNode)
    let h := compressTransposed o h m lo hi lastBlock lastNode
    if offset = fin.offset then
      pure (offset, h, lo, hi)
    else do
      let offset ← addUsize minLen offset (stride.padded a)
      loopIterT o ids inputs minLen fin stride fuel offset h lo hi

/-- `compressN_loop`, logged. blake2b/src/avx2.rs 831-929 (`compress4_loop`), blake2b/src/sse41.rs 376-461
(`compress2_loop`), blake2s/src/sse41.rs 790-888 (`compress4_loop`), blake2s/src/avx2.rs 461-592 (`compress8_loop`). -/
def compressLoopT (o : VImpl a N R) (ids : Vector ι N) (jobs : Vector (Job a) N) (finalize : Bool) (stride : Stride) :
    Traced a ι (Vector (Job a) N) := do
  (jobs.toList.forM fun job => inputDebugAsserts a job.input finalize : Res Unit)
  let h := o.transposeState (jobs.map (·.words))
  let (lo, hi) := loadCounts o jobs
  let minLen ← (match listMin (jobs.toList.map fun job => job.input.length) with
    | some n => .ok n
    | none => .error .panic : Res Nat)
  let finOffset := minLen - 1
  let finOffset := finOffset - finOffset % stride.padded a
  let fins ← (jobs.mapM fun job => finalBlock a job.input finOffset (List.replicate a.bb 0) stride : Res _)
  let finDelta := o.setN (fins.map fun f => BitVec.ofNat a.w f.2.1)
  let (finLastBlock, finLastNode) :=
    if finalize then
      (flagsVec o (fins.map fun f => f.2.2),
       flagsVec o (Vector.ofFn fun i => fins[i].2.2 && jobs[i].lastNode))
    else (o.set1 0, o.set1 0)
  let fin : Fin_ a N R :=
    { offset := finOffset, blocks := fins.map (·.1), countsDelta := finDelta,
      lastBlock := finLastBlock, lastNode := finLastNode }
  let (offset, h, lo, hi) ← loopIterT o ids (jobs.map (·.input)) minLen fin stride (minLen + 1) 0 h lo hi
  -- Write out the results.
  let words := o.untransposeState h
  let counts := storeCounts o lo hi
  let maxConsumed := offset + stride.padded a
  ((Vector.finRange N).mapM fun i => do
    let consumed := min maxConsumed jobs[i].input.length
    let input ← sliceFrom jobs[i].input consumed
    .ok { input := input, words := words[i], count := counts[i], lastNode := jobs[i].lastNode } : Res (Vector (Job a) N))

end NWay

/-- `Implementation::compress4_loop` (BLAKE2b, guts.rs 129-134), `compress8_loop` (BLAKE2s, guts.rs 127-132), logged. -/
def compressHiT {ι : Type} : (a : Alg) → Platform → Vector ι (hiDegree a) → Vector (Job a) (hiDegree a) →
    (finalize : Bool) → Stride → Traced a ι (Vector (Job a) (hiDegree a))
  | .b, .AVX2 => NWay.compressLoopT BAvx2.impl
  | .s, .AVX2 => NWay.compressLoopT SAvx2.impl
  | _, _ => fun _ _ _ _ => .fail .panic -- "unsupported"

/-- `Implementation::compress2_loop` (BLAKE2b, guts.rs 119-126), `compress4_loop` (BLAKE2s, guts.rs 117-124), logged. -/
def compressLoT {ι : Type} : (a : Alg) → Platform → Vector ι (loDegree a) → Vector (Job a) (loDegree a) →
    (finalize : Bool) → Stride → Traced a ι (Vector (Job a) (loDegree a))
  | .b, .AVX2 => NWay.compressLoopT BSse41.impl
  | .b, .SSE41 => NWay.compressLoopT BSse41.impl
  | .s, .AVX2 => NWay.compressLoopT SSse41.impl
  | .s, .SSE41 => NWay.compressLoopT SSse41.impl
  | _, .Portable => fun _ _ _ _ => .fail .panic -- "unsupported"

/-- `Source` with a logged `pull`. blake2b/src/many.rs 100, 140, 215, 389. -/
structure SourceT (a : Alg) (ι E : Type) where
  pull : ι → E → Traced a ι (E × Option (JobRef a ι))
  getWords : E → Vector (Word a) 8
  setWords : E → Vector (Word a) 8 → E

/-- The source without the log. Ghost; no line of /repo. -/
def SourceT.erase {a : Alg} {ι E : Type} (src : SourceT a ι E) : Source a ι E where
  pull i e := (src.pull i e).erase
  getWords := src.getWords
  setWords := src.setWords

namespace Many
variable {a : Alg} {ι E : Type} [DecidableEq ι]

/-- `fill_jobs_vec`, logged. many.rs 99-111. -/
def fillJobsVecT (src : SourceT a ι E) (targetLen : Nat) :
    (ι → E) → List ι → List (JobRef a ι) → Traced a ι ((ι → E) × List ι × List (JobRef a ι))
  | mem, [], vec => pure (mem, [], vec)
  | mem, i :: queue, vec =>
    if vec.length < targetLen then do
      let (e, job) ← src.pull i (mem i)
      let mem := store mem i e
      match job with
      | none => fillJobsVecT src targetLen mem queue vec
      | some job => do
        let vec ← push vec job
        fillJobsVecT src targetLen mem queue vec
    else pure (mem, i :: queue, vec)

/-- Run an N-way loop on the first `N` jobs, logged. many.rs 156-157, 169-170. -/
def runWideT (src : SourceT a ι E) (N : Nat) (loopN : Vector ι N → Vector (Job a) N → Traced a ι (Vector (Job a) N))
    (mem : ι → E) (vec : List (JobRef a ι)) : Traced a ι ((ι → E) × List (JobRef a ι)) :=
  if h : (vec.take N).length = N then do
    let ids : Vector ι N := ⟨((vec.take N).map (·.id)).toArray, by simpa using h⟩
    let jobs : Vector (Job a) N := ⟨((vec.take N).map (deref src.erase mem)).toArray, by simpa using h⟩
    let jobs ← loopN ids jobs
    let (mem, refs) := writeBack src.erase mem ((vec.take N).zip jobs.toList)
    pure (mem, refs ++ vec.drop N)
  else .fail .panic

/-- The `loop` of one level, logged. many.rs 151-159, 164-172. -/
def levelIterT (src : SourceT a ι E) (N : Nat) (loopN : Vector ι N → Vector (Job a) N → Traced a ι (Vector (Job a) N)) :
    Nat → (ι → E) → List ι → List (JobRef a ι) → Traced a ι ((ι → E) × List ι × List (JobRef a ι))
  | 0, _, _, _ => .fail .diverge
  | fuel + 1, mem, queue, vec => do
    let (mem, queue, vec) ← fillJobsVecT src N mem queue vec
    if vec.length < N then pure (mem, queue, vec)
    else do
      let (mem, vec) ← runWideT src N loopN mem vec
      let vec ← evictFinished vec N
      levelIterT src N loopN fuel mem queue vec

/-- One level, logged. many.rs 150-160, 163-173. -/
def levelT (src : SourceT a ι E) (degree N : Nat) (loopN : Vector ι N → Vector (Job a) N → Traced a ι (Vector (Job a) N))
    (mem : ι → E) (queue : List ι) (vec : List (JobRef a ι)) : Traced a ι ((ι → E) × List ι × List (JobRef a ι)) :=
  if degree ≥ N then levelIterT src N loopN (queue.length + vec.length + 1) mem queue vec
  else pure (mem, queue, vec)

/-- Body of the final `for` loop, logged. many.rs 175-183. -/
def runOneT (src : SourceT a ι E) (imp : Platform) (finalize : Bool) (stride : Stride) (mem : ι → E)
    (job : JobRef a ι) : Traced a ι (ι → E) := do
  let words ← compress1T job.id a imp job.input (src.getWords (mem job.id)) job.count job.lastNode finalize stride
  pure (store mem job.id (src.setWords (mem job.id) words))

/-- The final `for` loop over the jobs still in the vector, logged. many.rs 175-183. -/
def runVecT (src : SourceT a ι E) (imp : Platform) (finalize : Bool) (stride : Stride) :
    (ι → E) → List (JobRef a ι) → Traced a ι (ι → E)
  | mem, [] => pure mem
  | mem, job :: vec => do
    let mem ← runOneT src imp finalize stride mem job
    runVecT src imp finalize stride mem vec

/-- The final `for` loop over the jobs still in the iterator, logged. many.rs 175-183. -/
def runQueueT (src : SourceT a ι E) (imp : Platform) (finalize : Bool) (stride : Stride) :
    (ι → E) → List ι → Traced a ι (ι → E)
  | mem, [] => pure mem
  | mem, i :: queue => do
    let (e, job) ← src.pull i (mem i)
    let mem := store mem i e
    match job with
    | none => runQueueT src imp finalize stride mem queue
    | some job => do
      let mem ← runOneT src imp finalize stride mem job
      runQueueT src imp finalize stride mem queue

/-- `compress_many`, logged. many.rs 134-184. -/
def compressManyT (src : SourceT a ι E) (imp : Platform) (finalize : Bool) (stride : Stride)
    (mem : ι → E) (queue : List ι) : Traced a ι (ι → E) := do
  let (mem, queue, vec) ← levelT src (implDegree a imp) (hiDegree a)
    (fun ids jobs => compressHiT a imp ids jobs finalize stride) mem queue []
  let (mem, queue, vec) ← levelT src (implDegree a imp) (loDegree a)
    (fun ids jobs => compressLoT a imp ids jobs finalize stride) mem queue vec
  let mem ← runVecT src imp finalize stride mem vec
  runQueueT src imp finalize stride mem queue

end Many

namespace State
variable {a : Alg} {ι : Type}

/-- `State::compress_buffer_if_possible`, logged. lib.rs 434-450 (426-442). -/
def compressBufferIfPossibleT (who : ι) (s : State a) (input : List Byte) : Traced a ι (State a × List Byte) :=
  if s.buflen > 0 then do
    let (s, input) ← fillBuf s input
    if !input.isEmpty then do
      let words ← compress1T who a s.implementation s.buf s.words s.count s.lastNode false .Serial
      pure ({ s with words := words, count := s.count + BitVec.ofNat (2 * a.w) a.bb, buflen := 0 }, input)
    else pure (s, input)
  else pure (s, input)

/-- `State::update`, logged. lib.rs 453-478 (445-470). -/
def updateT (who : ι) (s : State a) (input : List Byte) : Traced a ι (State a) := do
  let (s, input) ← compressBufferIfPossibleT who s input
  let end_ := input.length - 1
  let end_ := end_ - end_ % a.bb
  let (s, input) ← (if end_ > 0 then do
      let blocks ← sliceTo input end_
      let words ← compress1T who a s.implementation blocks s.words s.count s.lastNode false .Serial
      let input ← sliceFrom input end_
      pure ({ s with words := words, count := s.count + BitVec.ofNat (2 * a.w) end_ }, input)
    else pure (s, input) : Traced a ι (State a × List Byte))
  let (s, _) ← fillBuf s input
  pure s

/-- `State::finalize`, logged. lib.rs 482-496 (474-488). -/
def finalizeT (who : ι) (s : State a) : Traced a ι (Hash a) := do
  let input ← sliceTo s.buf s.buflen
  let words ← compress1T who a s.implementation input s.words s.count s.lastNode true .Serial
  pure { bytes := stateWordsToBytes a words, len := s.hashLength }

end State

/-- `Params::hash`, logged. lib.rs 208-226 (199-217). -/
def Params.hashT {a : Alg} {ι : Type} (who : ι) (p : Params a) (input : List Byte) : Traced a ι (Hash a) :=
  if p.keyLength.toNat > 0 then do
    let s ← p.toState.updateT who input
    s.finalizeT who
  else do
    let words ← compress1T who a p.implementation input p.toWords 0 p.lastNode true .Serial
    pure { bytes := stateWordsToBytes a words, len := p.hashLength }

/-- The closure of `update_many`'s `flat_map`, logged. many.rs 230-260. -/
def updateManyPullT {a : Alg} {ι : Type} (i : ι) (inp : List Byte) (state : State a) :
    Traced a ι (State a × Option (JobRef a ι)) := do
  let (state, input) ← state.compressBufferIfPossibleT i inp
  if input.isEmpty then pure (state, none)
  else do
    let lastBlockStart ← checkedSub input.length 1
    let lastBlockStart := lastBlockStart - lastBlockStart % a.bb
    let blocks ← sliceTo input lastBlockStart
    let lastBlock ← sliceFrom input lastBlockStart
    let buf ← copyRange state.buf 0 lastBlock.length lastBlock
    let state : State a := { state with buf := buf, buflen := lastBlock.length % 256 }
    if blocks.isEmpty then pure (state, none)
    else
      let count := state.count
      let state : State a := { state with count := state.count + BitVec.ofNat (2 * a.w) blocks.length }
      pure (state, some { id := i, input := blocks, count := count, lastNode := state.lastNode })

/-- `update_many`, logged. many.rs 213-264. The owner of a compression is the position of the state in the list. -/
def updateManyT {a : Alg} (pairs : List (State a × List Byte)) : Traced a (Fin pairs.length) (List (State a)) :=
  match pairs with
  | [] => pure []
  | first :: rest => do
    let pairs := first :: rest
    let src : SourceT a (Fin pairs.length) (State a) := {
      pull := fun i s => updateManyPullT i (pairs[i]).2 s
      getWords := fun s => s.words
      setWords := fun s w => { s with words := w } }
    let mem ← Many.compressManyT src first.1.implementation false .Serial
      (fun i : Fin pairs.length => (pairs[i]).1) (List.finRange pairs.length)
    pure (List.ofFn mem)

/-- `HashManyJob::new`, logged. many.rs 287-319. -/
def HashManyJob.newT {a : Alg} {ι : Type} (who : ι) (params : Params a) (input : List Byte) : Traced a ι (HashManyJob a) := do
  let words := params.toWords
  let (words, count, finished) ← (if params.keyLength.toNat > 0 then do
      let finalization := input.isEmpty
      let words ← compress1T who a params.implementation params.keyBlock words 0 params.lastNode finalization .Serial
      pure (words, BitVec.ofNat (2 * a.w) a.bb, finalization)
    else pure (words, 0, false) : Traced a ι (Vector (Word a) 8 × Count a × Bool))
  pure { words := words, count := count, lastNode := params.lastNode, hashLength := params.hashLength,
         input := input, finished := finished, implementation := params.implementation }

/-- `hash_many`, logged. many.rs 386-419. -/
def hashManyT {a : Alg} (jobs : List (HashManyJob a)) : Traced a (Fin jobs.length) (List (HashManyJob a)) :=
  match jobs with
  | [] => pure []
  | first :: rest => do
    let jobs := first :: rest
    let src : SourceT a (Fin jobs.length) (HashManyJob a) := {
      pull := fun i j => (hashManyPull i j : Res _)
      getWords := fun j => j.words
      setWords := fun j w => { j with words := w } }
    let mem ← Many.compressManyT src first.implementation true .Serial
      (fun i : Fin jobs.length => jobs[i]) (List.finRange jobs.length)
    pure (List.ofFn mem)

/-! ## Tree mode -/

/-- A node of the tree: a leaf, or the root (`none`). blake2b/src/blake2bp.rs 219-220 (`leaf_words`, `root_words`). -/
abbrev Node (a : Alg) := Option (Fin (parDegree a))

/-- `compress_many` over an array of leaf words, logged. blake2bp.rs 130-143, 287-295, 369-385 (blake2sp.rs 138-151, 294-302,
376-392). -/
def compressLeavesT {a : Alg} (mkJob : Fin (parDegree a) → Res (List Byte × Count a × Bool)) (imp : Platform)
    (finalize : Bool) (leaves : LeafWords a) : Traced a (Node a) (LeafWords a) := do
  let src : SourceT a (Fin (parDegree a)) (Vector (Word a) 8) := {
    pull := fun i w => do
      let (input, count, lastNode) ← mkJob i
      pure (w, some { id := i, input := input, count := count, lastNode := lastNode })
    getWords := fun w => w
    setWords := fun _ w => w }
  let mem ← (Many.compressManyT src imp finalize .Parallel (fun i => leaves[i]) (List.finRange (parDegree a))).relabel some
  pure (Vector.ofFn mem)

/-- `finalize_root_words`, logged. blake2bp.rs 449-476 (blake2sp.rs 456-483). -/
def finalizeRootWordsT {a : Alg} (leafWords : LeafWords a) (rootWords : Vector (Word a) 8) (hashLength : BitVec 8)
    (imp : Platform) : Traced a (Node a) (Hash a) := do
  let block := (leafWords.toList.flatMap fun words => words.toList).flatMap fun word => toLE a.wb word
  let words ← compress1T none a imp block rootWords 0 true true .Serial
  pure { bytes := stateWordsToBytes a words, len := hashLength }

namespace PState
variable {a : Alg}

/-- `State::compress_to_leaves`, logged. blake2bp.rs 279-298 (blake2sp.rs 286-305). -/
def compressToLeavesT (s : PState a) (input : List Byte) : Traced a (Node a) (PState a) := do
  let leaves ← compressLeavesT (fun i => do
      let inp ← sliceFrom input (i.val * a.bb)
      .ok (inp, s.count, false)) s.implementation false s.leafWords
  pure { s with leafWords := leaves, count := s.count + BitVec.ofNat (2 * a.w) (input.length / parDegree a) }

/-- First part of `State::update`, logged. blake2bp.rs 306-337 (blake2sp.rs 313-344). -/
def updateBufferedT (s : PState a) (input : List Byte) : Traced a (Node a) (PState a × List Byte) :=
  if s.bufLen > 0 then do
    let (s, input) ← s.fillBuf input
    if !input.isEmpty then
      if input.length > (parDegree a - 1) * a.bb then do
        let s ← s.compressToLeavesT s.buf
        pure ({ s with bufLen := 0 }, input)
      else do
        let front ← sliceTo s.buf (parDegree a * a.bb)
        let s ← s.compressToLeavesT front
        let bufLen := (parDegree a * a.bb) % 65536
        let bufFront ← sliceTo s.buf (parDegree a * a.bb)
        let bufBack ← sliceFrom s.buf (parDegree a * a.bb)
        let bufFront ← copyRange bufFront 0 bufFront.length bufBack
        pure ({ s with bufLen := bufLen, buf := bufFront ++ bufBack }, input)
    else pure (s, input)
  else pure (s, input)

/-- Second part of `State::update`, logged. blake2bp.rs 343-354 (blake2sp.rs 350-361). -/
def updateBulkT (s : PState a) (input : List Byte) : Traced a (Node a) (PState a × List Byte) :=
  let neededTail := (parDegree a - 1) * a.bb + 1
  let bulkBytes := input.length - neededTail
  let bulkBytes := bulkBytes - bulkBytes % (parDegree a * a.bb)
  if bulkBytes > 0 then do
    let bulk ← sliceTo input bulkBytes
    let s ← s.compressToLeavesT bulk
    let input ← sliceFrom input bulkBytes
    pure (s, input)
  else pure (s, input)

/-- `State::update`, logged. blake2bp.rs 301-361 (blake2sp.rs 308-368). -/
def updateT (s : PState a) (input : List Byte) : Traced a (Node a) (PState a) := do
  let (s, input) ← s.updateBufferedT input
  let (s, input) ← s.updateBulkT input
  let (s, input) ← s.fillBuf input
  rassert (input.length == 0)
  pure s

/-- `State::finalize`, logged. blake2bp.rs 365-395 (blake2sp.rs 372-402). -/
def finalizeT (s : PState a) : Traced a (Node a) (Hash a) := do
  let leaves ← compressLeavesT (fun i => do
      let upTo ← sliceTo s.buf s.bufLen
      let input ← sliceFrom upTo (min (i.val * a.bb) s.bufLen)
      .ok (input, s.count, decide (i.val = parDegree a - 1))) s.implementation true s.leafWords
  finalizeRootWordsT leaves s.rootWords s.hashLength s.implementation

end PState

/-- `Params::hash`, logged. blake2bp.rs 123-151 (blake2sp.rs 131-159). -/
def PParams.hashT {a : Alg} (p : PParams a) (input : List Byte) : Traced a (Node a) (Hash a) :=
  if p.keyLength.toNat > 0 then do
    let s ← p.toState
    let s ← s.updateT input
    s.finalizeT
  else do
    let (leafWords, rootWords) ← p.toWords
    let leaves ← compressLeavesT (fun i => do
        let inp ← sliceFrom input (min input.length (i.val * a.bb))
        .ok (inp, 0, decide (i.val = parDegree a - 1))) p.implementation true leafWords
    finalizeRootWordsT leaves rootWords p.hashLength p.implementation

/-! ## Client programs -/

/-- The way `many::hash_many` is used: for each request build parameters and create a job (many.rs 287-320), then run all jobs
(many.rs 386-419). Everything done for request `i` is logged as `i`'s. -/
def hashAllT {a : Alg} (reqs : List (Platform × List Spec.Setter × List Byte)) : Traced a Nat (List (HashManyJob a)) := do
  let items ← (reqs.mapM fun q => do
    let p ← (Params.new a q.1).build q.2.1
    .ok (p, q.2.2) : Res _)
  let jobs ← items.zipIdx.mapM fun q => HashManyJob.newT q.2 q.1.1 q.1.2
  (hashManyT jobs).relabel Fin.val

/-- `Spec.Op.exec` of `Verif/Model/Api.lean`, logged. What is done for a state is logged under the state's number.
See there for the lines of /repo. -/
def Spec.Op.execT {a : Alg} (dbg : Bool) (ss : List (State a)) : Spec.Op Platform → Traced a Nat (List (State a) × Spec.Obs)
  | .update i x => do
    let s ← (getState ss i : Res (State a))
    let s ← s.updateT i x
    pure (ss.set i s, .done)
  | .updateMany jobs => do
    let pairs ← (jobs.mapM fun j => do
      let s ← getState ss j.1
      .ok (s, j.2) : Res _)
    let out ← (updateManyT pairs).relabel fun k => (jobs.map Prod.fst).getD k.val 0
    pure ((jobs.zip out).foldl (fun ss p => ss.set p.1.1 p.2) ss, .done)
  | .write i x => do
    let s ← (getState ss i : Res (State a))
    let s ← s.updateT i x
    pure (ss.set i s, .written x.length)
  | .finalize i => do
    let s ← (getState ss i : Res (State a))
    let h ← s.finalizeT i
    let d ← h.asBytes
    pure (ss, .digest d)
  | op => (op.exec dbg ss : Res (List (State a) × Spec.Obs))

/-- Perform a history, keeping the log of every operation. Client side; models no line of /repo. -/
def execAllT {a : Alg} (dbg : Bool) :
    List (State a) → List (Spec.Op Platform) → Res (List (State a) × List (Spec.Obs × List (Pass a Nat)))
  | ss, [] => .ok (ss, [])
  | ss, op :: ops => do
    let ((ss, o), log) ← (op.execT dbg ss : Res _)
    let (ss, os) ← execAllT dbg ss ops
    .ok (ss, (o, log) :: os)

/-- `Spec.POp.exec` of `Verif/Model/Api.lean`, logged. What is done for a node of a state is logged under the state's number and
the node. See there for the lines of /repo. -/
def Spec.POp.execT {a : Alg} (dbg : Bool) (ss : List (PState a)) :
    Spec.POp Platform → Traced a (Nat × Node a) (List (PState a) × Spec.Obs)
  | .update i x => do
    let s ← (getState ss i : Res (PState a))
    let s ← (s.updateT x).relabel fun n => (i, n)
    pure (ss.set i s, .done)
  | .write i x => do
    let s ← (getState ss i : Res (PState a))
    let s ← (s.updateT x).relabel fun n => (i, n)
    pure (ss.set i s, .written x.length)
  | .finalize i => do
    let s ← (getState ss i : Res (PState a))
    let h ← s.finalizeT.relabel fun n => (i, n)
    let d ← h.asBytes
    pure (ss, .digest d)
  | op => (op.exec dbg ss : Res (List (PState a) × Spec.Obs))

/-- Perform a history on tree states, keeping the log of every operation. Client side; models no line of /repo. -/
def pexecAllT {a : Alg} (dbg : Bool) :
    List (PState a) → List (Spec.POp Platform) → Res (List (PState a) × List (Spec.Obs × List (Pass a (Nat × Node a))))
  | ss, [] => .ok (ss, [])
  | ss, op :: ops => do
    let ((ss, o), log) ← (op.execT dbg ss : Res _)
    let (ss, os) ← pexecAllT dbg ss ops
    .ok (ss, (o, log) :: os)

end Blake2
