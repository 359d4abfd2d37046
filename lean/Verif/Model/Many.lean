import Verif.Model.Lib
/-!
# Model of `many.rs`

The jobs given to `compress_many` come from a lazy iterator over a collection of owned elements (`State`s,
`HashManyJob`s, or leaf words), each job holding an exclusive reference to the words inside one element. The model keeps
the elements in a memory `mem : ι → E` indexed by the position of the element in the collection. The iterator is the
list of positions not yet visited together with a function `pull`, which is what the closure of `flat_map` /
`filter` + `map` does when it visits an element: it may modify the element, and it returns `None` or a job.
A job stands for the `Job` struct with `words` replaced by the position of the element it points into.

Line numbers are of blake2b/src/many.rs; blake2s/src/many.rs has the same text at the same lines, with degrees 8 and 4
in place of 4 and 2.
-/
namespace Blake2

/-- `struct Job` (guts.rs 137-142) with the reference `words` given by the position of the element it points into. -/
structure JobRef (a : Alg) (ι : Type) where
  id : ι
  input : List Byte
  count : Count a
  lastNode : Bool

/-- A lazy iterator of jobs over a memory of elements. The `I: Iterator` of blake2b/src/many.rs 100, 140, 215, 389. -/
structure Source (a : Alg) (ι E : Type) where
  /-- visit one element: the closures at many.rs 230-260 and 408-417, blake2bp.rs 130-142, 287-294 and 369-384 -/
  pull : ι → E → Res (E × Option (JobRef a ι))
  /-- the words a job points to -/
  getWords : E → Vector (Word a) 8
  /-- write through that pointer -/
  setWords : E → Vector (Word a) 8 → E

/-- Store into memory. -/
def store {ι E : Type} [DecidableEq ι] (mem : ι → E) (i : ι) (e : E) : ι → E := fun j => if j = i then e else mem j

namespace Many
variable {a : Alg} {ι E : Type} [DecidableEq ι]

/-- `ArrayVec::push` on a `JobsVec`: panics beyond the capacity `MAX_DEGREE`. many.rs 95, 106. -/
def push (vec : List (JobRef a ι)) (job : JobRef a ι) : Res (List (JobRef a ι)) :=
  if vec.length < maxDegree a then .ok (vec ++ [job]) else .error .panic

/-- `fill_jobs_vec`. many.rs 99-111. `queue` is the list of elements the iterator has not visited. The skipping of
elements for which the closure returns `None` (inside `FlatMap::next`) is merged into the same recursion. -/
def fillJobsVec (src : Source a ι E) (targetLen : Nat) :
    (ι → E) → List ι → List (JobRef a ι) → Res ((ι → E) × List ι × List (JobRef a ι))
  | mem, [], vec => .ok (mem, [], vec)
  | mem, i :: queue, vec =>
    if vec.length < targetLen then do
      let (e, job) ← src.pull i (mem i)
      let mem := store mem i e
      match job with
      | none => fillJobsVec src targetLen mem queue vec
      | some job => do
        let vec ← push vec job
        fillJobsVec src targetLen mem queue vec
    else .ok (mem, i :: queue, vec)

/-- One iteration of the loop in `evict_finished`. many.rs 117-131. -/
def evictStep (vec : List (JobRef a ι)) (i : Nat) : Res (List (JobRef a ι)) := do
  rassert (decide (vec.length > i))
  match vec[i]? with
  | some job => if job.input.isEmpty then .ok (vec.eraseIdx i) else .ok vec
  | none => .ok vec

/-- `evict_finished`. many.rs 115-132. -/
def evictFinished (vec : List (JobRef a ι)) (numJobs : Nat) : Res (List (JobRef a ι)) :=
  (List.range numJobs).reverse.foldlM evictStep vec

/-- Dereference a job: read the words it points to. blake2b/src/guts.rs 137-142. -/
def deref (src : Source a ι E) (mem : ι → E) (job : JobRef a ι) : Job a :=
  { input := job.input, words := src.getWords (mem job.id), count := job.count, lastNode := job.lastNode }

/-- Write back what an N-way loop did to its jobs: the words through the pointers, the rest in the vector.
The effect of `&mut Job` (blake2b/src/many.rs 134-184) on the caller's states. -/
def writeBack (src : Source a ι E) (mem : ι → E) : List (JobRef a ι × Job a) → (ι → E) × List (JobRef a ι)
  | [] => (mem, [])
  | (r, j) :: rest =>
    let mem := store mem r.id (src.setWords (mem r.id) j.words)
    let (mem, refs) := writeBack src mem rest
    (mem, { id := r.id, input := j.input, count := j.count, lastNode := j.lastNode } :: refs)

/-- `imp.compressN_loop(array_mut_ref!(jobs_vec, 0, N), ..)`: run the N-way loop on the first `N` jobs. many.rs 156-157,
169-170. `array_mut_ref!` panics when there are fewer than `N`. -/
def runWide (src : Source a ι E) (N : Nat) (loopN : Vector (Job a) N → Res (Vector (Job a) N))
    (mem : ι → E) (vec : List (JobRef a ι)) : Res ((ι → E) × List (JobRef a ι)) :=
  if h : (vec.take N).length = N then do
    let jobs : Vector (Job a) N := ⟨((vec.take N).map (deref src mem)).toArray, by simpa using h⟩
    let jobs ← loopN jobs
    let (mem, refs) := writeBack src mem ((vec.take N).zip jobs.toList)
    .ok (mem, refs ++ vec.drop N)
  else .error .panic

/-- The `loop` of one level. many.rs 151-159, 164-172. The fuel is the number of iterations allowed. -/
def levelIter (src : Source a ι E) (N : Nat) (loopN : Vector (Job a) N → Res (Vector (Job a) N)) :
    Nat → (ι → E) → List ι → List (JobRef a ι) → Res ((ι → E) × List ι × List (JobRef a ι))
  | 0, _, _, _ => .error .diverge
  | fuel + 1, mem, queue, vec => do
    let (mem, queue, vec) ← fillJobsVec src N mem queue vec
    if vec.length < N then .ok (mem, queue, vec)
    else do
      let (mem, vec) ← runWide src N loopN mem vec
      let vec ← evictFinished vec N
      levelIter src N loopN fuel mem queue vec

/-- One level: `if imp.degree() >= N { loop { .. } }`. many.rs 150-160, 163-173. -/
def level (src : Source a ι E) (degree N : Nat) (loopN : Vector (Job a) N → Res (Vector (Job a) N))
    (mem : ι → E) (queue : List ι) (vec : List (JobRef a ι)) : Res ((ι → E) × List ι × List (JobRef a ι)) :=
  if degree ≥ N then levelIter src N loopN (queue.length + vec.length + 1) mem queue vec
  else .ok (mem, queue, vec)

/-- Body of the final `for` loop. many.rs 175-183. -/
def runOne (src : Source a ι E) (imp : Platform) (finalize : Bool) (stride : Stride) (mem : ι → E)
    (job : JobRef a ι) : Res (ι → E) := do
  let words ← compress1 a imp job.input (src.getWords (mem job.id)) job.count job.lastNode finalize stride
  .ok (store mem job.id (src.setWords (mem job.id) words))

/-- The final `for` loop over the jobs still in the iterator. many.rs 175-183. -/
def runQueue (src : Source a ι E) (imp : Platform) (finalize : Bool) (stride : Stride) :
    (ι → E) → List ι → Res (ι → E)
  | mem, [] => .ok mem
  | mem, i :: queue => do
    let (e, job) ← src.pull i (mem i)
    let mem := store mem i e
    match job with
    | none => runQueue src imp finalize stride mem queue
    | some job => do
      let mem ← runOne src imp finalize stride mem job
      runQueue src imp finalize stride mem queue

/-- `compress_many`. many.rs 134-184. -/
def compressMany (src : Source a ι E) (imp : Platform) (finalize : Bool) (stride : Stride)
    (mem : ι → E) (queue : List ι) : Res (ι → E) := do
  let (mem, queue, vec) ← level src (implDegree a imp) (hiDegree a)
    (fun jobs => compressHi a imp jobs finalize stride) mem queue []
  let (mem, queue, vec) ← level src (implDegree a imp) (loDegree a)
    (fun jobs => compressLo a imp jobs finalize stride) mem queue vec
  let mem ← vec.foldlM (runOne src imp finalize stride) mem
  runQueue src imp finalize stride mem queue

end Many

/-- The closure of `update_many`'s `flat_map`. many.rs 230-260. -/
def updateManyPull {a : Alg} {ι : Type} (i : ι) (inp : List Byte) (state : State a) :
    Res (State a × Option (JobRef a ι)) := do
  let (state, input) ← state.compressBufferIfPossible inp
  if input.isEmpty then .ok (state, none)
  else do
    let lastBlockStart ← checkedSub input.length 1
    let lastBlockStart := lastBlockStart - lastBlockStart % a.bb
    let blocks ← sliceTo input lastBlockStart
    let lastBlock ← sliceFrom input lastBlockStart
    let buf ← copyRange state.buf 0 lastBlock.length lastBlock
    let state : State a := { state with buf := buf, buflen := lastBlock.length % 256 }
    if blocks.isEmpty then .ok (state, none)
    else
      let count := state.count
      let state : State a := { state with count := state.count + BitVec.ofNat (2 * a.w) blocks.length }
      .ok (state, some { id := i, input := blocks, count := count, lastNode := state.lastNode })

/-- `update_many`. many.rs 213-264. The pairs are a list; the states are returned in the same order. -/
def updateMany {a : Alg} (pairs : List (State a × List Byte)) : Res (List (State a)) :=
  match pairs with
  | [] => .ok []
  | first :: _ => do
    let src : Source a (Fin pairs.length) (State a) := {
      pull := fun i s => updateManyPull i (pairs[i]).2 s
      getWords := fun s => s.words
      setWords := fun s w => { s with words := w } }
    let mem ← Many.compressMany src first.1.implementation false .Serial
      (fun i : Fin pairs.length => (pairs[i]).1) (List.finRange pairs.length)
    .ok (List.ofFn mem)

/-- `struct HashManyJob`. many.rs 273-281. -/
structure HashManyJob (a : Alg) where
  words : Vector (Word a) 8
  count : Count a
  lastNode : Bool
  hashLength : BitVec 8
  input : List Byte
  finished : Bool
  implementation : Platform

namespace HashManyJob
variable {a : Alg}

/-- `HashManyJob::new`. many.rs 287-319. -/
def new (params : Params a) (input : List Byte) : Res (HashManyJob a) := do
  let words := params.toWords
  let (words, count, finished) ← (if params.keyLength.toNat > 0 then do
      let finalization := input.isEmpty
      let words ← compress1 a params.implementation params.keyBlock words 0 params.lastNode finalization .Serial
      .ok (words, BitVec.ofNat (2 * a.w) a.bb, finalization)
    else .ok (words, 0, false) : Res (Vector (Word a) 8 × Count a × Bool))
  .ok { words := words, count := count, lastNode := params.lastNode, hashLength := params.hashLength,
        input := input, finished := finished, implementation := params.implementation }

/-- `HashManyJob::to_hash`. many.rs 326-332. The assertion is a `debug_assert`. -/
def toHash (dbg : Bool) (j : HashManyJob a) : Res (Hash a) :=
  if dbg && !j.finished then .error .panic
  else .ok { bytes := stateWordsToBytes a j.words, len := j.hashLength }

/-- `impl fmt::Debug for HashManyJob`. many.rs 335-347. -/
def debugFmt (j : HashManyJob a) : String :=
  "HashManyJob { count: " ++ toString j.count.toNat ++
  ", hash_length: " ++ toString j.hashLength.toNat ++
  ", last_node: " ++ fmtBool j.lastNode ++
  ", input_len: " ++ toString j.input.length ++ " }"

end HashManyJob

/-- The closures of `hash_many`'s `filter` and `map`. many.rs 408-417. -/
def hashManyPull {a : Alg} {ι : Type} (i : ι) (j : HashManyJob a) : Res (HashManyJob a × Option (JobRef a ι)) :=
  if j.finished then .ok (j, none)
  else .ok ({ j with finished := true }, some { id := i, input := j.input, count := j.count, lastNode := j.lastNode })

/-- `hash_many`. many.rs 386-419. -/
def hashMany {a : Alg} (jobs : List (HashManyJob a)) : Res (List (HashManyJob a)) :=
  match jobs with
  | [] => .ok []
  | first :: _ => do
    let src : Source a (Fin jobs.length) (HashManyJob a) := {
      pull := hashManyPull
      getWords := fun j => j.words
      setWords := fun j w => { j with words := w } }
    let mem ← Many.compressMany src first.implementation true .Serial
      (fun i : Fin jobs.length => jobs[i]) (List.finRange jobs.length)
    .ok (List.ofFn mem)

/-- `impl fmt::Debug for Job`. guts.rs 144-155. -/
def Job.debugFmt {a : Alg} (j : Job a) : String :=
  "Job { input_len: " ++ toString j.input.length ++
  ", count: " ++ toString j.count.toNat ++
  ", last_node: " ++ fmtBool j.lastNode ++ " }"

end Blake2
