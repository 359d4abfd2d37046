import Verif.Model.Many
/-!
# Model of `many.rs` when the caller's iterator panics

`update_many` and `hash_many` call back into the caller: into the `next` of the iterator they are given, and into the
`as_ref` of the inputs. That code can panic, and the caller can catch the panic and go on using the states and jobs. The
functions below are those of `Verif/Model/Many.lean` with one thing added: a flag telling whether the iterator, asked
for an element after the last of `queue`, panics instead of returning `None`. When it does, the call ends there, and
what is left is the memory at that moment. With the flag unset they are the functions of `Verif/Model/Many.lean`
(`compressManyP_false`). The panic of an `as_ref` is the same: it is the first thing the closure of `update_many` calls
(many.rs 231), so the element it belongs to has not been touched.

Nothing is lost by unwinding itself: the values dropped are the vector of jobs and the adapters around the iterator,
which hold only references.

Line numbers are of blake2b/src/many.rs; blake2s/src/many.rs has the same text at the same lines.
-/
namespace Blake2

/-- How a call ended, with what it left in memory. Not in /repo: Rust's `std::panic::catch_unwind` around a call. -/
inductive Ended (α : Type) where
  | returned (left : α)
  | unwound (left : α)
deriving DecidableEq

namespace Many
variable {a : Alg} {ι E : Type} [DecidableEq ι]

/-- Code that runs until it returns or until the caller's iterator panics; `throw mem` is that panic, `mem` being what
memory holds then. Not in /repo: Rust's unwinding; the iterator is called at blake2b/src/many.rs 105. -/
abbrev Unwinding (ι E α : Type) := ExceptT (ι → E) Res α

/-- `fill_jobs_vec`. many.rs 99-111. The call of `next` is made only if the vector is short (line 104). -/
def fillJobsVecP (src : Source a ι E) (panics : Bool) (targetLen : Nat) :
    (ι → E) → List ι → List (JobRef a ι) → Unwinding ι E ((ι → E) × List ι × List (JobRef a ι))
  | mem, [], vec => if vec.length < targetLen ∧ panics then throw mem else pure (mem, [], vec)
  | mem, i :: queue, vec =>
    if vec.length < targetLen then do
      let (e, job) ← src.pull i (mem i)
      let mem := store mem i e
      match job with
      | none => fillJobsVecP src panics targetLen mem queue vec
      | some job => do
        let vec ← push vec job
        fillJobsVecP src panics targetLen mem queue vec
    else pure (mem, i :: queue, vec)

/-- The `loop` of one level. many.rs 151-159, 164-172. -/
def levelIterP (src : Source a ι E) (panics : Bool) (N : Nat) (loopN : Vector (Job a) N → Res (Vector (Job a) N)) :
    Nat → (ι → E) → List ι → List (JobRef a ι) → Unwinding ι E ((ι → E) × List ι × List (JobRef a ι))
  | 0, _, _, _ => liftM (.error .diverge : Res _)
  | fuel + 1, mem, queue, vec => do
    let (mem, queue, vec) ← fillJobsVecP src panics N mem queue vec
    if vec.length < N then pure (mem, queue, vec)
    else do
      let (mem, vec) ← runWide src N loopN mem vec
      let vec ← evictFinished vec N
      levelIterP src panics N loopN fuel mem queue vec

/-- One level: `if imp.degree() >= N { loop { .. } }`. many.rs 150-160, 163-173. -/
def levelP (src : Source a ι E) (panics : Bool) (degree N : Nat) (loopN : Vector (Job a) N → Res (Vector (Job a) N))
    (mem : ι → E) (queue : List ι) (vec : List (JobRef a ι)) :
    Unwinding ι E ((ι → E) × List ι × List (JobRef a ι)) :=
  if degree ≥ N then levelIterP src panics N loopN (queue.length + vec.length + 1) mem queue vec
  else pure (mem, queue, vec)

/-- The final `for` loop over the jobs still in the iterator. many.rs 175-183. -/
def runQueueP (src : Source a ι E) (panics : Bool) (imp : Platform) (finalize : Bool) (stride : Stride) :
    (ι → E) → List ι → Unwinding ι E (ι → E)
  | mem, [] => if panics then throw mem else pure mem
  | mem, i :: queue => do
    let (e, job) ← src.pull i (mem i)
    let mem := store mem i e
    match job with
    | none => runQueueP src panics imp finalize stride mem queue
    | some job => do
      let mem ← runOne src imp finalize stride mem job
      runQueueP src panics imp finalize stride mem queue

/-- `compress_many`. many.rs 134-184. -/
def compressManyP (src : Source a ι E) (panics : Bool) (imp : Platform) (finalize : Bool) (stride : Stride)
    (mem : ι → E) (queue : List ι) : Unwinding ι E (ι → E) := do
  let (mem, queue, vec) ← levelP src panics (implDegree a imp) (hiDegree a)
    (fun jobs => compressHi a imp jobs finalize stride) mem queue []
  let (mem, queue, vec) ← levelP src panics (implDegree a imp) (loDegree a)
    (fun jobs => compressLo a imp jobs finalize stride) mem queue vec
  let mem ← (vec.foldlM (runOne src imp finalize stride) mem : Res (ι → E))
  runQueueP src panics imp finalize stride mem queue

/-- What the caller is left with. Not in /repo: Rust's `std::panic::catch_unwind` around a call. -/
def ended {n : Nat} (r : Unwinding (Fin n) E (Fin n → E)) : Res (Ended (List E)) := do
  match ← r.run with
  | .ok mem => .ok (.returned (List.ofFn mem))
  | .error mem => .ok (.unwound (List.ofFn mem))

end Many

/-- `update_many`, given an iterator that yields `pairs` and then either ends or panics. many.rs 213-264. An iterator
that panics at the first call does so in `peek` (line 220). The states beyond those of `pairs` never reach the
function. -/
def updateManyP {a : Alg} (panics : Bool) (pairs : List (State a × List Byte)) : Res (Ended (List (State a))) :=
  match pairs with
  | [] => .ok (if panics then .unwound [] else .returned [])
  | first :: _ => do
    let src : Source a (Fin pairs.length) (State a) := {
      pull := fun i s => updateManyPull i (pairs[i]).2 s
      getWords := fun s => s.words
      setWords := fun s w => { s with words := w } }
    Many.ended (Many.compressManyP src panics first.1.implementation false .Serial
      (fun i : Fin pairs.length => (pairs[i]).1) (List.finRange pairs.length))

/-- `hash_many`, given an iterator that yields `jobs` and then either ends or panics. many.rs 386-419. -/
def hashManyP {a : Alg} (panics : Bool) (jobs : List (HashManyJob a)) : Res (Ended (List (HashManyJob a))) :=
  match jobs with
  | [] => .ok (if panics then .unwound [] else .returned [])
  | first :: _ => do
    let src : Source a (Fin jobs.length) (HashManyJob a) := {
      pull := hashManyPull
      getWords := fun j => j.words
      setWords := fun j w => { j with words := w } }
    Many.ended (Many.compressManyP src panics first.implementation true .Serial
      (fun i : Fin jobs.length => jobs[i]) (List.finRange jobs.length))

end Blake2
