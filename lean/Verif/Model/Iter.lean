import Verif.Model.Many
/-!
# Model of `many.rs` with the iterator of the client

In `Verif/Model/Many.lean` the elements the client's iterator hands out are a list. Here the iterator is a state machine
of the client, `next : σ → Option κ × σ`, about which nothing is assumed: in particular it may return `Some` after
`None`. The adapters of Rust's standard library which `update_many`, `hash_many` and `compress_many` put around it
(`Peekable`, `FlatMap`, `Filter` and `Map`, `Fuse`) are modelled from their documentation and source; they decide how often the
client's `next` is called, and so which elements are touched. The functions return, besides memory, the state in which
the client's iterator is left (a client that passes `&mut iter` sees it).

The elements are in a memory `mem : ι → E` with any type `ι` of places. An item `κ` handed out by the iterator has a place
`place : κ → ι`: the item is a reference (`hash_many`) or a reference and an input (`update_many`).

An iterator need not end: loops have fuel, and running out of it is the fault `diverge`.

Line numbers are of blake2b/src/many.rs; blake2s/src/many.rs has the same text at the same lines.
-/
namespace Blake2
namespace Iter

/-- `std::iter::Peekable`: the iterator, and the item it was made to hand out early, if any. many.rs 220, 391. -/
structure Peekable (σ κ : Type) where
  iter : σ
  peeked : Option (Option κ)

/-- `Peekable::peek`: the first time, ask the iterator and keep the answer. many.rs 221, 392. -/
def Peekable.peek {σ κ : Type} (next : σ → Option κ × σ) (p : Peekable σ κ) : Option κ × Peekable σ κ :=
  match p.peeked with
  | some answer => (answer, p)
  | none =>
    let (answer, iter) := next p.iter
    (answer, { iter := iter, peeked := some answer })

/-- `Peekable::next`: the kept answer, be it `None`, or the iterator's next. many.rs 230, 407. -/
def Peekable.next {σ κ : Type} (next : σ → Option κ × σ) (p : Peekable σ κ) : Option κ × Peekable σ κ :=
  match p.peeked with
  | some answer => (answer, { p with peeked := none })
  | none =>
    let (answer, iter) := next p.iter
    (answer, { iter := iter, peeked := none })

/-- `std::iter::Fuse`: once the iterator has returned `None` it is not asked again. many.rs 145; `FlatMap` has one too
around the iterator it flattens. In Rust the iterator is then dropped; here its state is kept, to be looked at. -/
structure Fuse (τ : Type) where
  iter : τ
  done : Bool

/-- `Fuse::next` for an iterator without effects on memory. Rust's standard library, used inside `FlatMap`, many.rs 230. -/
def Fuse.next {τ κ : Type} (next : τ → Option κ × τ) (f : Fuse τ) : Option κ × Fuse τ :=
  if f.done then (none, f)
  else
    match next f.iter with
    | (none, it) => (none, { iter := it, done := true })
    | (some x, it) => (some x, { iter := it, done := false })

section
variable {a : Alg} {ι E κ τ : Type} [DecidableEq ι]

/-- `FlatMap::next` with a closure that returns an `Option`, and `Map::next` over `Filter::next`: ask for items until one
gives a job or there are none. many.rs 230-260, 408-417. `visit` is the closure, acting on the element at the item's place;
for `filter` and `map` it is both closures in one. -/
def jobNext (inner : τ → Option κ × τ) (place : κ → ι) (visit : κ → E → Res (E × Option (JobRef a ι))) :
    Nat → (ι → E) → τ → Res (Option (JobRef a ι) × (ι → E) × τ)
  | 0, _, _ => .error .diverge
  | fuel + 1, mem, it =>
    match inner it with
    | (none, it) => .ok (none, mem, it)
    | (some x, it) => do
      let (e, job) ← visit x (mem (place x))
      let mem := store mem (place x) e
      match job with
      | none => jobNext inner place visit fuel mem it
      | some job => .ok (some job, mem, it)

/-- `jobs_iter.next()`, `jobs_iter` being `jobs.into_iter().fuse()`. many.rs 145. -/
def fusedNext (next : (ι → E) → τ → Res (Option (JobRef a ι) × (ι → E) × τ)) (mem : ι → E) (f : Fuse τ) :
    Res (Option (JobRef a ι) × (ι → E) × Fuse τ) :=
  if f.done then .ok (none, mem, f)
  else do
    let (job, mem, it) ← next mem f.iter
    match job with
    | none => .ok (none, mem, { iter := it, done := true })
    | some job => .ok (some job, mem, { iter := it, done := false })

variable (next : (ι → E) → τ → Res (Option (JobRef a ι) × (ι → E) × τ))

/-- `fill_jobs_vec`. many.rs 99-111. -/
def fillJobsVec (targetLen : Nat) :
    Nat → (ι → E) → τ → List (JobRef a ι) → Res ((ι → E) × τ × List (JobRef a ι))
  | 0, _, _, _ => .error .diverge
  | fuel + 1, mem, it, vec =>
    if vec.length < targetLen then do
      let (job, mem, it) ← next mem it
      match job with
      | some job => do
        let vec ← Many.push vec job
        fillJobsVec targetLen fuel mem it vec
      | none => .ok (mem, it, vec)
    else .ok (mem, it, vec)

/-- The `loop` of one level. many.rs 151-159, 164-172. -/
def levelIter (src : Source a ι E) (N : Nat) (loopN : Vector (Job a) N → Res (Vector (Job a) N)) :
    Nat → (ι → E) → τ → List (JobRef a ι) → Res ((ι → E) × τ × List (JobRef a ι))
  | 0, _, _, _ => .error .diverge
  | fuel + 1, mem, it, vec => do
    let (mem, it, vec) ← fillJobsVec next N (N + 1) mem it vec
    if vec.length < N then .ok (mem, it, vec)
    else do
      let (mem, vec) ← Many.runWide src N loopN mem vec
      let vec ← Many.evictFinished vec N
      levelIter src N loopN fuel mem it vec

/-- One level: `if imp.degree() >= N { loop { .. } }`. many.rs 150-160, 163-173. -/
def level (src : Source a ι E) (degree N : Nat) (loopN : Vector (Job a) N → Res (Vector (Job a) N)) (fuel : Nat)
    (mem : ι → E) (it : τ) (vec : List (JobRef a ι)) : Res ((ι → E) × τ × List (JobRef a ι)) :=
  if degree ≥ N then levelIter next src N loopN fuel mem it vec
  else .ok (mem, it, vec)

/-- The final `for` loop over the jobs still in the iterator. many.rs 175-183. -/
def runRest (src : Source a ι E) (imp : Platform) (finalize : Bool) (stride : Stride) :
    Nat → (ι → E) → τ → Res ((ι → E) × τ)
  | 0, _, _ => .error .diverge
  | fuel + 1, mem, it => do
    let (job, mem, it) ← next mem it
    match job with
    | none => .ok (mem, it)
    | some job => do
      let mem ← Many.runOne src imp finalize stride mem job
      runRest src imp finalize stride fuel mem it

/-- `compress_many`, given an iterator of jobs. many.rs 134-184. Of `src` only the way to the words of an element is used. -/
def compressMany (src : Source a ι E) (imp : Platform) (finalize : Bool) (stride : Stride) (fuel : Nat)
    (mem : ι → E) (it : τ) : Res ((ι → E) × τ) := do
  let jobsIter : Fuse τ := { iter := it, done := false }
  let (mem, jobsIter, vec) ← level (fusedNext next) src (implDegree a imp) (hiDegree a)
    (fun jobs => compressHi a imp jobs finalize stride) fuel mem jobsIter []
  let (mem, jobsIter, vec) ← level (fusedNext next) src (implDegree a imp) (loDegree a)
    (fun jobs => compressLo a imp jobs finalize stride) fuel mem jobsIter vec
  let mem ← vec.foldlM (Many.runOne src imp finalize stride) mem
  let (mem, jobsIter) ← runRest (fusedNext next) src imp finalize stride fuel mem jobsIter
  .ok (mem, jobsIter.iter)

end
end Iter

open Iter in
/-- `update_many`, given the client's iterator. many.rs 213-264. The items are pairs of a place where there is a state
and an input. Returned are memory and the state of the client's iterator. -/
def updateManyI {a : Alg} {ι σ : Type} [DecidableEq ι] (fuel : Nat) (next : σ → Option (ι × List Byte) × σ) (s : σ)
    (mem : ι → State a) : Res ((ι → State a) × σ) :=
  match Peekable.peek next { iter := s, peeked := none } with
  | (none, pairs) => .ok (mem, pairs.iter)
  | (some (i, _), pairs) => do
    let words : Source a ι (State a) := {
      pull := fun _ s => .ok (s, none)
      getWords := fun s => s.words
      setWords := fun s w => { s with words := w } }
    let (mem, it) ← compressMany
      (jobNext (Fuse.next (Peekable.next next)) (fun x => x.1) (fun x s => updateManyPull x.1 x.2 s) fuel)
      words (mem i).implementation false .Serial fuel mem { iter := pairs, done := false }
    .ok (mem, it.iter.iter)

open Iter in
/-- `hash_many`, given the client's iterator. many.rs 386-419. The items are places where there is a job. -/
def hashManyI {a : Alg} {ι σ : Type} [DecidableEq ι] (fuel : Nat) (next : σ → Option ι × σ) (s : σ)
    (mem : ι → HashManyJob a) : Res ((ι → HashManyJob a) × σ) :=
  match Peekable.peek next { iter := s, peeked := none } with
  | (none, jobs) => .ok (mem, jobs.iter)
  | (some i, jobs) => do
    let words : Source a ι (HashManyJob a) := {
      pull := fun _ j => .ok (j, none)
      getWords := fun j => j.words
      setWords := fun j w => { j with words := w } }
    let (mem, it) ← compressMany (jobNext (Peekable.next next) (fun i => i) (fun i j => hashManyPull i j) fuel)
      words (mem i).implementation true .Serial fuel mem jobs
    .ok (mem, it.iter)

end Blake2
