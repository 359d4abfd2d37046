import Verif.Model.FuzzMany
/-!
# Model of the benchmarks of this library: benches/bench.rs and benches/bench_multiprocess/src/main.rs

What a benchmark does is run a closure many times on inputs at changing places in memory. The model says what each run is given and what
it computes. Where buffers are allocated, what they are filled with and how a list is shuffled are arguments. Time is not modelled, nor
are the benchmarks of other libraries, the workers of bench_multiprocess and the printing of rates.
-/
namespace Blake2.Bench
variable {a : Alg}

/-- A slice, as a benchmark sees it: where in memory it begins, and its bytes. benches/bench_multiprocess/src/main.rs 284-286. -/
structure Slice where
  addr : Nat
  bytes : List Byte

/-- A buffer that has been allocated and filled by `fill_bytes`: its address and its contents.
benches/bench_multiprocess/src/main.rs 269-270, benches/bench.rs 28-30. -/
structure Alloc where
  addr : Nat
  fill : Nat → Byte

/-- The contents of a buffer of `n` bytes. benches/bench_multiprocess/src/main.rs 269-270, benches/bench.rs 28-30. -/
def Alloc.buf (m : Alloc) (n : Nat) : List Byte := (List.range n).map m.fill

/-- `&buf[offset..][..len]`, with the address it has. benches/bench_multiprocess/src/main.rs 285, benches/bench.rs 47. -/
def sliceAt (addr : Nat) (buf : List Byte) (offset len : Nat) : Res Slice := do
  let from' ← sliceFrom buf offset
  let part ← sliceTo from' len
  .ok { addr := addr + offset, bytes := part }

/-- Running a closure `n` times, with what each run yields. benches/bench_multiprocess/src/main.rs 70-76, and `Bencher::iter` of the crate `test`,
which runs the closure as many times as it likes. -/
def runs {S α : Type} (f : S → Res (α × S)) : Nat → S → Res (List α × S)
  | 0, s => .ok ([], s)
  | n + 1, s => do
    let (x, s) ← f s
    let (xs, s) ← runs f n s
    .ok (x :: xs, s)

/-- The loop that makes one job for each input, for the vector or array `jobs` of the given capacity.
benches/bench_multiprocess/src/main.rs 134-137, 154-157, benches/bench.rs 135-138, 152-157, 176-181, 204-213, 234-237, 251-256, 275-280, 303-312. -/
def makeJobs {I : Type} (get : I → Res (Slice × I)) (params : Params a) (cap : Nat) :
    List I → List Slice → List (HashManyJob a) → Res (List Slice × List (HashManyJob a) × List I)
  | [], xs, jobs => .ok (xs, jobs, [])
  | input :: rest, xs, jobs => do
    let (x, input) ← get input
    let job ← HashManyJob.new params x.bytes
    let jobs ← arrayPush cap jobs job
    let (xs, jobs, rest) ← makeJobs get params cap rest (xs ++ [x]) jobs
    .ok (xs, jobs, input :: rest)

/-! ## benches/bench_multiprocess/src/main.rs -/

/-- `OFFSET_PERIOD`. benches/bench_multiprocess/src/main.rs 47. -/
def OFFSET_PERIOD : Nat := 512

/-- `BENCH_LEN`. benches/bench_multiprocess/src/main.rs 49. -/
def BENCH_LEN : Nat := 1000000

/-- `struct VecIter<usize>`. benches/bench_multiprocess/src/main.rs 239-242. -/
structure VecIter where
  vec : List Nat
  i : Nat

/-- `VecIter::next`. benches/bench_multiprocess/src/main.rs 245-252. -/
def VecIter.next (v : VecIter) : Res (Nat × VecIter) := do
  let item ← getState v.vec v.i
  let i := v.i + 1
  .ok (item, { v with i := if i ≥ v.vec.length then 0 else i })

/-- `VecIter::shuffle`, with whatever `SliceRandom::shuffle` does. benches/bench_multiprocess/src/main.rs 254-256. -/
def VecIter.shuffle (shuffle : List Nat → List Nat) (v : VecIter) : VecIter := { v with vec := shuffle v.vec }

/-- `struct OffsetInput`, with the address of its buffer. benches/bench_multiprocess/src/main.rs 261-265. -/
structure OffsetInput where
  addr : Nat
  buf : List Byte
  len : Nat
  offsets : VecIter

/-- `OffsetInput::new`. benches/bench_multiprocess/src/main.rs 268-282. -/
def OffsetInput.new (m : Alloc) (len : Nat) : OffsetInput :=
  let buf := m.buf (len + OFFSET_PERIOD)
  let adjustment := OFFSET_PERIOD - m.addr % OFFSET_PERIOD
  let offsets := (List.range OFFSET_PERIOD).map fun off => (off + adjustment) % OFFSET_PERIOD
  { addr := m.addr, buf := buf, len := len, offsets := { vec := offsets, i := 0 } }

/-- `OffsetInput::get`. benches/bench_multiprocess/src/main.rs 284-286. -/
def OffsetInput.get (input : OffsetInput) : Res (Slice × OffsetInput) := do
  let (offset, offsets) ← input.offsets.next
  let x ← sliceAt input.addr input.buf offset input.len
  .ok (x, { input with offsets := offsets })

/-- `bench`: a run that is not timed, and the timed runs. benches/bench_multiprocess/src/main.rs 69-79. -/
def bench {S α : Type} (f : S → Res (α × S)) (s : S) : Res (α × List α) := do
  let (x, s) ← f s
  let (xs, _) ← runs f OFFSET_PERIOD s
  .ok (x, xs)

/-- `blake2b_hash`, `blake2s_hash`, `hash_blake2bp` and `hash_blake2sp`, with the function they measure.
benches/bench_multiprocess/src/main.rs 81-93, 161-173. -/
def benchHash (hash : List Byte → Res (Hash a)) (m : Alloc) : Res ((Slice × Hash a) × List (Slice × Hash a)) :=
  bench (fun input => do
    let (x, input) ← OffsetInput.get input
    let h ← hash x.bytes
    .ok ((x, h), input)) (OffsetInput.new m BENCH_LEN)

/-- The inputs of `blake2b_hash_many` (`blake2s_hash_many`). For each, two buffers are allocated. The offsets of the first are shuffled,
and it is dropped; the second is kept. benches/bench_multiprocess/src/main.rs 124-129, 144-149. -/
def manyBenchInputs (allocs : Nat → Alloc) (shuffle : Nat → List Nat → List Nat) (len degree : Nat) : List OffsetInput :=
  (List.range degree).map fun k =>
    let offsetInput := OffsetInput.new (allocs (2 * k)) len
    let _ := { offsetInput with offsets := offsetInput.offsets.shuffle (shuffle k) }
    OffsetInput.new (allocs (2 * k + 1)) len

/-- `blake2b_hash_many` (`blake2s_hash_many`). benches/bench_multiprocess/src/main.rs 121-139, 141-159. -/
def benchHashMany (a : Alg) (e : Machine) (allocs : Nat → Alloc) (shuffle : Nat → List Nat → List Nat) :
    Res ((List Slice × List (HashManyJob a)) × List (List Slice × List (HashManyJob a))) :=
  let degree := manyDegree a e
  let benchLen := BENCH_LEN / degree
  let inputs := manyBenchInputs allocs shuffle benchLen degree
  let params := Params.new a (detect e)
  bench (fun inputs => do
    let (xs, jobs, inputs) ← makeJobs OffsetInput.get params (maxDegreeOn a e.x86) inputs [] []
    let jobs ← hashMany jobs
    .ok ((xs, jobs), inputs)) inputs

/-! ## benches/bench.rs -/

/-- `struct RandomInput`, with the address of its buffer. benches/bench.rs 17-22. -/
structure RandomInput where
  addr : Nat
  buf : List Byte
  len : Nat
  offsets : List Nat
  offsetIndex : Nat

/-- `RandomInput::new`; the second component is what it adds to `b.bytes`. benches/bench.rs 25-40. -/
def RandomInput.new (pageSize : Nat) (m : Alloc) (shuffle : List Nat → List Nat) (len : Nat) : RandomInput × Nat :=
  let buf := m.buf (len + pageSize)
  let offsets := shuffle (List.range pageSize)
  ({ addr := m.addr, buf := buf, len := len, offsets := offsets, offsetIndex := 0 }, len)

/-- `RandomInput::get`. benches/bench.rs 42-49. -/
def RandomInput.get (r : RandomInput) : Res (Slice × RandomInput) := do
  let offset ← getState r.offsets r.offsetIndex
  let i := r.offsetIndex + 1
  let i := if i ≥ r.offsets.length then 0 else i
  let x ← sliceAt r.addr r.buf offset r.len
  .ok (x, { r with offsetIndex := i })

/-- The benchmarks of bench.rs with one input, run `n` times, with the function they measure and the length of the input. The third component is
`b.bytes`. benches/bench.rs 52-55, 63-82, 85-88, 96-115, 118-127, 333-352. -/
def benchOne {α : Type} (hash : List Byte → Res α) (pageSize : Nat) (m : Alloc) (shuffle : List Nat → List Nat) (len n : Nat) :
    Res (List (Slice × α) × Nat) := do
  let (input, bytes) := RandomInput.new pageSize m shuffle len
  let (xs, _) ← runs (fun input => do
    let (x, input) ← RandomInput.get input
    let h ← hash x.bytes
    .ok ((x, h), input)) n input
  .ok (xs, bytes)

/-- The benchmarks of bench.rs with several inputs, run `n` times; there are `width` inputs of length `len`.
benches/bench.rs 130-142, 145-166, 169-190, 193-226, 229-241, 244-265, 268-289, 292-325. -/
def benchMany (a : Alg) (e : Machine) (dbg : Bool) (pageSize : Nat) (allocs : Nat → Alloc) (shuffle : Nat → List Nat → List Nat)
    (width len n : Nat) : Res (List (List Slice × List (Hash a)) × Nat) := do
  let news := (List.range width).map fun k => RandomInput.new pageSize (allocs k) (shuffle k) len
  let params := Params.new a (detect e)
  let (xs, _) ← runs (fun inputs => do
    let (xs, jobs, inputs) ← makeJobs RandomInput.get params width inputs [] []
    let jobs ← hashMany jobs
    let hashes ← jobs.mapM fun j => j.toHash dbg
    .ok ((xs, hashes), inputs)) n (news.map Prod.fst)
  .ok (xs, (news.map Prod.snd).sum)

end Blake2.Bench
