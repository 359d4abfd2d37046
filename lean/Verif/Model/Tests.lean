import Verif.Model.Reference
/-!
# Model of the fuzz targets and of the tests that draw their inputs

Each is a client of the API that panics if an assertion fails. What they are run on in practice is a sample: whatever the fuzzer
comes up with, a thousand draws from a seeded generator, or a table of lengths. Here it is an argument.
-/
namespace Blake2
variable {a : Alg}

/-- `assert!`. Used at tests/fuzz_many.rs 78, 105, 106, blake2b/src/blake2bp.rs 549, 556, 560, 562, 565. -/
def assertThat (b : Bool) : Res Unit := if b then .ok () else .error .panic

/-- The fuzz target `fuzz_updates`. blake2b/fuzz/fuzz_targets/fuzz_updates.rs 14-35, blake2s/fuzz/fuzz_targets/fuzz_updates.rs 14-35. -/
def fuzzUpdates (a : Alg) (plat : Platform) (hashLength : Nat) (key personal : List Byte) (updates : List (List Byte)) : Res Unit :=
  if personal.length > a.personalbytes then .ok ()
  else if key.length > a.keybytes then .ok ()
  else if 1 > hashLength ∨ hashLength > a.outbytes then .ok ()
  else do
    let p ← (Params.new a plat).build [.hashLength hashLength, .key key, .personal personal]
    let hasher ← updates.foldlM State.update p.toState
    let _ ← hasher.finalize
    .ok ()

/-- The fuzz target `fuzz_blake2b` (`fuzz_blake2s`). blake2b/fuzz/fuzz_targets/fuzz_blake2b.rs 6-8,
blake2s/fuzz/fuzz_targets/fuzz_blake2s.rs 6-8. -/
def fuzzOneShot (a : Alg) (plat : Platform) (data : List Byte) : Res Unit := do
  let _ ← blake2 a plat data
  .ok ()

/-- The fuzz target `fuzz_blake2bp` (`fuzz_blake2sp`). blake2b/fuzz/fuzz_targets/fuzz_blake2bp.rs 6-8,
blake2s/fuzz/fuzz_targets/fuzz_blake2sp.rs 6-8. -/
def fuzzTree (a : Alg) (plat : Platform) (data : List Byte) : Res Unit := do
  let _ ← blake2p a plat data
  .ok ()

/-- The closure of `fuzz_blake2b_hash_many` (`fuzz_blake2s_hash_many`), with any function in the place of `hash_many`.
tests/fuzz_many.rs 62-80, 161-179. -/
def fuzzHashManyOf (hashMany : List (HashManyJob a) → Res (List (HashManyJob a))) (dbg : Bool) (params : List (Params a)) (inputs : List (List Byte)) : Res Unit := do
  let expected ← (params.zip inputs).mapM fun q => q.1.hash q.2
  let jobs ← (inputs.zip params).mapM fun q => HashManyJob.new q.2 q.1
  let jobs ← hashMany jobs
  (List.range jobs.length).forM fun i => do
    let e ← getState expected i
    let j ← getState jobs i
    let h ← j.toHash dbg
    let eq ← e.eqHash h
    assertThat eq

/-- The closure of `fuzz_blake2b_hash_many` (`fuzz_blake2s_hash_many`). tests/fuzz_many.rs 62-80, 161-179. -/
def fuzzHashMany (dbg : Bool) (params : List (Params a)) (inputs : List (List Byte)) : Res Unit :=
  fuzzHashManyOf hashMany dbg params inputs

/-- The closure of `fuzz_blake2b_update_many` (`fuzz_blake2s_update_many`), with any function in the place of `update_many`.
`2 * inputs[i].len() as u128` is a product of numbers of the counter type. tests/fuzz_many.rs 85-108, 184-207. -/
def fuzzUpdateManyOf (updateMany : List (State a × List Byte) → Res (List (State a)))
    (dbg : Bool) (params : List (Params a)) (inputs : List (List Byte)) : Res Unit := do
  let expected ← (params.zip inputs).mapM fun q => do
    let state := q.1.toState
    let state ← state.update q.2
    let state ← state.update q.2
    state.finalize
  let states := params.map Params.toState
  let states ← updateMany (states.zip inputs)
  let states ← updateMany (states.zip inputs)
  (List.range states.length).forM fun i => do
    let input ← getState inputs i
    let s ← getState states i
    let count ← s.getCount dbg
    assertThat (2 * BitVec.ofNat (2 * a.w) input.length == count)
    let e ← getState expected i
    let h ← s.finalize
    let eq ← e.eqHash h
    assertThat eq

/-- The closure of `fuzz_blake2b_update_many` (`fuzz_blake2s_update_many`). tests/fuzz_many.rs 85-108, 184-207. -/
def fuzzUpdateMany (dbg : Bool) (params : List (Params a)) (inputs : List (List Byte)) : Res Unit :=
  fuzzUpdateManyOf updateMany dbg params inputs

/-- What `test_against_reference` calls of the tree variants. blake2b/src/blake2bp.rs 541-565, blake2s/src/blake2sp.rs 548-572. -/
structure TreeApi (a : Alg) where
  State : Type
  toState : PParams a → Res State
  update : State → List Byte → Res State
  finalize : State → Res (Hash a)
  count : Bool → State → Res (Count a)
  oneShot : List Byte → Res (Hash a)

/-- The tree variants as they are. blake2b/src/blake2bp.rs 541-565, blake2s/src/blake2sp.rs 548-572. -/
def treeApi (a : Alg) (plat : Platform) : TreeApi a :=
  { State := PState a, toState := PParams.toState, update := PState.update, finalize := PState.finalize,
    count := fun dbg s => s.getCount dbg, oneShot := blake2p a plat }

/-- The body of the loops of `test_against_reference`, with anything in the place of the tree variants. blake2b/src/blake2bp.rs 541-565,
blake2s/src/blake2sp.rs 548-572. -/
def testAgainstReferenceOf (t : TreeApi a) (plat : Platform) (dbg portable : Bool) (input : List Byte) : Res Unit := do
  let params := PParams.new a plat
  let params := if portable then params.forcePortable else params
  let expected ← referenceP a plat input
  let state ← t.toState params
  let state ← t.update state input
  let found ← t.finalize state
  let eq ← expected.eqHash found
  assertThat eq
  let state ← t.toState params
  let maybeOne := min 1 input.length
  let first ← sliceTo input maybeOne
  let state ← t.update state first
  let count ← t.count dbg state
  assertThat (BitVec.ofNat (2 * a.w) maybeOne == count)
  let _ ← t.finalize state
  let rest ← sliceFrom input maybeOne
  let state ← t.update state rest
  let count ← t.count dbg state
  assertThat (BitVec.ofNat (2 * a.w) input.length == count)
  let found ← t.finalize state
  let eq ← expected.eqHash found
  assertThat eq
  let found ← t.oneShot input
  let eq ← expected.eqHash found
  assertThat eq

/-- The body of the loops of `test_against_reference`. blake2b/src/blake2bp.rs 541-565, blake2s/src/blake2sp.rs 548-572. -/
def testAgainstReference (a : Alg) (plat : Platform) (dbg portable : Bool) (input : List Byte) : Res Unit :=
  testAgainstReferenceOf (treeApi a plat) plat dbg portable input

end Blake2
