import Verif.Model.GutsTests
/-!
# Model of the unit tests of the crates: test.rs and the tests of many.rs

Each is a client of the API that panics if an assertion fails. The expected outputs, and where there is a table of inputs the table,
are arguments; `unitTests` gives them the values they have in /repo. A test marked `#[should_panic]` passes if its body panics.
-/
namespace Blake2
open Spec
variable {a : Alg}

/-- `count += 1` on the counter type, with its overflow check (debug). blake2b/src/test.rs 42, blake2s/src/test.rs 38. -/
def incCount (dbg : Bool) (n : Count a) : Res (Count a) :=
  if dbg && n == BitVec.allOnes _ then .error .panic else .ok (n + 1)

/-- The loop over the bytes in `test_update_state`. blake2b/src/test.rs 40-44, blake2s/src/test.rs 36-40. -/
def updateBytewise (dbg : Bool) : List Byte → State a → Count a → Res (State a)
  | [], state, _ => .ok state
  | b :: bs, state, count => do
    let state ← state.update [b]
    let count ← incCount dbg count
    let c ← state.getCount dbg
    assertThat (count == c)
    updateBytewise dbg bs state count

/-- `test_update_state`, on a table of inputs and hashes. blake2b/src/test.rs 12-49, blake2s/src/test.rs 8-45. -/
def testUpdateState (a : Alg) (plat : Platform) (dbg : Bool) (io : List (List Byte × List Char)) : Res Unit := do
  io.forM fun q => do
    let hash ← blake2 a plat q.1
    let hex ← hash.toHex
    assertThat (hex == q.2)
  io.forM fun q => do
    let state := State.new a plat
    let split := q.1.length / 2
    let part ← sliceTo q.1 split
    let state ← state.update part
    let count ← state.getCount dbg
    assertThat (BitVec.ofNat (2 * a.w) split == count)
    let part ← sliceFrom q.1 split
    let state ← state.update part
    let count ← state.getCount dbg
    assertThat (BitVec.ofNat (2 * a.w) q.1.length == count)
    let hash ← state.finalize
    let hex ← hash.toHex
    assertThat (hex == q.2)
  io.forM fun q => do
    let state ← updateBytewise dbg q.1 (State.new a plat) 0
    let hash ← state.finalize
    let hex ← hash.toHex
    assertThat (hex == q.2)

/-- `assert_eq!(&state.finalize().to_hex(), expected)`. blake2b/src/test.rs 54-60, blake2s/src/test.rs 50-56. -/
def assertFinalize (state : State a) (expected : List Char) : Res Unit := do
  let hash ← state.finalize
  let hex ← hash.toHex
  assertThat (hex == expected)

/-- `test_multiple_finalizes`, with any input for `abc`. blake2b/src/test.rs 51-61, blake2s/src/test.rs 47-57. -/
def testMultipleFinalizes (a : Alg) (plat : Platform) (abc : List Byte) (emptyHash abcHash : List Char) : Res Unit := do
  let state := State.new a plat
  assertFinalize state emptyHash
  assertFinalize state emptyHash
  assertFinalize state emptyHash
  let state ← state.update abc
  assertFinalize state abcHash
  assertFinalize state abcHash
  assertFinalize state abcHash

/-- `test_write`, with any input. `unwrap` panics on an error. blake2b/src/test.rs 63-73, blake2s/src/test.rs 59-69. -/
def testWrite (a : Alg) (plat : Platform) (input : List Byte) (expected : List Char) : Res Unit := do
  match ← writeAll State.write input.length (State.new a plat) input with
  | none => .error .panic
  | some state => assertFinalize state expected

/-- `test_all_parameters`, with any builder calls and any input. blake2b/src/test.rs 91-120, blake2s/src/test.rs 87-116. -/
def testAllParameters (a : Alg) (plat : Platform) (calls : List Setter) (input : List Byte) (expected : List Char) : Res Unit := do
  let params ← (Params.new a plat).build calls
  let state ← params.toState.update input
  assertFinalize state expected
  let hash ← params.hash input
  let hex ← hash.toHex
  assertThat (expected == hex)

/-- `test_all_parameters_blake2bp` (`test_all_parameters_blake2sp`), with any builder calls and any input.
blake2b/src/test.rs 122-142, blake2s/src/test.rs 118-138. -/
def testAllParametersTree (a : Alg) (plat : Platform) (calls : List PSetter) (input : List Byte) (expected : List Char) : Res Unit := do
  let params ← (PParams.new a plat).build calls
  let state ← params.toState
  let state ← state.update input
  let hash ← state.finalize
  let hex ← hash.toHex
  assertThat (expected == hex)
  let hash ← params.hash input
  let hex ← hash.toHex
  assertThat (expected == hex)

/-- A test with one builder call. blake2b/src/test.rs 144-183, blake2s/src/test.rs 140-179, 199-208. -/
def testSetter (a : Alg) (plat : Platform) (call : Setter) : Res Unit := do
  let _ ← (Params.new a plat).build [call]
  .ok ()

/-- A test with one builder call of the tree variants. blake2b/src/test.rs 185-201, blake2s/src/test.rs 181-197. -/
def testPSetter (a : Alg) (plat : Platform) (call : PSetter) : Res Unit := do
  let _ ← (PParams.new a plat).build [call]
  .ok ()

/-- `#[should_panic]`. A body that returns, hangs or does anything else makes the test fail. blake2b/src/test.rs 145-198. -/
def shouldPanic (body : Res Unit) : Res Unit :=
  match body with
  | .error .panic => .ok ()
  | _ => .error .panic

/-- `test_hash_from`, with any input. Both conversions are `Hash.ofArray`. blake2b/src/test.rs 203-208, blake2s/src/test.rs 210-215. -/
def testHashFrom (a : Alg) (plat : Platform) (dbg : Bool) (input : List Byte) : Res Unit := do
  let h ← blake2 a plat input
  let array ← h.asArray dbg
  let eq ← h.eqHash (Hash.ofArray array)
  assertThat eq
  let array ← h.asArray dbg
  let eq ← h.eqHash (Hash.ofArray array)
  assertThat eq

/-- The inputs of one round of the tests of `many`. blake2b/src/many.rs 455-459, 497-501. -/
def manyInputs (a : Alg) (len startOffset : Nat) (input : List Byte) : Res (List (List Byte)) :=
  (List.range len).mapM fun i => sliceTo input ((i + startOffset) % len * a.bb)

/-- The parameters of the tests of `many`. blake2b/src/many.rs 461-470, 503-512. -/
def manyParams (a : Alg) (plat : Platform) (len : Nat) : Res (List (Params a)) :=
  (List.range len).mapM fun i => do
    let p ← (Params.new a plat).setNodeOffset (BitVec.ofNat 64 i)
    if i % 2 = 1 then do
      let p ← p.setLastNode true
      p.setKey [0x66, 0x6f, 0x6f]
    else .ok p

/-- `test_hash_many`, with any number of inputs for `LEN` and any function in the place of `hash_many`. blake2b/src/many.rs 445-485,
blake2s/src/many.rs 445-485. -/
def testHashManyOf (a : Alg) (hashMany : List (HashManyJob a) → Res (List (HashManyJob a))) (plat : Platform) (dbg : Bool) (len : Nat) : Res Unit := do
  let input ← paintTestInput (List.replicate (len * a.bb) 0)
  (List.range len).forM fun startOffset => do
    let inputs ← manyInputs a len startOffset input
    let params ← manyParams a plat len
    let jobs ← (params.zip inputs).mapM fun q => HashManyJob.new q.1 q.2
    let jobs ← hashMany jobs
    (List.range len).forM fun i => do
      let p ← getState params i
      let x ← getState inputs i
      let expected ← p.hash x
      let j ← getState jobs i
      let h ← j.toHash dbg
      let eq ← expected.eqHash h
      assertThat eq

/-- `test_hash_many`, with any number of inputs for `LEN`. blake2b/src/many.rs 445-485, blake2s/src/many.rs 445-485. -/
def testHashMany (a : Alg) (plat : Platform) (dbg : Bool) (len : Nat) : Res Unit := testHashManyOf a hashMany plat dbg len

/-- `test_update_many`, with any number of inputs for `LEN` and any function in the place of `update_many`. `2 * inputs[i].len() as Count` is a product of numbers of the counter
type. blake2b/src/many.rs 487-532, blake2s/src/many.rs 487-532. -/
def testUpdateManyOf (a : Alg) (updateMany : List (State a × List Byte) → Res (List (State a)))
    (plat : Platform) (dbg : Bool) (len : Nat) : Res Unit := do
  let input ← paintTestInput (List.replicate (len * a.bb) 0)
  (List.range len).forM fun startOffset => do
    let inputs ← manyInputs a len startOffset input
    let params ← manyParams a plat len
    let states := params.map Params.toState
    let states ← updateMany (states.zip inputs)
    let states ← updateMany (states.zip inputs)
    (List.range len).forM fun i => do
      let p ← getState params i
      let x ← getState inputs i
      let reference := p.toState
      let reference ← reference.update x
      let reference ← reference.update x
      let expected ← reference.finalize
      let s ← getState states i
      let h ← s.finalize
      let eq ← expected.eqHash h
      assertThat eq
      let count ← s.getCount dbg
      assertThat (2 * BitVec.ofNat (2 * a.w) x.length == count)

/-- `test_update_many`, with any number of inputs for `LEN`. blake2b/src/many.rs 487-532, blake2s/src/many.rs 487-532. -/
def testUpdateMany (a : Alg) (plat : Platform) (dbg : Bool) (len : Nat) : Res Unit := testUpdateManyOf a updateMany plat dbg len

/-! ## The values in /repo -/

/-- A byte string literal. blake2b/src/test.rs 16, 98-101, blake2s/src/test.rs 12, 94-97. -/
def ascii (s : String) : List Byte := s.toList.map fun c => BitVec.ofNat 8 c.toNat

/-- `EMPTY_HASH`. blake2b/src/test.rs 3-4, blake2s/src/test.rs 3. -/
def EMPTY_HASH : Alg → List Char
  | .b => "786a02f742015903c6c6fd852552d272912f4740e15847618a86e217f71f5419d25e1031afee585313896444934eb04b903a685b1448b755d56f701afe9be2ce".toList
  | .s => "69217a3079908094e11121d042354a7c1f55b6482ca1a51e1b250dfd1ed0eef9".toList

/-- `ABC_HASH`. blake2b/src/test.rs 5-6, blake2s/src/test.rs 4. -/
def ABC_HASH : Alg → List Char
  | .b => "ba80a53f981c4d0d6a2797b69f12f6e94c212f14685ac4b74b12bb6fdbffa2d17d87c5392aab792dc252d5de4533cc9518d38aa8dbf1925ab92386edd4009923".toList
  | .s => "508c5e8c327c14e2e1a72ba34eeb452f37458b209ed63a294d999b4c86675982".toList

/-- `ONE_BLOCK_HASH`. blake2b/src/test.rs 7-8, blake2s/src/test.rs 5. -/
def ONE_BLOCK_HASH : Alg → List Char
  | .b => "865939e120e6805438478841afb739ae4250cf372653078a065cdcfffca4caf798e6d462b65d658fc165782640eded70963449ae1500fb0f24981d7727e22c41".toList
  | .s => "ae09db7cd54f42b490ef09b6bc541af688e4959bb8c53f359a6f56e38ab454a3".toList

/-- `THOUSAND_HASH`. blake2b/src/test.rs 9-10, blake2s/src/test.rs 6. -/
def THOUSAND_HASH : Alg → List Char
  | .b => "1ee4e51ecab5210a518f26150e882627ec839967f19d763e1508b12cfefed14858f6a1c9d1f969bc224dc9440f5a6955277e755b9c513f9ba4421c5e50c8d787".toList
  | .s => "37e9dd47498579c5343fd282c13c62ea824cdfc9b0f4f747a41347414640f62c".toList

/-- The table in `test_update_state`. blake2b/src/test.rs 14-19, blake2s/src/test.rs 10-15. -/
def ioTable (a : Alg) : List (List Byte × List Char) :=
  [([], EMPTY_HASH a), (ascii "abc", ABC_HASH a), (List.replicate a.bb 0, ONE_BLOCK_HASH a), (List.replicate 1000 0, THOUSAND_HASH a)]

/-- The builder calls in `test_all_parameters`. blake2b/src/test.rs 93-107, blake2s/src/test.rs 89-103. -/
def allParameters : Alg → List Setter
  | .b => [.hashLength 18, .key (ascii "not the real key"), .key (ascii "bar"), .salt (ascii "bazbazbazbazbazb"),
      .personal (ascii "bing bing bing b"), .fanout 2, .maxDepth 3, .maxLeafLength 0x04050607, .nodeOffset 0x08090a0b0c0d0e0f,
      .nodeDepth 16, .innerHashLength 17, .lastNode true]
  | .s => [.hashLength 18, .key (ascii "not the real key"), .key (ascii "bar"), .salt (ascii "bazbazba"),
      .personal (ascii "bing bin"), .fanout 2, .maxDepth 3, .maxLeafLength 0x04050607, .nodeOffset 0x08090a0b0c0d,
      .nodeDepth 16, .innerHashLength 17, .lastNode true]

/-- The output expected by `test_all_parameters`. blake2b/src/test.rs 111, 117, blake2s/src/test.rs 107, 113. -/
def allParametersHash : Alg → List Char
  | .b => "ec0f59cb65f92e7fcca1280ba859a6925ded".toList
  | .s => "62361e5392ab0eb7dd27e48a6809ee82dc57".toList

/-- The builder calls in `test_all_parameters_blake2bp` (`_blake2sp`). blake2b/src/test.rs 124-129, blake2s/src/test.rs 120-125. -/
def allParametersTree : List PSetter := [.hashLength 18, .key (ascii "not the real key"), .key (ascii "bar")]

/-- The output expected by `test_all_parameters_blake2bp` (`_blake2sp`). blake2b/src/test.rs 133, 139, blake2s/src/test.rs 129, 135. -/
def allParametersTreeHash : Alg → List Char
  | .b => "8c54e888a8a01c63da6585c058fe54ea81df".toList
  | .s => "947d4c671e2794f5e1a57daeca97bb46ed66".toList

/-- The tests of test.rs that call a builder method out of range, and those that do so just within range.
blake2b/src/test.rs 144-201, blake2s/src/test.rs 140-208. -/
def testSetters (a : Alg) (plat : Platform) : Res Unit := do
  shouldPanic (testSetter a plat (.hashLength 0))
  shouldPanic (testSetter a plat (.hashLength (a.outbytes + 1)))
  shouldPanic (testSetter a plat (.key (List.replicate (a.keybytes + 1) 0)))
  shouldPanic (testSetter a plat (.salt (List.replicate (a.saltbytes + 1) 0)))
  shouldPanic (testSetter a plat (.personal (List.replicate (a.personalbytes + 1) 0)))
  testSetter a plat (.maxDepth 0)
  shouldPanic (testSetter a plat (.innerHashLength (a.outbytes + 1)))
  shouldPanic (testPSetter a plat (.hashLength 0))
  shouldPanic (testPSetter a plat (.hashLength (a.outbytes + 1)))
  shouldPanic (testPSetter a plat (.key (List.replicate (a.keybytes + 1) 0)))
  if a = .s then do
    testSetter a plat (.nodeOffset ((1 <<< 48) - 1))
    shouldPanic (testSetter a plat (.nodeOffset (1 <<< 48)))
  else .ok ()

/-- All the tests of test.rs and the tests `test_hash_many` and `test_update_many`, as run on a machine. `test_write` exists only with
`std`. blake2b/src/test.rs 12-208, blake2s/src/test.rs 8-215, blake2b/src/many.rs 445-532, blake2s/src/many.rs 445-532. -/
def unitTests (a : Alg) (e : Machine) (dbg : Bool) : Res Unit := do
  testUpdateState a (detect e) dbg (ioTable a)
  testMultipleFinalizes a (detect e) (ascii "abc") (EMPTY_HASH a) (ABC_HASH a)
  (if e.std then testWrite a (detect e) (List.replicate 1000 0) (THOUSAND_HASH a) else .ok ())
  testAllParameters a (detect e) (allParameters a) (ascii "foo") (allParametersHash a)
  testAllParametersTree a (detect e) allParametersTree (ascii "foo") (allParametersTreeHash a)
  testSetters a (detect e)
  testHashFrom a (detect e) dbg (ascii "foo")
  testHashMany a (detect e) dbg (2 * maxDegreeOn a e.x86 - 1)
  testUpdateMany a (detect e) dbg (2 * maxDegreeOn a e.x86 - 1)

end Blake2
