import Verif.Model.Tests
/-!
# Model of the unit tests of `guts.rs` and `many.rs`

What they are run on in practice is a table of lengths and three counter values, over a painted buffer of a hundred blocks. Here the
case and the buffer are arguments.
-/
namespace Blake2

/-- `initial_test_words`. `input_index as u64` and `Params::new().node_offset(..).to_words()`. blake2b/src/guts.rs 349-353,
blake2s/src/guts.rs 346-350. -/
def initialTestWords (a : Alg) (plat : Platform) (inputIndex : Nat) : Res (Vector (Word a) 8) := do
  let p ← (Params.new a plat).build [.nodeOffset (BitVec.ofNat 64 inputIndex)]
  .ok p.toWords

/-- The `while` loop of `reference_compression`. The first argument is fuel: running out of it would be a loop that does not end.
`input.len() - offset` cannot go below zero there. blake2b/src/guts.rs 367-384, blake2s/src/guts.rs 364-381. -/
def referenceIter (a : Alg) (input : List Byte) (stride : Stride) (lastNode finalize : Bool) :
    Nat → Nat → Count a → Vector (Word a) 8 → Res (Vector (Word a) 8)
  | 0, _, _, _ => .error .diverge
  | fuel + 1, offset, count, words =>
    if offset = 0 ∨ offset < input.length then do
      let blockSize := min a.bb (input.length - offset)
      let maybeFinalize := if offset + stride.padded a < input.length then false else finalize
      let rest ← sliceFrom input offset
      let block ← sliceTo rest blockSize
      let words ← Portable.compress1Loop a block words count lastNode maybeFinalize .Serial
      referenceIter a input stride lastNode finalize fuel (offset + stride.padded a) (count + BitVec.ofNat _ a.bb) words
    else .ok words

/-- `reference_compression`. blake2b/src/guts.rs 357-386, blake2s/src/guts.rs 354-383. -/
def referenceCompression (a : Alg) (plat : Platform) (input : List Byte) (stride : Stride) (lastNode finalize : Bool) (count : Count a)
    (inputIndex : Nat) : Res (Vector (Word a) 8) := do
  let words ← initialTestWords a plat inputIndex
  referenceIter a input stride lastNode finalize (input.length + 2) 0 count words

/-- The closure of `exercise_compress1_loop`, with any function in the place of `compress1_loop`. blake2b/src/guts.rs 398-412,
blake2s/src/guts.rs 395-409. -/
def exerciseCompress1Of (a : Alg) (plat : Platform)
    (compress1 : List Byte → Vector (Word a) 8 → Count a → Bool → Bool → Stride → Res (Vector (Word a) 8)) (input : List Byte) (stride : Stride) (length : Nat)
    (lastNode finalize : Bool) (count : Count a) : Res Unit := do
  let msg ← sliceTo input length
  let referenceWords ← referenceCompression a plat msg stride lastNode finalize count 0
  let testWords ← initialTestWords a plat 0
  let msg ← sliceTo input length
  let testWords ← compress1 msg testWords count lastNode finalize stride
  assertThat (referenceWords == testWords)

/-- The closure of `exercise_compress1_loop`. blake2b/src/guts.rs 398-412, blake2s/src/guts.rs 395-409. -/
def exerciseCompress1 (a : Alg) (plat implementation : Platform) (input : List Byte) (stride : Stride) (length : Nat)
    (lastNode finalize : Bool) (count : Count a) : Res Unit :=
  exerciseCompress1Of a plat (compress1 a implementation) input stride length lastNode finalize count

/-- The inputs, words and counts of lane `i` of the N-way tests, as a `Job`. blake2b/src/guts.rs 447-450, 470-482, 513-516, 536-548;
blake2s/src/guts.rs 444-447, 467-479, 510-513, 533-545. -/
def testJob (a : Alg) (plat : Platform) (inputBuffer : List Byte) (length : Nat) (lastNode : Bool) (count : Count a) (i : Nat) :
    Res (Job a) := do
  let words ← initialTestWords a plat i
  let input ← sliceFrom inputBuffer i
  let input ← sliceTo input length
  .ok { input, words, count := count + BitVec.ofNat _ (i * a.bb), lastNode }

/-- What lane `i` of the N-way tests should come to. blake2b/src/guts.rs 454-465, 520-531; blake2s/src/guts.rs 451-462, 517-528. -/
def testReference (a : Alg) (plat : Platform) (inputBuffer : List Byte) (stride : Stride) (length : Nat) (lastNode finalize : Bool)
    (count : Count a) (i : Nat) : Res (Vector (Word a) 8) := do
  let input ← sliceFrom inputBuffer i
  let input ← sliceTo input length
  referenceCompression a plat input stride lastNode finalize (count + BitVec.ofNat _ (i * a.bb)) i

/-- The closure common to `exercise_compress2_loop`, `exercise_compress4_loop` and `exercise_compress8_loop`: they differ in `N` and in
the loop called. blake2b/src/guts.rs 453-486, 519-552; blake2s/src/guts.rs 450-483, 516-549. -/
def exerciseLoop (a : Alg) (plat : Platform) (N : Nat) (loopN : Vector (Job a) N → Bool → Stride → Res (Vector (Job a) N))
    (inputBuffer : List Byte) (stride : Stride) (length : Nat) (lastNode finalize : Bool) (count : Count a) : Res Unit := do
  let referenceWords ← (Vector.ofFn (n := N) fun i => i).mapM fun i =>
    testReference a plat inputBuffer stride length lastNode finalize count i.val
  let jobs ← (Vector.ofFn (n := N) fun i => i).mapM fun i => testJob a plat inputBuffer length lastNode count i.val
  let jobs ← loopN jobs finalize stride
  (List.finRange N).forM fun i => assertThat (referenceWords[i] == (jobs[i]).words)

/-- `exercise_compress4_loop` (BLAKE2b) and `exercise_compress8_loop` (BLAKE2s), one case. blake2b/src/guts.rs 509-553,
blake2s/src/guts.rs 506-550. -/
def exerciseHi (a : Alg) (plat implementation : Platform) :=
  exerciseLoop a plat (hiDegree a) (compressHi a implementation)

/-- `exercise_compress2_loop` (BLAKE2b) and `exercise_compress4_loop` (BLAKE2s), one case. blake2b/src/guts.rs 443-487,
blake2s/src/guts.rs 440-484. -/
def exerciseLo (a : Alg) (plat implementation : Platform) :=
  exerciseLoop a plat (loDegree a) (compressLo a implementation)

/-- The loop of `paint_test_input`: `bytes` is the little-endian encoding of `counter`, and `counter += 1` panics on overflow. The first
argument is fuel. blake2b/src/lib.rs 668-674, blake2s/src/lib.rs 660-666. -/
def paintIter : Nat → Nat → BitVec 32 → List Byte → Res (List Byte)
  | 0, _, _, _ => .error .diverge
  | fuel + 1, offset, counter, buf =>
    if offset < buf.length then do
      let bytes := toLE 4 counter
      let take := min bytes.length (buf.length - offset)
      let src ← sliceTo bytes take
      let buf ← copyRange buf offset (offset + take) src
      if counter.toNat + 1 < 2 ^ 32 then paintIter fuel (offset + take) (counter + 1) buf else .error .panic
    else .ok buf

/-- `paint_test_input`. blake2b/src/lib.rs 665-675, blake2s/src/lib.rs 657-667. -/
def paintTestInput (buf : List Byte) : Res (List Byte) := paintIter (buf.length + 1) 0 1 buf

/-- The cases `exercise_cases` calls its argument on, in order. blake2b/src/guts.rs 299-347, blake2s/src/guts.rs 296-344. -/
def exerciseCases (a : Alg) : List (Stride × Nat × Bool × Bool × Count a) :=
  [Stride.Serial, Stride.Parallel].flatMap fun stride =>
    [0, 1, a.bb - 1, a.bb, a.bb + 1, 2 * a.bb - 1, 2 * a.bb, 2 * a.bb + 1,
      stride.padded a - 1, stride.padded a, stride.padded a + 1,
      2 * stride.padded a - 1, 2 * stride.padded a, 2 * stride.padded a + 1].flatMap fun length =>
        [false, true].flatMap fun lastNode =>
          [false, true].flatMap fun finalize =>
            if !finalize && (length == 0 || length % a.bb != 0) then []
            else [0, ((1 : Count a) <<< (8 * a.wb)) - BitVec.ofNat _ a.bb, (0 : Count a) - BitVec.ofNat _ a.bb].map fun count =>
              (stride, length, lastNode, finalize, count)

/-- A test that runs one of the closures on every case, over the painted buffer. blake2b/src/guts.rs 394-413, 443-487, 509-553;
blake2s/src/guts.rs 391-410, 440-484, 506-550. -/
def exerciseAll (a : Alg) (closure : List Byte → Stride → Nat → Bool → Bool → Count a → Res Unit) : Res Unit := do
  let input ← paintTestInput (List.replicate (100 * a.bb) 0)
  (exerciseCases a).forM fun c => closure input c.1 c.2.1 c.2.2.1 c.2.2.2.1 c.2.2.2.2

/-- All the tests of the loops, as run on a machine: `test_compress1_loop_portable`, `test_compress1_loop_sse41`,
`test_compress1_loop_avx2`, `test_compress2_loop_sse41`, `test_compress2_loop_avx2`, `test_compress4_loop_avx2` for BLAKE2b, and for
BLAKE2s the same with the widths doubled. blake2b/src/guts.rs 415-436, 489-504, 555-561; blake2s/src/guts.rs 412-433, 486-501,
552-558. -/
def testLoops (a : Alg) (e : Machine) : Res Unit := do
  exerciseAll a (exerciseCompress1 a (detect e) .Portable)
  if e.x86 then do
    match sse41IfSupported e with
    | some imp => do
      exerciseAll a (exerciseCompress1 a (detect e) imp)
      exerciseAll a (exerciseLo a (detect e) imp)
    | none => .ok ()
    match avx2IfSupported e with
    | some imp => do
      exerciseAll a (exerciseCompress1 a (detect e) imp)
      exerciseAll a (exerciseLo a (detect e) imp)
      exerciseAll a (exerciseHi a (detect e) imp)
    | none => .ok ()
  else .ok ()

/-- `test_detection`, with any answers of `detect`, `avx2_if_supported` and `sse41_if_supported`. `Option::unwrap` panics on `None`.
blake2b/src/guts.rs 268-296, blake2s/src/guts.rs 265-293. -/
def testDetectionOf (e : Machine) (detect : Platform) (avx2 sse41 : Option Platform) : Res Unit := do
  assertThat (Platform.Portable == Platform.Portable)
  if e.x86 && e.std then
    if e.cpuAvx2 then do
      assertThat (Platform.AVX2 == detect)
      assertThat (some Platform.AVX2 == avx2)
      assertThat (some Platform.SSE41 == sse41)
    else if e.cpuSse41 then do
      assertThat (Platform.SSE41 == detect)
      assertThat avx2.isNone
      assertThat (some Platform.SSE41 == sse41)
    else do
      assertThat (Platform.Portable == detect)
      assertThat avx2.isNone
      assertThat sse41.isNone
  else .ok ()

/-- `test_detection`. blake2b/src/guts.rs 268-296, blake2s/src/guts.rs 265-293. -/
def testDetection (e : Machine) : Res Unit := testDetectionOf e (detect e) (avx2IfSupported e) (sse41IfSupported e)

/-- `test_degree`, with any answer of `degree`. The bounds are 4 and 2 for BLAKE2b, 8 and 4 for BLAKE2s. blake2b/src/many.rs 430-443,
blake2s/src/many.rs 430-443. -/
def testDegreeOf (a : Alg) (e : Machine) (degree : Nat) : Res Unit := do
  assertThat (decide (degree ≤ maxDegreeOn a e.x86))
  if e.x86 && e.std then do
    if e.cpuAvx2 then assertThat (decide (degree ≥ match a with | .b => 4 | .s => 8)) else .ok ()
    if e.cpuSse41 then assertThat (decide (degree ≥ match a with | .b => 2 | .s => 4)) else .ok ()
  else .ok ()

/-- `test_degree`. blake2b/src/many.rs 430-443, blake2s/src/many.rs 430-443. -/
def testDegree (a : Alg) (e : Machine) : Res Unit := testDegreeOf a e (manyDegree a e)

end Blake2
