import Verif.Model.Tests
import Verif.Model.Xof
import Verif.VectorSpec
/-!
# Model of the tests that check vectors: tests/vector_tests.rs

The file of vectors, read by `serde_json` (11-14), is an argument.
-/
namespace Blake2
open Spec

/-- `hex::decode(..).unwrap()`. The decoder is the crate `hex`; it is `Spec.unhex`. tests/vector_tests.rs 33, 36, 164, 166. -/
def unhexUnwrap (text : List Char) : Res (List Byte) :=
  match unhex text with
  | some bytes => .ok bytes
  | none => .error .panic

/-- The body of the loop in `blake2b_vectors` and `blake2s_vectors`. tests/vector_tests.rs 33-47, 97-111. -/
def vectorCaseSerial (a : Alg) (plat : Platform) (dbg : Bool) (case : TestCase) : Res Unit := do
  let inputBytes ← unhexUnwrap case.input
  let params := Params.new a plat
  let params ← (if !case.key.isEmpty then do
      let keyBytes ← unhexUnwrap case.key
      params.setKey keyBytes
    else .ok params)
  let h ← params.hash inputBytes
  let hex ← h.toHex
  assertThat (case.out == hex)
  let state := params.toState
  let state ← state.update inputBytes
  let h ← state.finalize
  let hex ← h.toHex
  assertThat (case.out == hex)
  let count ← state.getCount dbg
  assertThat (BitVec.ofNat (2 * a.w) inputBytes.length == count)

/-- The body of the loop in `blake2bp_vectors` and `blake2sp_vectors`. tests/vector_tests.rs 65-79, 129-143. -/
def vectorCaseTree (a : Alg) (plat : Platform) (dbg : Bool) (case : TestCase) : Res Unit := do
  let inputBytes ← unhexUnwrap case.input
  let params := PParams.new a plat
  let params ← (if !case.key.isEmpty then do
      let keyBytes ← unhexUnwrap case.key
      params.setKey keyBytes
    else .ok params)
  let h ← params.hash inputBytes
  let hex ← h.toHex
  assertThat (case.out == hex)
  let state ← params.toState
  let state ← state.update inputBytes
  let h ← state.finalize
  let hex ← h.toHex
  assertThat (case.out == hex)
  let count ← state.getCount dbg
  assertThat (BitVec.ofNat (2 * a.w) inputBytes.length == count)

/-- The body of the loop in `blake2x_test`. `hex::encode` (crate `hex`) is `Spec.hexOf`. tests/vector_tests.rs 164-202. -/
def vectorCaseXof (a : Alg) (plat : Platform) (case : TestCase) : Res Unit := do
  let inputBytes ← unhexUnwrap case.input
  let key ← (if !case.key.isEmpty then unhexUnwrap case.key else .ok [])
  let outputLength := case.out.length / 2
  let buf ← blake2x a plat inputBytes key outputLength
  assertThat (case.out == hexOf buf)

/-- The bodies of the loops of the six tests. tests/vector_tests.rs 26, 58, 90, 122, 213, 246. -/
def vectorCase (plat : Platform) (dbg : Bool) : Suite → TestCase → Res Unit
  | .serial a => vectorCaseSerial a plat dbg
  | .tree a => vectorCaseTree a plat dbg
  | .xof a => vectorCaseXof a plat

/-- The six tests: `blake2b_vectors`, `blake2bp_vectors`, `blake2s_vectors`, `blake2sp_vectors`, `blake2xs_vectors`,
`blake2xb_vectors`. `test_num`, a `u64`, is a natural number: it would take as many vectors to make it overflow.
tests/vector_tests.rs 26-55, 58-87, 90-119, 122-151, 159-209, 213-243, 246-276. -/
def vectorTest (plat : Platform) (dbg : Bool) (suite : Suite) (cases : List TestCase) : Res Unit := do
  let testNum ← cases.foldlM (init := 0) fun n case => do
    if case.hash = suite.name then do
      vectorCase plat dbg suite case
      .ok (n + 1)
    else .ok n
  assertThat (512 == testNum)

end Blake2
