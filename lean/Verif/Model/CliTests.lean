import Verif.Model.Bin
import Verif.Model.UnitTests
/-!
# Model of the tests of the command line tool: blake2_bin/tests/test.rs

Each runs the tool with some options on some input and compares what it prints. The options come parsed, as in `Bin.lean`.
-/
namespace Blake2.Bin
open Cli

/-- What arrives on standard output, without the newline at the end. `read()` of the crate `duct` removes it.
blake2_bin/src/main.rs 363, 372, 375. -/
def stdoutText (lines : List Line) : String :=
  "\n".intercalate (lines.filterMap fun l => match l with | .out t => some t | .err _ => none)

/-- `cmd!(blake2_exe(), ..).read().expect(..)` and the comparison with the expected output. `read` fails if the exit status is not 0,
and `expect` then panics; a tool that panics has status 101. blake2_bin/tests/test.rs 12-16, 24-27, 35-38, 82-85, 91-95, 116-120, 140-144,
151-155, 162-166. -/
def cliTest (e : Machine) (w : World) (o : Opt) (stdin : List ReadResult) (files : List OsFile) (expected : List Char) : Res Unit := do
  let out ← main e w o stdin files
  assertThat (out.status == 0)
  assertThat (String.ofList expected == stdoutText out.lines)

/-- The options of the tests that read standard input, the bytes written to it, and the expected outputs. The tests are `test_stdin`,
`test_last_node_flag`, `test_all_parameters_blake2b`, `_blake2s`, `_blake2bp`, `_blake2sp`.
blake2_bin/tests/test.rs 10-17, 89-96, 99-121, 124-145, 147-156, 158-166. -/
def stdinTests : List (Opt × List Byte × List Char) :=
  [({ length := some 16 }, ascii "abcdef", "2465e7ee63a17b4b307c7792c432aef6".toList),
   ({ length := some 16, lastNode := true }, ascii "abcdef", "d788eeea837a3d10b1f8c097059f815a".toList),
   ({ big := true, length := some 18, key := some "626172".toList, salt := some "62617a62617a62617a62617a62617a62".toList
      personal := some "62696e672062696e672062696e672062".toList, fanout := some 2, maxDepth := some 3
      maxLeafLength := some 67438087, nodeOffset := some 579005069656919567, nodeDepth := some 16
      innerHashLength := some 17, lastNode := true }, ascii "foo", "ec0f59cb65f92e7fcca1280ba859a6925ded".toList),
   ({ small := true, length := some 18, key := some "626172".toList, salt := some "62617a62617a6261".toList
      personal := some "62696e672062696e".toList, fanout := some 2, maxDepth := some 3
      maxLeafLength := some 67438087, nodeOffset := some 8834916224013, nodeDepth := some 16
      innerHashLength := some 17, lastNode := true }, ascii "foo", "62361e5392ab0eb7dd27e48a6809ee82dc57".toList),
   ({ big := true, parallel := true, length := some 18, key := some "626172".toList }, ascii "foo",
     "8c54e888a8a01c63da6585c058fe54ea81df".toList),
   ({ small := true, parallel := true, length := some 18, key := some "626172".toList }, ascii "foo",
     "947d4c671e2794f5e1a57daeca97bb46ed66".toList)]

/-- The options of the tests that read a file, without the file name, which is whatever `NamedTempFile` chose; the contents of the file, and the expected
outputs. The tests are `test_input_file`, `test_input_file_mmap` and `test_blake2bp`.
blake2_bin/tests/test.rs 19-28, 30-39, 41-87. -/
def fileTests : List (Opt × List Byte × List Char) :=
  [({ length := some 16 }, ascii "abcdef", "2465e7ee63a17b4b307c7792c432aef6".toList),
   ({ length := some 16, mmap := true }, ascii "abcdef", "2465e7ee63a17b4b307c7792c432aef6".toList),
   ({ big := true, parallel := true }, [],
     "b5ef811a8038f70b628fa8b294daae7492b1ebe343a80eaabbf1f6ae664dd67b9d90b0120791eab81dc96985f28849f6a305186a85501b405114bfa678df9380".toList),
   ({ big := true, parallel := true }, [0],
     "a139280e72757b723e6473d5be59f36e9d50fc5cd7d4585cbc09804895a36c521242fb2789f85cb9e35491f31d4a6952f9d8e097aef94fa1ca0b12525721f03d".toList),
   ({ big := true, parallel := true }, (List.range 255).map (BitVec.ofNat 8),
     "3f35c45d24fcfb4acca651076c08000e279ebbff37a1333ce19fd577202dbd24b58c514e36dd9ba64af4d78eea4e2dd13bc18d798887dd971376bcae0087e17e".toList)]

end Blake2.Bin
