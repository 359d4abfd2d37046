import Verif.Model.KatData
import Verif.VectorSpec
/-!
# The test vectors as the tests read them
-/
namespace Blake2.Kat
open Spec

/-- The bytes 00 01 02 … (`n` of them). tests/blake2-kat.json. -/
def counting (n : Nat) : List Byte := (List.range n).map (BitVec.ofNat 8)

/-- The length of the input of the entry number `i` of a group: `i`, except for BLAKE2X. tests/blake2-kat.json. -/
def inputLength (s : Suite) (i : Nat) : Nat :=
  match s with
  | .serial _ => i
  | .tree _ => i
  | .xof _ => 256

/-- A group of entries of the file, with a key of `keyLength` bytes. tests/blake2-kat.json; `TestCase`, tests/vector_tests.rs 16-23. -/
def group (s : Suite) (keyLength : Nat) (outs : List String) : List TestCase :=
  outs.zipIdx.map fun (out, i) =>
    { hash := s.name
      input := hexOf (counting (inputLength s i))
      key := hexOf (counting keyLength)
      out := out.toList }

/-- The whole file, in order: `TEST_CASES`. tests/blake2-kat.json; tests/vector_tests.rs 11-14. -/
def testCases : List TestCase :=
  group (.serial .s) 0 s ++ group (.serial .s) 32 sKeyed ++
  group (.serial .b) 0 b ++ group (.serial .b) 64 bKeyed ++
  group (.tree .s) 0 sp ++ group (.tree .s) 32 spKeyed ++
  group (.tree .b) 0 bp ++ group (.tree .b) 64 bpKeyed ++
  group (.xof .s) 0 xs ++ group (.xof .s) 32 xsKeyed ++
  group (.xof .b) 0 xb ++ group (.xof .b) 64 xbKeyed

end Blake2.Kat
