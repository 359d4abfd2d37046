import Verif.Model.SnevesB
import Verif.Model.SnevesBp
import Verif.Model.SnevesSp
import Verif.Model.Guts
import Verif.Model.Vectors
/-!
# Model of the crate around the C library: benches/blake2-avx2-sneves/src/lib.rs
-/
namespace Blake2.Sneves
open Spec

/-- `check_avx2`. `is_x86_feature_detected!("avx2")` is true if the build assumes AVX2, or if the processor says it has it.
benches/blake2-avx2-sneves/src/lib.rs 28-32. -/
def checkAvx2 (e : Machine) : Res Unit := if e.buildAvx2 || e.cpuAvx2 then .ok () else .error .panic

/-- A call into the C library, which is compiled with `-mavx2`: on a processor without AVX2 there is no telling what it does.
benches/blake2-avx2-sneves/build.rs 6-19, src/lib.rs 34-54. -/
def callC (e : Machine) (x : Res (List Byte)) : Res (List Byte) := if e.cpuAvx2 then x else .error .ub

/-- How the crate's build script has the C library load messages. benches/blake2-avx2-sneves/build.rs 11-15. -/
def permute : Permute := .shuffles

/-- `blake2b`. benches/blake2-avx2-sneves/src/lib.rs 1-8. -/
def blake2b (e : Machine) (input : List Byte) : Res (List Byte) := do
  checkAvx2 e
  let hash := List.replicate 64 0
  callC e (SnevesB.blake2b permute hash input input.length)

/-- `blake2bp`. benches/blake2-avx2-sneves/src/lib.rs 10-17. -/
def blake2bp (e : Machine) (input : List Byte) : Res (List Byte) := do
  checkAvx2 e
  let hash := List.replicate 64 0
  callC e (SnevesBp.blake2bp permute hash input input.length)

/-- `blake2sp`. benches/blake2-avx2-sneves/src/lib.rs 19-26. -/
def blake2sp (e : Machine) (input : List Byte) : Res (List Byte) := do
  checkAvx2 e
  let hash := List.replicate 32 0
  callC e (SnevesSp.blake2sp permute hash input input.length)

/-- The body of the loop of `test_vectors`, with the count of vectors checked. benches/blake2-avx2-sneves/src/lib.rs 76-91. -/
def vectorCase (e : Machine) (num : Nat) (case : TestCase) : Res Nat := do
  let input ← unhexUnwrap case.input
  let output ← unhexUnwrap case.out
  if !case.key.isEmpty then .ok num
  else
    let found ←
      if case.hash = "blake2b" then blake2b e input >>= fun x => .ok (some x)
      else if case.hash = "blake2bp" then blake2bp e input >>= fun x => .ok (some x)
      else if case.hash = "blake2sp" then blake2sp e input >>= fun x => .ok (some x)
      else .ok none
    match found with
    | none => .ok num
    | some found => do
      assertThat (output == found)
      .ok (num + 1)

/-- `test_vectors`. The vectors are an argument, and `dbg!`, which prints, is left out. benches/blake2-avx2-sneves/src/lib.rs 71-97. -/
def testVectors (e : Machine) (cases : List TestCase) : Res Unit := do
  let num ← cases.foldlM (vectorCase e) 0
  assertThat (768 == num)

end Blake2.Sneves
