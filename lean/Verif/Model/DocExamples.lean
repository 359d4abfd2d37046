import Verif.Model.UnitTests
import Verif.Model.Args
/-!
# Model of the examples in the documentation

The examples in the documentation comments and in the README files (`cargo test` runs those in the comments). Each is a client of the API
that panics if an assertion fails. The inputs, builder calls and expected outputs are arguments; `docExamples` gives them the values they have
in /repo.
-/
namespace Blake2
open Spec
variable {a : Alg}

/-- `let hash = blake2b(input); assert_eq!(expected, &hash.to_hex());`. blake2b/src/lib.rs 27-30, 112-115, blake2s/src/lib.rs 27-29, 102-104,
README.md 26-29. -/
def docOneShot (a : Alg) (plat : Platform) (input : List Byte) (expected : List Char) : Res Unit := do
  let hash ← blake2 a plat input
  let hex ← hash.toHex
  assertThat (expected == hex)

/-- Builder calls, `to_state`, any number of updates in a chain, `finalize`. blake2b/src/lib.rs 32-41, blake2s/src/lib.rs 31-40,
README.md 31-40. -/
def docChain (a : Alg) (plat : Platform) (calls : List Setter) (pieces : List (List Byte)) (expected : List Char) : Res Unit := do
  let params ← (Params.new a plat).build calls
  let state ← pieces.foldlM (fun s x => s.update x) params.toState
  let hash ← state.finalize
  let hex ← hash.toHex
  assertThat (expected == hex)

/-- The example of `Params`: builder calls, then `hash` and `to_state`. blake2b/src/lib.rs 134-143, blake2s/src/lib.rs 123-132. -/
def docParams (a : Alg) (plat : Platform) (calls : List Setter) (input : List Byte) : Res Unit := do
  let params ← (Params.new a plat).build calls
  let _hash ← params.hash input
  let _state := params.toState
  .ok ()

/-- The example of `State`: finalize in the middle and go on. blake2b/src/lib.rs 380-386, blake2s/src/lib.rs 372-378. -/
def docState (a : Alg) (plat : Platform) (x y xy : List Byte) : Res Unit := do
  let state := State.new a plat
  let state ← state.update x
  let expected ← blake2 a plat x
  let hash ← state.finalize
  let eq ← expected.eqHash hash
  assertThat eq
  let state ← state.update y
  let expected ← blake2 a plat xy
  let hash ← state.finalize
  let eq ← expected.eqHash hash
  assertThat eq

/-- `let hash = blake2bp(input); ..`. blake2b/src/blake2bp.rs 47-50, blake2s/src/blake2sp.rs 47-49. -/
def docTreeOneShot (a : Alg) (plat : Platform) (input : List Byte) (expected : List Char) : Res Unit := do
  let params := PParams.new a plat
  let hash ← params.hash input
  let hex ← hash.toHex
  assertThat (expected == hex)

/-- Builder calls, `to_state`, updates, `finalize` for the tree variants; also `State::new()` (no calls) and updates.
blake2b/src/blake2bp.rs 12-20, 208-215, blake2s/src/blake2sp.rs 12-20, 216-222. -/
def docTreeChain (a : Alg) (plat : Platform) (calls : List PSetter) (pieces : List (List Byte)) (expected : List Char) : Res Unit := do
  let params ← (PParams.new a plat).build calls
  let state ← params.toState
  let state ← pieces.foldlM (fun s x => s.update x) state
  let hash ← state.finalize
  let hex ← hash.toHex
  assertThat (expected == hex)

/-- The example of the tree variants' `Params`. blake2b/src/blake2bp.rs 66-67, blake2s/src/blake2sp.rs 65-66. -/
def docTreeParams (a : Alg) (plat : Platform) (calls : List PSetter) : Res Unit := do
  let params ← (PParams.new a plat).build calls
  let _state ← params.toState
  .ok ()

/-- The example of the module `many` and of `update_many`, with any inputs and any function in the place of `update_many`. blake2b/src/many.rs 22-42, 191-211,
blake2s/src/many.rs 22-42, 191-211. -/
def docUpdateManyOf (a : Alg) (updateMany : List (State a × List Byte) → Res (List (State a)))
    (plat : Platform) (inputs : List (List Byte)) : Res Unit := do
  let states := inputs.map fun _ => State.new a plat
  let states ← updateMany (states.zip inputs)
  (states.zip inputs).forM fun q => do
    let expected ← blake2 a plat q.2
    let hash ← q.1.finalize
    let eq ← expected.eqHash hash
    assertThat eq

/-- The example of the module `many` and of `update_many`, with any inputs. blake2b/src/many.rs 22-42, 191-211,
blake2s/src/many.rs 22-42, 191-211. -/
def docUpdateMany (a : Alg) (plat : Platform) (inputs : List (List Byte)) : Res Unit := docUpdateManyOf a updateMany plat inputs

/-- The example of `hash_many`, with any builder calls and inputs and any function in the place of `hash_many`. blake2b/src/many.rs 360-384, blake2s/src/many.rs 360-384. -/
def docHashManyOf (a : Alg) (hashMany : List (HashManyJob a) → Res (List (HashManyJob a)))
    (plat : Platform) (dbg : Bool) (calls : List Setter) (inputs : List (List Byte)) : Res Unit := do
  let params ← (Params.new a plat).build calls
  let jobs ← inputs.mapM fun x => HashManyJob.new params x
  let jobs ← hashMany jobs
  (inputs.zip jobs).forM fun q => do
    let expected ← params.hash q.1
    let hash ← q.2.toHash dbg
    let eq ← expected.eqHash hash
    assertThat eq

/-- The example of `hash_many`, with any builder calls and inputs. blake2b/src/many.rs 360-384, blake2s/src/many.rs 360-384. -/
def docHashMany (a : Alg) (plat : Platform) (dbg : Bool) (calls : List Setter) (inputs : List (List Byte)) : Res Unit :=
  docHashManyOf a hashMany plat dbg calls inputs

/-! ## The values in /repo -/

/-- blake2b/src/lib.rs 27-28, 112-113, blake2s/src/lib.rs 27, 102. -/
def docFoo : Alg → List Char
  | .b => "ca002330e69d3e6b84a46a56a6533fd79d51d97a3bb7cad6c2ff43b354185d6dc1e723fb3db4ae0737e120378424c714bb982d9dc5bbd7a0ab318240ddd18f8d".toList
  | .s => "08d6cad88075de8f192db097573d0e829411cd91eb6ec65e8fc16c017edfdb74".toList

/-- blake2b/src/lib.rs 33-35, blake2s/src/lib.rs 32-34. -/
def docChainCalls : Alg → List Setter
  | .b => [.hashLength 16, .key (ascii "The Magic Words are Squeamish Ossifrage"), .personal (ascii "L. P. Waterhouse")]
  | .s => [.hashLength 16, .key (ascii "Squeamish Ossifrage"), .personal (ascii "Shaftoe")]

/-- blake2b/src/lib.rs 41, blake2s/src/lib.rs 40. -/
def docChainHash : Alg → List Char
  | .b => "ee8ff4e9be887297cf79348dc35dab56".toList
  | .s => "28325512782cbf5019424fa65da9a6c7".toList

/-- blake2b/src/blake2bp.rs 47-48, blake2s/src/blake2sp.rs 47. -/
def docTreeFoo : Alg → List Char
  | .b => "8ca9ccee7946afcb686fe7556628b5ba1bf9a691da37ca58cd049354d99f37042c007427e5f219b9ab5063707ec6823872dee413ee014b4d02f2ebb6abb5f643".toList
  | .s => "050dc5786037ea72cb9ed9d0324afcab03c97ec02e8c47368fc5dfb4cf49d8c9".toList

/-- blake2b/src/blake2bp.rs 13-14, blake2s/src/blake2sp.rs 13-14. -/
def docTreeCalls : Alg → List PSetter
  | .b => [.hashLength 16, .key (ascii "The Magic Words are Squeamish Ossifrage")]
  | .s => [.hashLength 16, .key (ascii "Squeamish Ossifrage")]

/-- blake2b/src/blake2bp.rs 20, blake2s/src/blake2sp.rs 20. -/
def docTreeChainHash : Alg → List Char
  | .b => "e69c7d2c42a5ac14948772231c68c552".toList
  | .s => "9a604f1653c25063debb3aeea79671c0".toList

/-- blake2b/src/blake2bp.rs 213-214, blake2s/src/blake2sp.rs 221. -/
def docTreeFoobar : Alg → List Char
  | .b => "e654427b6ef02949471712263e59071abbb6aa94855674c1daeed6cfaf127c33dfa3205f7f7f71e4f0673d25fa82a368488911f446bccd323af3ab03f53e56e5".toList
  | .s => "268120e51df583c61d6bfb7915f1c8ead299696c42f413092cd0b2247e1a388d".toList

/-- The inputs of the examples of `many`. blake2b/src/many.rs 31-36, 200-205, 362-367. -/
def docInputs : List (List Byte) := [ascii "foo", ascii "bar", ascii "baz", ascii "bing"]

/-- All the examples of a crate, as run on a machine. blake2b/src/lib.rs 24-42, 110-116, 132-144, 377-387, blake2b/src/blake2bp.rs 9-21, 45-51,
65-68, 205-216, blake2b/src/many.rs 21-43, 190-212, 359-385, and the same in blake2s/src. -/
def docExamples (a : Alg) (e : Machine) (dbg : Bool) : Res Unit := do
  docOneShot a (detect e) (ascii "foo") (docFoo a)
  docChain a (detect e) (docChainCalls a) [ascii "foo", ascii "bar", ascii "baz"] (docChainHash a)
  docParams a (detect e) [.key (ascii "my secret key"), .hashLength 16] (ascii "my input")
  docState a (detect e) (ascii "foo") (ascii "bar") (ascii "foobar")
  docTreeOneShot a (detect e) (ascii "foo") (docTreeFoo a)
  docTreeChain a (detect e) (docTreeCalls a) [ascii "foo", ascii "bar", ascii "baz"] (docTreeChainHash a)
  docTreeParams a (detect e) [.hashLength 32]
  docTreeChain a (detect e) [] [ascii "foo", ascii "bar"] (docTreeFoobar a)
  docUpdateMany a (detect e) docInputs
  docHashMany a (detect e) dbg [.hashLength 16] docInputs

/-- The command lines in the README files, with what `echo` writes to the tool and what it is said to print. README.md 47-48,
blake2_bin/README.md 19-29. -/
def readmeCommands : List (List Cli.ArgText × List Byte × List Char) :=
  [(["-sp".toList], ascii "hi\n", "49228db2a2fa8d25e8b3b2aca5a70234c71490516eaca9cba007b27d59c532b8".toList),
   ([], ascii "hello world\n",
     "fec91c70284c72d0d4e3684788a90de9338a5b2f47f01fedbe203cafd68708718ae5672d10eca804a8121904047d40d1d6cf11e7a76419357a9469af41f22d01".toList),
   (["-b".toList], ascii "hello world\n",
     "fec91c70284c72d0d4e3684788a90de9338a5b2f47f01fedbe203cafd68708718ae5672d10eca804a8121904047d40d1d6cf11e7a76419357a9469af41f22d01".toList),
   (["-sp".toList], ascii "hello world\n", "43958a843c00345bae4492cc04ecd1e47453469afeae277e067cad66244625eb".toList)]

end Blake2
