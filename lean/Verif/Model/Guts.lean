import Verif.Model.Base
/-!
# Model of `guts.rs` (platform-independent helpers)
-/
namespace Blake2

/-- `enum Platform`, the payload of `Implementation`. blake2b/src/guts.rs 14-25, blake2s/src/guts.rs 14-25.
`Implementation::portable` (46-48) is the constructor `Portable`. `enum Finalize` and `enum LastNode` with their methods `yes`
(blake2b 157-184, blake2s 155-182) are `Bool`. -/
inductive Platform where
  | Portable
  | SSE41
  | AVX2
deriving DecidableEq, Repr

/-- What `Implementation::detect` can observe: the target architecture, the target features assumed at build time,
whether the `std` feature is on, and what `is_x86_feature_detected!` answers at run time. -/
structure Machine where
  x86 : Bool
  buildSse41 : Bool
  buildAvx2 : Bool
  std : Bool
  cpuSse41 : Bool
  cpuAvx2 : Bool
deriving DecidableEq, Repr

/-- `Implementation::sse41_if_supported`. guts.rs 50-66. -/
def sse41IfSupported (e : Machine) : Option Platform :=
  if e.buildSse41 then some .SSE41
  else if e.std && e.cpuSse41 then some .SSE41
  else none

/-- `Implementation::avx2_if_supported`. guts.rs 68-84. -/
def avx2IfSupported (e : Machine) : Option Platform :=
  if e.buildAvx2 then some .AVX2
  else if e.std && e.cpuAvx2 then some .AVX2
  else none

/-- `Implementation::detect`. guts.rs 28-44. -/
def detect (e : Machine) : Platform :=
  match (if e.x86 then avx2IfSupported e else none) with
  | some p => p
  | none =>
    match (if e.x86 then sse41IfSupported e else none) with
    | some p => p
    | none => .Portable

/-- `Implementation::degree`. guts.rs 86-94, with `avx2::DEGREE` / `sse41::DEGREE` (blake2b: 4 and 2, blake2s: 8 and 4). -/
def implDegree : Alg → Platform → Nat
  | .b, .AVX2 => 4
  | .b, .SSE41 => 2
  | .s, .AVX2 => 8
  | .s, .SSE41 => 4
  | _, .Portable => 1

/-- `MAX_DEGREE` on x86 targets. guts.rs 5-6. (On other targets it is 1 and only `Portable` exists.) -/
def maxDegree : Alg → Nat
  | .b => 4
  | .s => 8

/-- `MAX_DEGREE` by target: guts.rs 5-9. -/
def maxDegreeOn (a : Alg) (x86 : Bool) : Nat := if x86 then maxDegree a else 1

/-- `many::degree`: `guts::Implementation::detect().degree()`. many.rs 91-93. -/
def manyDegree (a : Alg) (e : Machine) : Nat := implDegree a (detect e)

/-- `enum Stride`. guts.rs 186-190 (blake2s 184-188). -/
inductive Stride where
  | Serial
  | Parallel
deriving DecidableEq, Repr

/-- `blake2bp::DEGREE` (blake2b/src/blake2bp.rs 38) and `blake2sp::DEGREE` (blake2s/src/blake2sp.rs 38). -/
def parDegree : Alg → Nat
  | .b => 4
  | .s => 8

/-- `Stride::padded_blockbytes`. guts.rs 192-201 (blake2s 190-199). -/
def Stride.padded (a : Alg) : Stride → Nat
  | .Serial => a.bb
  | .Parallel => parDegree a * a.bb

/-- `count_low`. guts.rs 204-206 (blake2s 202-204). -/
def countLow (a : Alg) (count : Count a) : Word a := count.setWidth a.w

/-- `count_high`. guts.rs 208-210 (blake2s 206-208). -/
def countHigh (a : Alg) (count : Count a) : Word a := (count >>> (8 * a.wb)).setWidth a.w

/-- `assemble_count`. guts.rs 213-215 (blake2s 211-213). The addition cannot overflow (the operands have disjoint bits). -/
def assembleCount (a : Alg) (low high : Word a) : Count a :=
  low.setWidth (2 * a.w) + (high.setWidth (2 * a.w) <<< (8 * a.wb))

/-- `flag_word`. guts.rs 217-223 (blake2s 215-221). -/
def flagWord (a : Alg) (flag : Bool) : Word a := if flag then ~~~0 else 0

/-- `final_block`. guts.rs 232-250 (blake2s 230-248). `buffer` is the caller's zero-initialised block buffer; the returned reference is
modelled by the bytes it points to. -/
def finalBlock (a : Alg) (input : List Byte) (offset : Nat) (buffer : List Byte) (stride : Stride) :
    Res (List Byte × Nat × Bool) := do
  let cappedOffset := min offset input.length
  let offsetSlice ← sliceFrom input cappedOffset
  if offsetSlice.length ≥ a.bb then
    let block ← arrayRef offsetSlice 0 a.bb
    let shouldFinalize := decide (offsetSlice.length ≤ stride.padded a)
    .ok (block, a.bb, shouldFinalize)
  else
    let buffer ← copyRange buffer 0 offsetSlice.length offsetSlice
    .ok (buffer, offsetSlice.length, true)

/-- `input_debug_asserts`. guts.rs 252-259 (blake2s 250-257). -/
def inputDebugAsserts (a : Alg) (input : List Byte) (finalize : Bool) : Res Unit :=
  if !finalize then do
    rassert (!input.isEmpty)
    rassert (input.length % a.bb == 0)
  else .ok ()

/-- A single-block compression function: `compress_block` of portable.rs / avx2.rs / sse41.rs. Arguments: block, words,
count, last-block flag word, last-node flag word. -/
abbrev CompressBlock (a : Alg) :=
  List Byte → Vector (Word a) 8 → Count a → Word a → Word a → Vector (Word a) 8

/-- The `loop` of `compress1_loop`: blake2b/src/portable.rs 137-165, blake2s/src/portable.rs 133-161,
blake2b/src/avx2.rs 445-475, blake2s/src/sse41.rs 423-453. `readBlock` is how a non-final block is fetched
(`array_ref!` in portable.rs, an unchecked pointer read in the SIMD files); everything else is the same text. -/
def compress1Iter (a : Alg) (compressBlock : CompressBlock a)
    (readBlock : List Byte → Nat → Nat → Res (List Byte))
    (input : List Byte) (finOffset : Nat) (finBlock : List Byte) (finLen : Nat) (finLastBlock finLastNode : Word a)
    (stride : Stride) : Nat → Nat → Count a → Vector (Word a) 8 → Res (Vector (Word a) 8)
  | 0, _, _, _ => .error .diverge
  | fuel + 1, offset, count, words => do
    let (block, countDelta, lastBlock, lastNode) ←
      (if offset = finOffset then
        (.ok (finBlock, finLen, finLastBlock, finLastNode) : Res (List Byte × Nat × Word a × Word a))
      else do
        let block ← readBlock input offset a.bb
        .ok (block, a.bb, flagWord a false, flagWord a false))
    let count := count + BitVec.ofNat (2 * a.w) countDelta
    let words := compressBlock block words count lastBlock lastNode
    if offset = finOffset then
      .ok words
    else do
      let offset ← addUsize input.length offset (stride.padded a)
      compress1Iter a compressBlock readBlock input finOffset finBlock finLen finLastBlock finLastNode stride
        fuel offset count words

/-- `compress1_loop`: blake2b/src/portable.rs 119-168, blake2s/src/portable.rs 115-164,
blake2b/src/avx2.rs 427-478, blake2s/src/sse41.rs 405-456. Returns the new `*words`. The fuel bounds the number of
iterations; running out is reported as divergence. -/
def compress1Loop (a : Alg) (compressBlock : CompressBlock a)
    (readBlock : List Byte → Nat → Nat → Res (List Byte))
    (input : List Byte) (words : Vector (Word a) 8) (count : Count a) (lastNode finalize : Bool) (stride : Stride) :
    Res (Vector (Word a) 8) := do
  inputDebugAsserts a input finalize
  let finOffset := input.length - 1
  let finOffset := finOffset - finOffset % stride.padded a
  let buf := List.replicate a.bb 0
  let (finBlock, finLen, _) ← finalBlock a input finOffset buf stride
  let finLastBlock := flagWord a finalize
  let finLastNode := flagWord a (finalize && lastNode)
  compress1Iter a compressBlock readBlock input finOffset finBlock finLen finLastBlock finLastNode stride
    (input.length + 1) 0 count words

end Blake2
