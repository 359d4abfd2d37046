import Verif.Model.Api
/-!
# The library, instrumented with what its control flow and its addresses reveal

Every function below is the function of the same name, without the `L`, of `Verif/Model/Portable.lean`, `Guts.lean`, `NWay.lean`,
`Impl.lean`, `Lib.lean`, `Many.lean`, `Par.lean` and `Api.lean`, with one addition: whenever the Rust code decides which way to go (an
`if`, a `match`, a loop condition, an assertion, a bounds or overflow check) or computes a position in an array or slice, the
decision or the position is appended to a log; so is the entry into a function compiled for processors with a certain feature. This is
the usual abstraction of what an attacker learns from timing and caches: the program counter and the addresses. The log is a ghost: it has no counterpart in the Rust code, and
`Verif/Proofs/LeakErase.lean` proves that forgetting it gives back the uninstrumented functions, for all arguments. The citations are
those of the uninstrumented functions.

Not logged: arithmetic on words (wrapping additions, xors, rotations, conversions from and to little endian), which has neither
branches nor addresses; positions written as literals in straight-line code on fixed-size arrays (`words[3]`, the loads and
stores of the SIMD files), which are the same in every run.
-/
namespace Blake2

/-- The features named in a `#[target_feature(enable = ...)]`. blake2b/src/avx2.rs 426, 830, blake2b/src/sse41.rs 375,
blake2s/src/avx2.rs 460, blake2s/src/sse41.rs 404, 789. -/
inductive Feature where
  | sse41
  | avx2
deriving DecidableEq, Repr

/-- One thing that can be observed. Ghost; no line of /repo. -/
inductive Leak where
  /-- a condition was tested, and this was the answer -/
  | branch (taken : Bool)
  /-- this arm of a `match` was taken -/
  | arm (n : Nat)
  /-- the elements from position `lo` up to `hi` of an array or slice were touched -/
  | access (lo hi : Nat)
  /-- a function compiled for processors with this feature was entered -/
  | enter (f : Feature)
deriving DecidableEq, Repr

/-- A computation with the log of what it reveals; the log is kept when the computation faults. Ghost; no line of /repo. -/
structure Leaky (α : Type) where
  log : List Leak
  erase : Res α

namespace Leaky
variable {α β : Type}

/-- Run `m`, then `f` on its result. Ghost; no line of /repo. -/
protected def bind (m : Leaky α) (f : α → Leaky β) : Leaky β :=
  match m.erase with
  | .ok x => ⟨m.log ++ (f x).log, (f x).erase⟩
  | .error e => ⟨m.log, .error e⟩

instance : Monad Leaky where
  pure x := ⟨[], .ok x⟩
  bind := Leaky.bind

/-- A fault. Ghost; no line of /repo. -/
def fault (e : Fault) : Leaky α := ⟨[], .error e⟩

/-- Reveal something. Ghost; no line of /repo. -/
def reveal (x : Leak) : Leaky Unit := ⟨[x], .ok ()⟩

/-- `if c { t } else { e }`, revealing the condition. Ghost; no line of /repo. -/
def branch (c : Prop) [Decidable c] (t e : Leaky α) : Leaky α :=
  ⟨.branch (decide c) :: (if c then t else e).log, (if c then t else e).erase⟩

/-- Run a function compiled for processors with this feature. Ghost; no line of /repo. -/
def within (f : Feature) (m : Leaky α) : Leaky α := ⟨.enter f :: m.log, m.erase⟩

/-- A loop over the elements of an array, collecting the results. Ghost; no line of /repo. -/
def mapList (f : α → Leaky β) : List α → Leaky (List β)
  | [] => pure []
  | x :: xs => do
    let y ← f x
    let ys ← mapList f xs
    pure (y :: ys)

/-- The same for an array of known length. Ghost; no line of /repo. -/
def mapVector {N : Nat} (f : α → Leaky β) (xs : Vector α N) : Leaky (Vector β N) := do
  let ys ← mapList f xs.toList
  if h : ys.toArray.size = N then pure ⟨ys.toArray, h⟩ else fault .panic

end Leaky

open Leaky (fault reveal branch within)

/-! ## Slices -/

/-- `&l[i..]`. Used at blake2b/src/lib.rs 428, 470, blake2b/src/guts.rs 239. -/
def sliceFromL (l : List Byte) (i : Nat) : Leaky (List Byte) := do
  reveal (.access i l.length)
  branch (i ≤ l.length) (pure (l.drop i)) (fault .panic)

/-- `&l[..j]`. Used at blake2b/src/lib.rs 426, 462, blake2b/src/blake2bp.rs 92, 254, 349. -/
def sliceToL (l : List Byte) (j : Nat) : Leaky (List Byte) := do
  reveal (.access 0 j)
  branch (j ≤ l.length) (pure (l.take j)) (fault .panic)

/-- `l[lo..hi].copy_from_slice(src)`. Used at blake2b/src/lib.rs 255, 265, 279, 426. -/
def copyRangeL (l : List Byte) (lo hi : Nat) (src : List Byte) : Leaky (List Byte) := do
  reveal (.access lo hi)
  branch (lo ≤ hi ∧ hi ≤ l.length ∧ hi - lo = src.length) (pure (l.take lo ++ src ++ l.drop hi)) (fault .panic)

/-- `array_ref!(l, off, n)`. Used at blake2b/src/guts.rs 241, blake2b/src/portable.rs 150. -/
def arrayRefL (l : List Byte) (off n : Nat) : Leaky (List Byte) := do
  reveal (.access off (off + n))
  branch (off + n ≤ l.length) (pure ((l.drop off).take n)) (fault .panic)

/-- `&*(l.as_ptr().add(off) as *const [u8; n])`: no check, so no branch. blake2b/src/avx2.rs 460, 891-896. -/
def rawRefL (l : List Byte) (off n : Nat) : Leaky (List Byte) := do
  reveal (.access off (off + n))
  if off + n ≤ l.length then pure ((l.drop off).take n) else fault .ub

/-- `assert!` / `debug_assert!`. Used at blake2b/src/lib.rs 239, 252, 263, 273, 321, blake2b/src/guts.rs 256. -/
def rassertL (c : Bool) : Leaky Unit := branch (c = true) (pure ()) (fault .panic)

/-- `x - y` on `usize` with its overflow check. blake2b/src/lib.rs 425, blake2b/src/many.rs 243. -/
def checkedSubL (x y : Nat) : Leaky Nat := branch (y ≤ x) (pure (x - y)) (fault .panic)

/-- `x + y` on `usize` with its overflow check. blake2b/src/avx2.rs 474, 918, blake2b/src/portable.rs 164. -/
def addUsizeL (limit x y : Nat) : Leaky Nat := branch (x + y ≤ limit) (pure (x + y)) (fault .panic)

/-- `x += y` on `u8` with its overflow check. blake2b/src/lib.rs 427. -/
def addU8L (x y : Nat) : Leaky Nat := branch (x + y < 256) (pure (x + y)) (fault .panic)

/-- `x += y` on `u16` with its overflow check. blake2b/src/blake2bp.rs 275. -/
def addU16L (x y : Nat) : Leaky Nat := branch (x + y < 65536) (pure (x + y)) (fault .panic)

/-- `cmp::min`. blake2b/src/lib.rs 425, blake2b/src/guts.rs 238. -/
def minL (x y : Nat) : Leaky Nat := branch (x ≤ y) (pure x) (pure y)

/-! ## guts.rs and portable.rs -/

/-- `flag_word`. guts.rs 217-223 (blake2s 215-221). -/
def flagWordL (a : Alg) (flag : Bool) : Leaky (Word a) := branch (flag = true) (pure (~~~0)) (pure 0)

/-- `final_block`. guts.rs 232-250 (blake2s 230-248). -/
def finalBlockL (a : Alg) (input : List Byte) (offset : Nat) (buffer : List Byte) (stride : Stride) :
    Leaky (List Byte × Nat × Bool) := do
  let cappedOffset ← minL offset input.length
  let offsetSlice ← sliceFromL input cappedOffset
  branch (offsetSlice.length ≥ a.bb)
    (do
      let block ← arrayRefL offsetSlice 0 a.bb
      let shouldFinalize := decide (offsetSlice.length ≤ stride.padded a)
      pure (block, a.bb, shouldFinalize))
    (do
      let buffer ← copyRangeL buffer 0 offsetSlice.length offsetSlice
      pure (buffer, offsetSlice.length, true))

/-- `input_debug_asserts`. guts.rs 252-259 (blake2s 250-257). -/
def inputDebugAssertsL (a : Alg) (input : List Byte) (finalize : Bool) : Leaky Unit :=
  branch ((!finalize) = true)
    (do
      rassertL (!input.isEmpty)
      rassertL (input.length % a.bb == 0))
    (pure ())

/-- A `compress_block` with its log. The functions cited at `CompressBlock`: blake2b/src/portable.rs 47-117, blake2b/src/avx2.rs 146-424. -/
abbrev CompressBlockL (a : Alg) :=
  List Byte → Vector (Word a) 8 → Count a → Word a → Word a → Leaky (Vector (Word a) 8)

/-- A `compress_block` whose every position is a literal: the SIMD ones, blake2b/src/avx2.rs 146-424, blake2s/src/sse41.rs 151-402. -/
def straight {a : Alg} (f : CompressBlock a) : CompressBlockL a := fun block words count lastBlock lastNode =>
  pure (f block words count lastBlock lastNode)

namespace Portable

/-- `g`. blake2b/src/portable.rs 15-24, blake2s/src/portable.rs 15-24. The four indices are arguments, so they are logged. -/
def gL (al : Alg) (v : Vector (Word al) 16) (a b c d : Fin 16) (x y : Word al) : Leaky (Vector (Word al) 16) := do
  reveal (.access a.val (a.val + 1))
  reveal (.access b.val (b.val + 1))
  reveal (.access c.val (c.val + 1))
  reveal (.access d.val (d.val + 1))
  pure (g al v a b c d x y)

/-- `m[s[i] as usize]`. blake2b/src/portable.rs 34-43, blake2s/src/portable.rs 32-41. -/
def loadL {al : Alg} (m : Vector (Word al) 16) (i : Fin 16) : Leaky (Word al) := do
  reveal (.access i.val (i.val + 1))
  pure m[i]

/-- `round`. blake2b/src/portable.rs 29-44, blake2s/src/portable.rs 27-42. -/
def roundL (a : Alg) (m : Vector (Word a) 16) (v : Vector (Word a) 16) (r : Fin a.rows) : Leaky (Vector (Word a) 16) := do
  reveal (.access r.val (r.val + 1))
  let s := (SIGMA a)[r]
  let v ← gL a v 0 4 8 12 (← loadL m s[0]) (← loadL m s[1])
  let v ← gL a v 1 5 9 13 (← loadL m s[2]) (← loadL m s[3])
  let v ← gL a v 2 6 10 14 (← loadL m s[4]) (← loadL m s[5])
  let v ← gL a v 3 7 11 15 (← loadL m s[6]) (← loadL m s[7])
  let v ← gL a v 0 5 10 15 (← loadL m s[8]) (← loadL m s[9])
  let v ← gL a v 1 6 11 12 (← loadL m s[10]) (← loadL m s[11])
  let v ← gL a v 2 7 8 13 (← loadL m s[12]) (← loadL m s[13])
  gL a v 3 4 9 14 (← loadL m s[14]) (← loadL m s[15])

/-- The rounds, one after the other. blake2b/src/portable.rs 96-107, blake2s/src/portable.rs 94-103. -/
def roundsL (a : Alg) (m : Vector (Word a) 16) : List (Fin a.rows) → Vector (Word a) 16 → Leaky (Vector (Word a) 16)
  | [], v => pure v
  | r :: rs, v => do
    let v ← roundL a m v r
    roundsL a m rs v

/-- `compress_block`. blake2b/src/portable.rs 47-117, blake2s/src/portable.rs 45-113. -/
def compressBlockL (a : Alg) : CompressBlockL a := fun block words count lastBlock lastNode => do
  let v : Vector (Word a) 16 := #v[
    words[0], words[1], words[2], words[3], words[4], words[5], words[6], words[7],
    (IV a)[0], (IV a)[1], (IV a)[2], (IV a)[3],
    (IV a)[4] ^^^ countLow a count,
    (IV a)[5] ^^^ countHigh a count,
    (IV a)[6] ^^^ lastBlock,
    (IV a)[7] ^^^ lastNode]
  let v ← roundsL a (msgWords a block) (roundNumbers a) v
  pure #v[words[0] ^^^ (v[0] ^^^ v[8]), words[1] ^^^ (v[1] ^^^ v[9]),
     words[2] ^^^ (v[2] ^^^ v[10]), words[3] ^^^ (v[3] ^^^ v[11]),
     words[4] ^^^ (v[4] ^^^ v[12]), words[5] ^^^ (v[5] ^^^ v[13]),
     words[6] ^^^ (v[6] ^^^ v[14]), words[7] ^^^ (v[7] ^^^ v[15])]

end Portable

/-- The `loop` of `compress1_loop`. blake2b/src/portable.rs 137-165, blake2s/src/portable.rs 133-161,
blake2b/src/avx2.rs 445-475, blake2s/src/sse41.rs 423-453. -/
def compress1IterL (a : Alg) (compressBlock : CompressBlockL a)
    (readBlock : List Byte → Nat → Nat → Leaky (List Byte))
    (input : List Byte) (finOffset : Nat) (finBlock : List Byte) (finLen : Nat) (finLastBlock finLastNode : Word a)
    (stride : Stride) : Nat → Nat → Count a → Vector (Word a) 8 → Leaky (Vector (Word a) 8)
  | 0, _, _, _ => fault .diverge
  | fuel + 1, offset, count, words => do
    let (block, countDelta, lastBlock, lastNode) ← branch (offset = finOffset)
      (pure (finBlock, finLen, finLastBlock, finLastNode))
      (do
        let block ← readBlock input offset a.bb
        let lastBlock ← flagWordL a false
        let lastNode ← flagWordL a false
        pure (block, a.bb, lastBlock, lastNode))
    let count := count + BitVec.ofNat (2 * a.w) countDelta
    let words ← compressBlock block words count lastBlock lastNode
    branch (offset = finOffset)
      (pure words)
      (do
        let offset ← addUsizeL input.length offset (stride.padded a)
        compress1IterL a compressBlock readBlock input finOffset finBlock finLen finLastBlock finLastNode stride
          fuel offset count words)

/-- `compress1_loop`. blake2b/src/portable.rs 119-168, blake2s/src/portable.rs 115-164,
blake2b/src/avx2.rs 427-478, blake2s/src/sse41.rs 405-456. -/
def compress1LoopL (a : Alg) (compressBlock : CompressBlockL a)
    (readBlock : List Byte → Nat → Nat → Leaky (List Byte))
    (input : List Byte) (words : Vector (Word a) 8) (count : Count a) (lastNode finalize : Bool) (stride : Stride) :
    Leaky (Vector (Word a) 8) := do
  inputDebugAssertsL a input finalize
  let finOffset := input.length - 1
  let finOffset := finOffset - finOffset % stride.padded a
  let buf := List.replicate a.bb 0
  let (finBlock, finLen, _) ← finalBlockL a input finOffset buf stride
  let finLastBlock ← flagWordL a finalize
  let finLastNode ← flagWordL a (finalize && lastNode)
  compress1IterL a compressBlock readBlock input finOffset finBlock finLen finLastBlock finLastNode stride
    (input.length + 1) 0 count words

/-- Which arm of the `match self.0` in `impl Implementation` is taken. blake2b/src/guts.rs 105-115, blake2s/src/guts.rs 105-113. -/
def Platform.arm : Platform → Nat
  | .Portable => 0
  | .SSE41 => 1
  | .AVX2 => 2

/-- The arms of `Implementation::compress1_loop`. blake2b/src/guts.rs 105-115, blake2s/src/guts.rs 105-113. The features are those of
`avx2::compress1_loop` (blake2b/src/avx2.rs 426) and `sse41::compress1_loop` (blake2s/src/sse41.rs 404). -/
def compress1ArmL : (a : Alg) → Platform → List Byte → Vector (Word a) 8 → Count a → (lastNode finalize : Bool) → Stride →
    Leaky (Vector (Word a) 8)
  | .b, .AVX2 => fun input words count lastNode finalize stride =>
    within .avx2 (compress1LoopL .b (straight BAvx2.compressBlock) rawRefL input words count lastNode finalize stride)
  | .b, _ => compress1LoopL .b (Portable.compressBlockL .b) arrayRefL
  | .s, .AVX2 => fun input words count lastNode finalize stride =>
    within .sse41 (compress1LoopL .s (straight SSse41.compressBlock) rawRefL input words count lastNode finalize stride)
  | .s, .SSE41 => fun input words count lastNode finalize stride =>
    within .sse41 (compress1LoopL .s (straight SSse41.compressBlock) rawRefL input words count lastNode finalize stride)
  | .s, .Portable => compress1LoopL .s (Portable.compressBlockL .s) arrayRefL

/-- `Implementation::compress1_loop`. blake2b/src/guts.rs 96-116, blake2s/src/guts.rs 96-114. -/
def compress1L (a : Alg) (imp : Platform) (input : List Byte) (words : Vector (Word a) 8) (count : Count a)
    (lastNode finalize : Bool) (stride : Stride) : Leaky (Vector (Word a) 8) := do
  reveal (.arm imp.arm)
  compress1ArmL a imp input words count lastNode finalize stride

/-! ## lib.rs -/

namespace Params
variable {a : Alg}

/-- `Params::hash_length`. lib.rs 238-246 (229-237). -/
def setHashLengthL (p : Params a) (length : Nat) : Leaky (Params a) := do
  rassertL (decide (1 ≤ length) && decide (length ≤ a.outbytes))
  pure { p with hashLength := BitVec.ofNat 8 length }

/-- `Params::key`. lib.rs 251-257 (242-248). -/
def setKeyL (p : Params a) (key : List Byte) : Leaky (Params a) := do
  rassertL (decide (key.length ≤ a.keybytes))
  let p : Params a := { p with keyLength := BitVec.ofNat 8 key.length }
  let p : Params a := { p with keyBlock := List.replicate a.bb 0 }
  let keyBlock ← copyRangeL p.keyBlock 0 key.length key
  pure { p with keyBlock := keyBlock }

/-- `Params::salt`. lib.rs 262-267 (253-258). -/
def setSaltL (p : Params a) (salt : List Byte) : Leaky (Params a) := do
  rassertL (decide (salt.length ≤ a.saltbytes))
  let p : Params a := { p with salt := List.replicate a.saltbytes 0 }
  let salt ← copyRangeL p.salt 0 salt.length salt
  pure { p with salt := salt }

/-- `Params::personal`. lib.rs 272-281 (263-272). -/
def setPersonalL (p : Params a) (personalization : List Byte) : Leaky (Params a) := do
  rassertL (decide (personalization.length ≤ a.personalbytes))
  let p : Params a := { p with personal := List.replicate a.personalbytes 0 }
  let personal ← copyRangeL p.personal 0 personalization.length personalization
  pure { p with personal := personal }

/-- `Params::node_offset`. blake2b/src/lib.rs 306-309, blake2s/src/lib.rs 297-301. -/
def setNodeOffsetL : {a : Alg} → (p : Params a) → (offset : BitVec 64) → Leaky (Params a)
  | .b, p, offset => pure { p with nodeOffset := offset }
  | .s, p, offset => do
    rassertL (decide (offset.toNat < 1 <<< 48))
    pure { p with nodeOffset := offset }

/-- `Params::inner_hash_length`. lib.rs 320-324 (312-316). -/
def setInnerHashLengthL (p : Params a) (length : Nat) : Leaky (Params a) := do
  rassertL (decide (length ≤ a.outbytes))
  pure { p with innerHashLength := BitVec.ofNat 8 length }

end Params

/-- The builder methods. blake2b/src/lib.rs 238-339, blake2s/src/lib.rs 229-331. -/
def Spec.Setter.runL {a : Alg} (p : Params a) : Spec.Setter → Leaky (Params a)
  | .hashLength n => p.setHashLengthL n
  | .key k => p.setKeyL k
  | .salt s => p.setSaltL s
  | .personal x => p.setPersonalL x
  | .fanout n => pure { p with fanout := n }
  | .maxDepth n => pure { p with maxDepth := n }
  | .maxLeafLength n => pure { p with maxLeafLength := n }
  | .nodeOffset n => p.setNodeOffsetL n
  | .nodeDepth n => pure { p with nodeDepth := n }
  | .innerHashLength n => p.setInnerHashLengthL n
  | .lastNode b => pure { p with lastNode := b }

/-- A client's chain of the builder calls of blake2b/src/lib.rs 234-340, blake2s/src/lib.rs 226-331. -/
def Params.buildL {a : Alg} : Params a → List Spec.Setter → Leaky (Params a)
  | p, [] => pure p
  | p, c :: cs => do
    let p ← c.runL p
    Params.buildL p cs

namespace State
variable {a : Alg}

/-- `State::with_params`. lib.rs 406-422 (398-414). -/
def withParamsL (params : Params a) : Leaky (State a) :=
  let state : State a := {
    words := params.toWords
    count := 0
    buf := List.replicate a.bb 0
    buflen := 0
    lastNode := params.lastNode
    hashLength := params.hashLength
    implementation := params.implementation
    isKeyed := decide (params.keyLength.toNat > 0) }
  branch (state.isKeyed = true)
    (pure { state with buf := params.keyBlock, buflen := params.keyBlock.length % 256 })
    (pure state)

/-- `State::fill_buf`. lib.rs 424-429 (416-421). -/
def fillBufL (s : State a) (input : List Byte) : Leaky (State a × List Byte) := do
  let room ← checkedSubL a.bb s.buflen
  let take ← minL room input.length
  let src ← sliceToL input take
  let buf ← copyRangeL s.buf s.buflen (s.buflen + take) src
  let buflen ← addU8L s.buflen (take % 256)
  let input ← sliceFromL input take
  pure ({ s with buf := buf, buflen := buflen }, input)

/-- `State::compress_buffer_if_possible`. lib.rs 434-450 (426-442). -/
def compressBufferIfPossibleL (s : State a) (input : List Byte) : Leaky (State a × List Byte) :=
  branch (s.buflen > 0)
    (do
      let (s, input) ← fillBufL s input
      branch ((!input.isEmpty) = true)
        (do
          let words ← compress1L a s.implementation s.buf s.words s.count s.lastNode false .Serial
          pure ({ s with words := words, count := s.count + BitVec.ofNat (2 * a.w) a.bb, buflen := 0 }, input))
        (pure (s, input)))
    (pure (s, input))

/-- `State::update`. lib.rs 453-478 (445-470). -/
def updateL (s : State a) (input : List Byte) : Leaky (State a) := do
  let (s, input) ← compressBufferIfPossibleL s input
  let end_ := input.length - 1
  let end_ := end_ - end_ % a.bb
  let (s, input) ← branch (end_ > 0)
    (do
      let blocks ← sliceToL input end_
      let words ← compress1L a s.implementation blocks s.words s.count s.lastNode false .Serial
      let input ← sliceFromL input end_
      pure ({ s with words := words, count := s.count + BitVec.ofNat (2 * a.w) end_ }, input))
    (pure (s, input))
  let (s, _) ← fillBufL s input
  pure s

/-- `State::finalize`. lib.rs 482-496 (474-488). -/
def finalizeL (s : State a) : Leaky (Hash a) := do
  let input ← sliceToL s.buf s.buflen
  let words ← compress1L a s.implementation input s.words s.count s.lastNode true .Serial
  pure { bytes := stateWordsToBytes a words, len := s.hashLength }

/-- `State::count`. lib.rs 519-525 (511-517). -/
def getCountL (dbg : Bool) (s : State a) : Leaky (Count a) :=
  let ret := s.count + BitVec.ofNat (2 * a.w) s.buflen
  branch (s.isKeyed = true)
    (branch ((dbg && decide (ret.toNat < a.bb)) = true) (fault .panic) (pure (ret - BitVec.ofNat (2 * a.w) a.bb)))
    (pure ret)

end State

/-- `Params::hash`. lib.rs 208-226 (199-217). -/
def Params.hashL {a : Alg} (p : Params a) (input : List Byte) : Leaky (Hash a) :=
  branch (p.keyLength.toNat > 0)
    (do
      let s ← State.withParamsL p
      let s ← s.updateL input
      s.finalizeL)
    (do
      let words ← compress1L a p.implementation input p.toWords 0 p.lastNode true .Serial
      pure { bytes := stateWordsToBytes a words, len := p.hashLength })

/-- The byte loop of `constant_time_eq` (a dependency, not in /repo): the loop condition and the position read. Called at
blake2b/src/lib.rs 637, 644. -/
def constantTimeLoopL : Nat → List (Byte × Byte) → Byte → Leaky Byte
  | _, [], acc => do
    reveal (.branch false)
    pure acc
  | i, p :: ps, acc => do
    reveal (.branch true)
    reveal (.access i (i + 1))
    constantTimeLoopL (i + 1) ps (acc ||| (p.1 ^^^ p.2))

/-- `constant_time_eq::constant_time_eq` (a dependency, not in /repo). The answer is a value, not a branch. Called at
blake2b/src/lib.rs 637, 644. -/
def constantTimeEqL (x y : List Byte) : Leaky Bool :=
  branch ((x.length != y.length) = true)
    (pure false)
    (do
      let acc ← constantTimeLoopL 0 (x.zip y) 0
      pure (acc == 0))

namespace Hash
variable {a : Alg}

/-- `Hash::as_bytes`. lib.rs 590-592 (582-584). -/
def asBytesL (h : Hash a) : Leaky (List Byte) := sliceToL h.bytes h.len.toNat

/-- `impl PartialEq for Hash`. lib.rs 635-639 (627-631). -/
def eqHashL (h k : Hash a) : Leaky Bool := do
  let x ← h.asBytesL
  let y ← k.asBytesL
  constantTimeEqL x y

/-- `impl PartialEq<[u8]> for Hash`. lib.rs 642-646 (634-638). -/
def eqSliceL (h : Hash a) (other : List Byte) : Leaky Bool := do
  let x ← h.asBytesL
  constantTimeEqL x other

/-- `table[i] as char` in `bytes_to_hex`. lib.rs 613-614 (605-606). -/
def hexAtL (i : Nat) : Leaky Char := do
  reveal (.access i (i + 1))
  if h : i < 16 then pure hexTable[i] else fault .panic

/-- `ArrayString::push`, which panics beyond the capacity. lib.rs 613-614 (605-606). -/
def pushL (a : Alg) (s : List Char) (c : Char) : Leaky (List Char) :=
  branch (s.length < 2 * a.outbytes) (pure (s ++ [c])) (fault .panic)

/-- `bytes_to_hex`. lib.rs 609-617 (601-609). -/
def bytesToHexL (a : Alg) : List Byte → List Char → Leaky (List Char)
  | [], s => pure s
  | b :: bytes, s => do
    let c ← hexAtL (b >>> 4).toNat
    let s ← pushL a s c
    let c ← hexAtL (b &&& 0xf).toNat
    let s ← pushL a s c
    bytesToHexL a bytes s

/-- `Hash::to_hex`. lib.rs 605-607 (597-599). -/
def toHexL (h : Hash a) : Leaky (List Char) := do
  let b ← h.asBytesL
  bytesToHexL a b []

end Hash

/-! ## many.rs -/

namespace NWay
variable {a : Alg} {N : Nat} {R : Type}

/-- The main loop of `compressN_loop`. blake2b/src/avx2.rs 879-918, blake2b/src/sse41.rs 413-450,
blake2s/src/sse41.rs 838-877, blake2s/src/avx2.rs 538-581. `transpose_msg_vecs`, `add_to_counts` and `compressN_transposed!` are
straight-line code, except that the rounds index the message vectors by `SIGMA`, as in `roundL`; those positions are logged. -/
def loopIterL (o : VImpl a N R) (inputs : Vector (List Byte) N) (minLen : Nat) (fin : Fin_ a N R) (stride : Stride) :
    Nat → Nat → Vector R 8 → R → R → Leaky (Nat × Vector R 8 × R × R)
  | 0, _, _, _, _ => fault .diverge
  | fuel + 1, offset, h, lo, hi => do
    let (blocks, countsDelta, lastBlock, lastNode) ← branch (offset = fin.offset)
      (pure (fin.blocks, fin.countsDelta, fin.lastBlock, fin.lastNode))
      (do
        let blocks ← Leaky.mapVector (fun input => rawRefL input offset a.bb) inputs
        pure (blocks, o.set1 (BitVec.ofNat a.w a.bb), o.set1 0, o.set1 0))
    let m := o.transposeMsg blocks
    let (lo, hi) := addToCounts o lo hi countsDelta
    revealRounds (roundNumbers a)
    let h := compressTransposed o h m lo hi lastBlock lastNode
    branch (offset = fin.offset)
      (pure (offset, h, lo, hi))
      (do
        let offset ← addUsizeL minLen offset (stride.padded a)
        loopIterL o inputs minLen fin stride fuel offset h lo hi)
where
  /-- the positions `SIGMA[r][0]`, ..., `SIGMA[r][15]` of the message vectors -/
  revealRounds : List (Fin a.rows) → Leaky Unit
    | [] => pure ()
    | r :: rs => do
      reveal (.access r.val (r.val + 1))
      ⟨(SIGMA a)[r].toList.map fun i => .access i.val (i.val + 1), .ok ()⟩
      revealRounds rs

/-- `input_debug_asserts` for every job. blake2b/src/avx2.rs 836-838, blake2b/src/sse41.rs 381-383. -/
def assertJobsL (a : Alg) (finalize : Bool) : List (Job a) → Leaky Unit
  | [] => pure ()
  | job :: jobs => do
    inputDebugAssertsL a job.input finalize
    assertJobsL a finalize jobs

/-- `iter().map(..).min()`, revealing the comparisons. blake2b/src/avx2.rs 848, blake2b/src/sse41.rs 388. -/
def listMinL : List Nat → Leaky (Option Nat)
  | [] => pure none
  | x :: xs => do
    match ← listMinL xs with
    | none => pure (some x)
    | some y => do
      let z ← minL x y
      pure (some z)

/-- `compressN_loop`. blake2b/src/avx2.rs 831-929 (`compress4_loop`), blake2b/src/sse41.rs 376-461 (`compress2_loop`),
blake2s/src/sse41.rs 790-888 (`compress4_loop`), blake2s/src/avx2.rs 461-592 (`compress8_loop`). -/
def compressLoopL (o : VImpl a N R) (jobs : Vector (Job a) N) (finalize : Bool) (stride : Stride) :
    Leaky (Vector (Job a) N) := do
  assertJobsL a finalize jobs.toList
  let h := o.transposeState (jobs.map (·.words))
  let (lo, hi) := loadCounts o jobs
  let minLen ← (do
    match ← listMinL (jobs.toList.map fun job => job.input.length) with
    | some n => pure n
    | none => fault .panic)
  let finOffset := minLen - 1
  let finOffset := finOffset - finOffset % stride.padded a
  let fins ← Leaky.mapVector (fun job => finalBlockL a job.input finOffset (List.replicate a.bb 0) stride) jobs
  let finDelta := o.setN (fins.map fun f => BitVec.ofNat a.w f.2.1)
  let (finLastBlock, finLastNode) ← branch (finalize = true)
    (do
      let lastBlocks ← Leaky.mapVector (fun f => flagWordL a f.2.2) fins
      let lastNodes ← Leaky.mapVector (flagWordL a) (Vector.ofFn fun i => fins[i].2.2 && jobs[i].lastNode)
      pure (o.setN lastBlocks, o.setN lastNodes))
    (pure (o.set1 0, o.set1 0))
  let fin : Fin_ a N R :=
    { offset := finOffset, blocks := fins.map (·.1), countsDelta := finDelta,
      lastBlock := finLastBlock, lastNode := finLastNode }
  let (offset, h, lo, hi) ← loopIterL o (jobs.map (·.input)) minLen fin stride (minLen + 1) 0 h lo hi
  -- Write out the results.
  let words := o.untransposeState h
  let counts := storeCounts o lo hi
  let maxConsumed := offset + stride.padded a
  Leaky.mapVector (fun i => do
    let consumed ← minL maxConsumed jobs[i].input.length
    let input ← sliceFromL jobs[i].input consumed
    pure { input := input, words := words[i], count := counts[i], lastNode := jobs[i].lastNode }) (Vector.finRange N)

end NWay

/-- The arms of `Implementation::compress4_loop` (BLAKE2b, guts.rs 129-134), `compress8_loop` (BLAKE2s, guts.rs 127-132). The features are
those of blake2b/src/avx2.rs 830, blake2s/src/avx2.rs 460. -/
def compressHiL : (a : Alg) → Platform → Vector (Job a) (hiDegree a) → (finalize : Bool) → Stride →
    Leaky (Vector (Job a) (hiDegree a))
  | .b, .AVX2 => fun jobs finalize stride => within .avx2 (NWay.compressLoopL BAvx2.impl jobs finalize stride)
  | .s, .AVX2 => fun jobs finalize stride => within .avx2 (NWay.compressLoopL SAvx2.impl jobs finalize stride)
  | _, _ => fun _ _ _ => fault .panic

/-- The arms of `Implementation::compress2_loop` (BLAKE2b, guts.rs 119-126), `compress4_loop` (BLAKE2s, guts.rs 117-124). The features are
those of blake2b/src/sse41.rs 375, blake2s/src/sse41.rs 789. -/
def compressLoL : (a : Alg) → Platform → Vector (Job a) (loDegree a) → (finalize : Bool) → Stride →
    Leaky (Vector (Job a) (loDegree a))
  | .b, .AVX2 => fun jobs finalize stride => within .sse41 (NWay.compressLoopL BSse41.impl jobs finalize stride)
  | .b, .SSE41 => fun jobs finalize stride => within .sse41 (NWay.compressLoopL BSse41.impl jobs finalize stride)
  | .s, .AVX2 => fun jobs finalize stride => within .sse41 (NWay.compressLoopL SSse41.impl jobs finalize stride)
  | .s, .SSE41 => fun jobs finalize stride => within .sse41 (NWay.compressLoopL SSse41.impl jobs finalize stride)
  | _, .Portable => fun _ _ _ => fault .panic

/-- `Source` with a logged `pull`. blake2b/src/many.rs 100, 140, 215, 389. -/
structure SourceL (a : Alg) (ι E : Type) where
  pull : ι → E → Leaky (E × Option (JobRef a ι))
  getWords : E → Vector (Word a) 8
  setWords : E → Vector (Word a) 8 → E

/-- The source without the log. Ghost; no line of /repo. -/
def SourceL.erase {a : Alg} {ι E : Type} (src : SourceL a ι E) : Source a ι E where
  pull i e := (src.pull i e).erase
  getWords := src.getWords
  setWords := src.setWords

namespace Many
variable {a : Alg} {ι E : Type} [DecidableEq ι]

/-- `ArrayVec::push` on a `JobsVec`. many.rs 95, 106. -/
def pushL (vec : List (JobRef a ι)) (job : JobRef a ι) : Leaky (List (JobRef a ι)) := do
  reveal (.access vec.length (vec.length + 1))
  branch (vec.length < maxDegree a) (pure (vec ++ [job])) (fault .panic)

/-- `fill_jobs_vec`. many.rs 99-111. The arm says whether the iterator is exhausted. -/
def fillJobsVecL (src : SourceL a ι E) (targetLen : Nat) :
    (ι → E) → List ι → List (JobRef a ι) → Leaky ((ι → E) × List ι × List (JobRef a ι))
  | mem, [], vec => do
    reveal (.arm 0)
    pure (mem, [], vec)
  | mem, i :: queue, vec => branch (vec.length < targetLen)
    (do
      reveal (.arm 1)
      let (e, job) ← src.pull i (mem i)
      let mem := store mem i e
      match job with
      | none => fillJobsVecL src targetLen mem queue vec
      | some job => do
        let vec ← pushL vec job
        fillJobsVecL src targetLen mem queue vec)
    (pure (mem, i :: queue, vec))

/-- One iteration of the loop in `evict_finished`. many.rs 117-131. -/
def evictStepL (vec : List (JobRef a ι)) (i : Nat) : Leaky (List (JobRef a ι)) := do
  rassertL (decide (vec.length > i))
  reveal (.access i (i + 1))
  match vec[i]? with
  | some job => branch (job.input.isEmpty = true) (pure (vec.eraseIdx i)) (pure vec)
  | none => pure vec

/-- The loop in `evict_finished`, over these positions. many.rs 117-131. -/
def evictAllL : List (JobRef a ι) → List Nat → Leaky (List (JobRef a ι))
  | vec, [] => pure vec
  | vec, i :: is => do
    let vec ← evictStepL vec i
    evictAllL vec is

/-- `evict_finished`. many.rs 115-132. -/
def evictFinishedL (vec : List (JobRef a ι)) (numJobs : Nat) : Leaky (List (JobRef a ι)) :=
  evictAllL vec (List.range numJobs).reverse

/-- Run an N-way loop on the first `N` jobs. many.rs 156-157, 169-170. -/
def runWideL (src : SourceL a ι E) (N : Nat) (loopN : Vector (Job a) N → Leaky (Vector (Job a) N))
    (mem : ι → E) (vec : List (JobRef a ι)) : Leaky ((ι → E) × List (JobRef a ι)) := do
  reveal (.access 0 N)
  if h : (vec.take N).length = N then do
    let jobs : Vector (Job a) N := ⟨((vec.take N).map (deref src.erase mem)).toArray, by simpa using h⟩
    let jobs ← loopN jobs
    let (mem, refs) := writeBack src.erase mem ((vec.take N).zip jobs.toList)
    pure (mem, refs ++ vec.drop N)
  else fault .panic

/-- The `loop` of one level. many.rs 151-159, 164-172. -/
def levelIterL (src : SourceL a ι E) (N : Nat) (loopN : Vector (Job a) N → Leaky (Vector (Job a) N)) :
    Nat → (ι → E) → List ι → List (JobRef a ι) → Leaky ((ι → E) × List ι × List (JobRef a ι))
  | 0, _, _, _ => fault .diverge
  | fuel + 1, mem, queue, vec => do
    let (mem, queue, vec) ← fillJobsVecL src N mem queue vec
    branch (vec.length < N) (pure (mem, queue, vec))
      (do
        let (mem, vec) ← runWideL src N loopN mem vec
        let vec ← evictFinishedL vec N
        levelIterL src N loopN fuel mem queue vec)

/-- One level. many.rs 150-160, 163-173. -/
def levelL (src : SourceL a ι E) (degree N : Nat) (loopN : Vector (Job a) N → Leaky (Vector (Job a) N))
    (mem : ι → E) (queue : List ι) (vec : List (JobRef a ι)) : Leaky ((ι → E) × List ι × List (JobRef a ι)) :=
  branch (degree ≥ N) (levelIterL src N loopN (queue.length + vec.length + 1) mem queue vec)
    (pure (mem, queue, vec))

/-- Body of the final `for` loop. many.rs 175-183. -/
def runOneL (src : SourceL a ι E) (imp : Platform) (finalize : Bool) (stride : Stride) (mem : ι → E)
    (job : JobRef a ι) : Leaky (ι → E) := do
  let words ← compress1L a imp job.input (src.getWords (mem job.id)) job.count job.lastNode finalize stride
  pure (store mem job.id (src.setWords (mem job.id) words))

/-- The final `for` loop over the jobs still in the vector. many.rs 175-183. -/
def runVecL (src : SourceL a ι E) (imp : Platform) (finalize : Bool) (stride : Stride) :
    (ι → E) → List (JobRef a ι) → Leaky (ι → E)
  | mem, [] => do
    reveal (.arm 0)
    pure mem
  | mem, job :: vec => do
    reveal (.arm 1)
    let mem ← runOneL src imp finalize stride mem job
    runVecL src imp finalize stride mem vec

/-- The final `for` loop over the jobs still in the iterator. many.rs 175-183. -/
def runQueueL (src : SourceL a ι E) (imp : Platform) (finalize : Bool) (stride : Stride) :
    (ι → E) → List ι → Leaky (ι → E)
  | mem, [] => do
    reveal (.arm 0)
    pure mem
  | mem, i :: queue => do
    reveal (.arm 1)
    let (e, job) ← src.pull i (mem i)
    let mem := store mem i e
    match job with
    | none => runQueueL src imp finalize stride mem queue
    | some job => do
      let mem ← runOneL src imp finalize stride mem job
      runQueueL src imp finalize stride mem queue

/-- `compress_many`. many.rs 134-184. -/
def compressManyL (src : SourceL a ι E) (imp : Platform) (finalize : Bool) (stride : Stride)
    (mem : ι → E) (queue : List ι) : Leaky (ι → E) := do
  let (mem, queue, vec) ← levelL src (implDegree a imp) (hiDegree a)
    (fun jobs => compressHiL a imp jobs finalize stride) mem queue []
  let (mem, queue, vec) ← levelL src (implDegree a imp) (loDegree a)
    (fun jobs => compressLoL a imp jobs finalize stride) mem queue vec
  let mem ← runVecL src imp finalize stride mem vec
  runQueueL src imp finalize stride mem queue

end Many

/-- The closure of `update_many`'s `flat_map`. many.rs 230-260. -/
def updateManyPullL {a : Alg} {ι : Type} (i : ι) (inp : List Byte) (state : State a) :
    Leaky (State a × Option (JobRef a ι)) := do
  let (state, input) ← state.compressBufferIfPossibleL inp
  branch (input.isEmpty = true) (pure (state, none))
    (do
      let lastBlockStart ← checkedSubL input.length 1
      let lastBlockStart := lastBlockStart - lastBlockStart % a.bb
      let blocks ← sliceToL input lastBlockStart
      let lastBlock ← sliceFromL input lastBlockStart
      let buf ← copyRangeL state.buf 0 lastBlock.length lastBlock
      let state : State a := { state with buf := buf, buflen := lastBlock.length % 256 }
      branch (blocks.isEmpty = true) (pure (state, none))
        (let count := state.count
         let state : State a := { state with count := state.count + BitVec.ofNat (2 * a.w) blocks.length }
         pure (state, some { id := i, input := blocks, count := count, lastNode := state.lastNode })))

/-- `update_many`. many.rs 213-264. -/
def updateManyL {a : Alg} (pairs : List (State a × List Byte)) : Leaky (List (State a)) :=
  match pairs with
  | [] => do
    reveal (.arm 0)
    pure []
  | first :: _ => do
    reveal (.arm 1)
    let src : SourceL a (Fin pairs.length) (State a) := {
      pull := fun i s => updateManyPullL i (pairs[i]).2 s
      getWords := fun s => s.words
      setWords := fun s w => { s with words := w } }
    let mem ← Many.compressManyL src first.1.implementation false .Serial
      (fun i : Fin pairs.length => (pairs[i]).1) (List.finRange pairs.length)
    pure (List.ofFn mem)

/-- `HashManyJob::new`. many.rs 287-319. -/
def HashManyJob.newL {a : Alg} (params : Params a) (input : List Byte) : Leaky (HashManyJob a) := do
  let words := params.toWords
  let (words, count, finished) ← branch (params.keyLength.toNat > 0)
    (branch (input.isEmpty = true)
      (do
        let words ← compress1L a params.implementation params.keyBlock words 0 params.lastNode true .Serial
        pure (words, BitVec.ofNat (2 * a.w) a.bb, true))
      (do
        let words ← compress1L a params.implementation params.keyBlock words 0 params.lastNode false .Serial
        pure (words, BitVec.ofNat (2 * a.w) a.bb, false)))
    (pure (words, 0, false))
  pure { words := words, count := count, lastNode := params.lastNode, hashLength := params.hashLength,
         input := input, finished := finished, implementation := params.implementation }

/-- `HashManyJob::to_hash`. many.rs 326-332. -/
def HashManyJob.toHashL {a : Alg} (dbg : Bool) (j : HashManyJob a) : Leaky (Hash a) :=
  branch ((dbg && !j.finished) = true) (fault .panic)
    (pure { bytes := stateWordsToBytes a j.words, len := j.hashLength })

/-- The closures of `hash_many`'s `filter` and `map`. many.rs 408-417. -/
def hashManyPullL {a : Alg} {ι : Type} (i : ι) (j : HashManyJob a) : Leaky (HashManyJob a × Option (JobRef a ι)) :=
  branch (j.finished = true) (pure (j, none))
    (pure ({ j with finished := true }, some { id := i, input := j.input, count := j.count, lastNode := j.lastNode }))

/-- `hash_many`. many.rs 386-419. -/
def hashManyL {a : Alg} (jobs : List (HashManyJob a)) : Leaky (List (HashManyJob a)) :=
  match jobs with
  | [] => do
    reveal (.arm 0)
    pure []
  | first :: _ => do
    reveal (.arm 1)
    let src : SourceL a (Fin jobs.length) (HashManyJob a) := {
      pull := hashManyPullL
      getWords := fun j => j.words
      setWords := fun j w => { j with words := w } }
    let mem ← Many.compressManyL src first.implementation true .Serial
      (fun i : Fin jobs.length => jobs[i]) (List.finRange jobs.length)
    pure (List.ofFn mem)

/-! ## blake2bp.rs and blake2sp.rs -/

/-- `compress_many` over an array of leaf words. blake2bp.rs 130-143, 287-295, 369-385 (blake2sp.rs 138-151, 294-302, 376-392). -/
def compressLeavesL {a : Alg} (mkJob : Fin (parDegree a) → Leaky (List Byte × Count a × Bool)) (imp : Platform)
    (finalize : Bool) (leaves : LeafWords a) : Leaky (LeafWords a) := do
  let src : SourceL a (Fin (parDegree a)) (Vector (Word a) 8) := {
    pull := fun i w => do
      let (input, count, lastNode) ← mkJob i
      pure (w, some { id := i, input := input, count := count, lastNode := lastNode })
    getWords := fun w => w
    setWords := fun _ w => w }
  let mem ← Many.compressManyL src imp finalize .Parallel (fun i => leaves[i]) (List.finRange (parDegree a))
  pure (Vector.ofFn mem)

/-- `finalize_root_words`. blake2bp.rs 449-476 (blake2sp.rs 456-483). -/
def finalizeRootWordsL {a : Alg} (leafWords : LeafWords a) (rootWords : Vector (Word a) 8) (hashLength : BitVec 8)
    (imp : Platform) : Leaky (Hash a) := do
  let block := (leafWords.toList.flatMap fun words => words.toList).flatMap fun word => toLE a.wb word
  let words ← compress1L a imp block rootWords 0 true true .Serial
  pure { bytes := stateWordsToBytes a words, len := hashLength }

namespace PParams
variable {a : Alg}

/-- `base_params` in `Params::to_words`. blake2bp.rs 89-99 (blake2sp.rs 88-98). -/
def baseParamsL (p : PParams a) : Leaky (Params a) := do
  let base := Params.new a p.implementation
  let base ← base.setHashLengthL p.hashLength.toNat
  let key ← sliceToL p.key p.keyLength.toNat
  let base ← base.setKeyL key
  let base : Params a := { base with fanout := BitVec.ofNat 8 (parDegree a) }
  let base : Params a := { base with maxDepth := 2 }
  let base : Params a := { base with maxLeafLength := 0 }
  base.setInnerHashLengthL a.outbytes

/-- The closure `leaf_words`. blake2bp.rs 100-108 (blake2sp.rs 99-107). -/
def leafWordsOfL (base : Params a) (workerIndex : Nat) : Leaky (Vector (Word a) 8) := do
  let p ← base.setNodeOffsetL (BitVec.ofNat 64 workerIndex)
  let p : Params a := { p with nodeDepth := 0 }
  pure p.toWords

/-- The words of the root. blake2bp.rs 110-118 (blake2sp.rs 118-126). -/
def rootWordsOfL (base : Params a) : Leaky (Vector (Word a) 8) := do
  let p ← base.setNodeOffsetL 0
  let p : Params a := { p with nodeDepth := 1 }
  pure p.toWords

/-- `Params::to_words`. blake2bp.rs 88-120 (blake2sp.rs 87-128). -/
def toWordsL (p : PParams a) : Leaky (LeafWords a × Vector (Word a) 8) := do
  let base ← p.baseParamsL
  let leaves ← Leaky.mapVector (fun i : Fin (parDegree a) => leafWordsOfL base i.val) (Vector.finRange (parDegree a))
  let root ← rootWordsOfL base
  pure (leaves, root)

/-- `Params::hash_length`. blake2bp.rs 161-169 (blake2sp.rs 169-177). -/
def setHashLengthL (p : PParams a) (length : Nat) : Leaky (PParams a) := do
  rassertL (decide (1 ≤ length) && decide (length ≤ a.outbytes))
  pure { p with hashLength := BitVec.ofNat 8 length }

/-- `Params::key`. blake2bp.rs 173-179 (blake2sp.rs 181-187). -/
def setKeyL (p : PParams a) (key : List Byte) : Leaky (PParams a) := do
  rassertL (decide (key.length ≤ a.keybytes))
  let p : PParams a := { p with keyLength := BitVec.ofNat 8 key.length }
  let p : PParams a := { p with key := List.replicate a.keybytes 0 }
  let key ← copyRangeL p.key 0 key.length key
  pure { p with key := key }

end PParams

/-- The builder methods of `blake2bp::Params` / `blake2sp::Params`. blake2bp.rs 161-179 (blake2sp.rs 169-187). -/
def Spec.PSetter.runL {a : Alg} (p : PParams a) : Spec.PSetter → Leaky (PParams a)
  | .hashLength n => p.setHashLengthL n
  | .key k => p.setKeyL k

/-- A client's chain of the builder calls of blake2b/src/blake2bp.rs 159-179. -/
def PParams.buildL {a : Alg} : PParams a → List Spec.PSetter → Leaky (PParams a)
  | p, [] => pure p
  | p, c :: cs => do
    let p ← c.runL p
    PParams.buildL p cs

/-- `buf[off..][..src.len()].copy_from_slice(src)`. blake2b/src/blake2bp.rs 255, 274. -/
def copyAtL (buf : List Byte) (off : Nat) (src : List Byte) : Leaky (List Byte) :=
  branch (off ≤ buf.length) (copyRangeL buf off (off + src.length) src) (fault .panic)

namespace PState
variable {a : Alg}

/-- The loop of `State::with_params` that places the key blocks. blake2bp.rs 251-256 (blake2sp.rs 258-263). -/
def placeKeysL (params : PParams a) : List Nat → List Byte × Nat → Leaky (List Byte × Nat)
  | [], st => pure st
  | i :: is, st => do
    let keybytes ← sliceToL params.key params.keyLength.toNat
    let buf ← copyAtL st.1 (i * a.bb) keybytes
    placeKeysL params is (buf, a.bb * parDegree a)

/-- `State::with_params`. blake2bp.rs 238-270 (blake2sp.rs 245-277). -/
def withParamsL (params : PParams a) : Leaky (PState a) := do
  let (leafWords, rootWords) ← params.toWordsL
  let buf := List.replicate (2 * parDegree a * a.bb) 0
  let (buf, bufLen) ← branch (params.keyLength.toNat > 0)
    (placeKeysL params (List.range (parDegree a)) (buf, 0))
    (pure (buf, 0))
  pure { leafWords := leafWords, rootWords := rootWords, buf := buf, bufLen := bufLen % 65536, count := 0,
         hashLength := params.hashLength, implementation := params.implementation,
         isKeyed := decide (params.keyLength.toNat > 0) }

/-- `State::fill_buf`. blake2bp.rs 272-277 (blake2sp.rs 279-284). -/
def fillBufL (s : PState a) (input : List Byte) : Leaky (PState a × List Byte) := do
  let room ← checkedSubL s.buf.length s.bufLen
  let take ← minL room input.length
  let src ← sliceToL input take
  let buf ← copyAtL s.buf s.bufLen src
  let bufLen ← addU16L s.bufLen (take % 65536)
  let input ← sliceFromL input take
  pure ({ s with buf := buf, bufLen := bufLen }, input)

/-- `State::compress_to_leaves`. blake2bp.rs 279-298 (blake2sp.rs 286-305). -/
def compressToLeavesL (s : PState a) (input : List Byte) : Leaky (PState a) := do
  let leaves ← compressLeavesL (fun i => do
      let inp ← sliceFromL input (i.val * a.bb)
      pure (inp, s.count, false)) s.implementation false s.leafWords
  pure { s with leafWords := leaves, count := s.count + BitVec.ofNat (2 * a.w) (input.length / parDegree a) }

/-- First part of `State::update`. blake2bp.rs 306-337 (blake2sp.rs 313-344). -/
def updateBufferedL (s : PState a) (input : List Byte) : Leaky (PState a × List Byte) :=
  branch (s.bufLen > 0)
    (do
      let (s, input) ← s.fillBufL input
      branch ((!input.isEmpty) = true)
        (branch (input.length > (parDegree a - 1) * a.bb)
          (do
            let s ← s.compressToLeavesL s.buf
            pure ({ s with bufLen := 0 }, input))
          (do
            let front ← sliceToL s.buf (parDegree a * a.bb)
            let s ← s.compressToLeavesL front
            let bufLen := (parDegree a * a.bb) % 65536
            let bufFront ← sliceToL s.buf (parDegree a * a.bb)
            let bufBack ← sliceFromL s.buf (parDegree a * a.bb)
            let bufFront ← copyRangeL bufFront 0 bufFront.length bufBack
            pure ({ s with bufLen := bufLen, buf := bufFront ++ bufBack }, input)))
        (pure (s, input)))
    (pure (s, input))

/-- Second part of `State::update`. blake2bp.rs 343-354 (blake2sp.rs 350-361). -/
def updateBulkL (s : PState a) (input : List Byte) : Leaky (PState a × List Byte) :=
  let neededTail := (parDegree a - 1) * a.bb + 1
  let bulkBytes := input.length - neededTail
  let bulkBytes := bulkBytes - bulkBytes % (parDegree a * a.bb)
  branch (bulkBytes > 0)
    (do
      let bulk ← sliceToL input bulkBytes
      let s ← s.compressToLeavesL bulk
      let input ← sliceFromL input bulkBytes
      pure (s, input))
    (pure (s, input))

/-- `State::update`. blake2bp.rs 301-361 (blake2sp.rs 308-368). -/
def updateL (s : PState a) (input : List Byte) : Leaky (PState a) := do
  let (s, input) ← s.updateBufferedL input
  let (s, input) ← s.updateBulkL input
  let (s, input) ← s.fillBufL input
  rassertL (input.length == 0)
  pure s

/-- `State::finalize`. blake2bp.rs 365-395 (blake2sp.rs 372-402). -/
def finalizeL (s : PState a) : Leaky (Hash a) := do
  let leaves ← compressLeavesL (fun i => do
      let upTo ← sliceToL s.buf s.bufLen
      let start ← minL (i.val * a.bb) s.bufLen
      let input ← sliceFromL upTo start
      pure (input, s.count, decide (i.val = parDegree a - 1))) s.implementation true s.leafWords
  finalizeRootWordsL leaves s.rootWords s.hashLength s.implementation

/-- `State::count`. blake2bp.rs 401-411 (blake2sp.rs 408-418). -/
def getCountL (dbg : Bool) (s : PState a) : Leaky (Count a) :=
  let ret := s.count * BitVec.ofNat (2 * a.w) (parDegree a) + BitVec.ofNat (2 * a.w) s.bufLen
  branch (s.isKeyed = true)
    (branch ((dbg && decide (ret.toNat < parDegree a * a.bb)) = true) (fault .panic)
      (pure (ret - BitVec.ofNat (2 * a.w) (parDegree a * a.bb))))
    (pure ret)

end PState

/-- `Params::hash`. blake2bp.rs 123-151 (blake2sp.rs 131-159). -/
def PParams.hashL {a : Alg} (p : PParams a) (input : List Byte) : Leaky (Hash a) :=
  branch (p.keyLength.toNat > 0)
    (do
      let s ← PState.withParamsL p
      let s ← s.updateL input
      s.finalizeL)
    (do
      let (leafWords, rootWords) ← p.toWordsL
      let leaves ← compressLeavesL (fun i => do
          let start ← minL input.length (i.val * a.bb)
          let inp ← sliceFromL input start
          pure (inp, 0, decide (i.val = parDegree a - 1))) p.implementation true leafWords
      finalizeRootWordsL leaves rootWords p.hashLength p.implementation)

/-! ## Histories -/

/-- A state a client holds; which one is used is visible. Client side; models no line of /repo. -/
def getStateL {S : Type} (ss : List S) (i : Nat) : Leaky S := do
  reveal (.access i (i + 1))
  match ss[i]? with
  | some s => pure s
  | none => fault .panic

/-- Perform one operation of a history, as `Spec.Op.exec` does. blake2b/src/lib.rs 230-478, blake2b/src/many.rs 213-264. -/
def Spec.Op.execL {a : Alg} (dbg : Bool) (ss : List (State a)) : Spec.Op Platform → Leaky (List (State a) × Spec.Obs)
  | .create plat calls => do
    let p ← (Params.new a plat).buildL calls
    let s ← State.withParamsL p
    pure (ss ++ [s], .done)
  | .clone i => do
    let s ← getStateL ss i
    pure (ss ++ [s], .done)
  | .update i x => do
    let s ← getStateL ss i
    let s ← s.updateL x
    pure (ss.set i s, .done)
  | .updateMany jobs => do
    let pairs ← Leaky.mapList (fun j => do
      let s ← getStateL ss j.1
      pure (s, j.2)) jobs
    let out ← Blake2.updateManyL pairs
    pure ((jobs.zip out).foldl (fun ss p => ss.set p.1.1 p.2) ss, .done)
  | .write i x => do
    let s ← getStateL ss i
    let s ← s.updateL x
    pure (ss.set i s, .written x.length)
  | .flush i => do
    let s ← getStateL ss i
    pure (ss.set i s, .done)
  | .setLastNode i b => do
    let s ← getStateL ss i
    pure (ss.set i (s.setLastNode b), .done)
  | .finalize i => do
    let s ← getStateL ss i
    let h ← s.finalizeL
    let d ← h.asBytesL
    pure (ss, .digest d)
  | .count i => do
    let s ← getStateL ss i
    let n ← s.getCountL dbg
    pure (ss, .count n.toNat)

/-- Perform a history. Client side; models no line of /repo. -/
def execAllL {a : Alg} (dbg : Bool) : List (State a) → List (Spec.Op Platform) → Leaky (List (State a) × List Spec.Obs)
  | ss, [] => pure (ss, [])
  | ss, op :: ops => do
    let (ss, o) ← op.execL dbg ss
    let (ss, os) ← execAllL dbg ss ops
    pure (ss, o :: os)

/-- The way `many::hash_many` is used: for each request build parameters and create a job (many.rs 287-320), run all jobs
(many.rs 386-419) and read the hashes (many.rs 326-332). -/
def hashAllL {a : Alg} (dbg : Bool) (reqs : List (Platform × List Spec.Setter × List Byte)) : Leaky (List (List Byte)) := do
  let jobs ← Leaky.mapList (fun (q : Platform × List Spec.Setter × List Byte) => do
    let p ← (Params.new a q.1).buildL q.2.1
    HashManyJob.newL p q.2.2) reqs
  let jobs ← hashManyL jobs
  Leaky.mapList (fun (j : HashManyJob a) => do
    let h ← j.toHashL dbg
    h.asBytesL) jobs

/-- Check a tag: build keyed parameters, absorb the message in pieces, finalize and compare (the use of blake2b as a MAC that the
documentation of `Params::key`, lib.rs 248-250, and of `Hash`, lib.rs 577-579, describes). Client side. -/
def verifyTagL {a : Alg} (plat : Platform) (calls : List Spec.Setter) (pieces : List (List Byte)) (tag : List Byte) :
    Leaky Bool := do
  let p ← (Params.new a plat).buildL calls
  let s ← State.withParamsL p
  let s ← absorb s pieces
  let h ← s.finalizeL
  h.eqSliceL tag
where
  /-- the calls of `update` -/
  absorb (s : State a) : List (List Byte) → Leaky (State a)
    | [] => pure s
    | x :: xs => do
      let s ← s.updateL x
      absorb s xs

/-- Perform one operation on tree states, as `Spec.POp.exec` does. blake2b/src/blake2bp.rs 154-424. -/
def Spec.POp.execL {a : Alg} (dbg : Bool) (ss : List (PState a)) : Spec.POp Platform → Leaky (List (PState a) × Spec.Obs)
  | .create plat calls => do
    let p ← (PParams.new a plat).buildL calls
    let s ← PState.withParamsL p
    pure (ss ++ [s], .done)
  | .clone i => do
    let s ← getStateL ss i
    pure (ss ++ [s], .done)
  | .update i x => do
    let s ← getStateL ss i
    let s ← s.updateL x
    pure (ss.set i s, .done)
  | .write i x => do
    let s ← getStateL ss i
    let s ← s.updateL x
    pure (ss.set i s, .written x.length)
  | .flush i => do
    let s ← getStateL ss i
    pure (ss.set i s, .done)
  | .finalize i => do
    let s ← getStateL ss i
    let h ← s.finalizeL
    let d ← h.asBytesL
    pure (ss, .digest d)
  | .count i => do
    let s ← getStateL ss i
    let n ← s.getCountL dbg
    pure (ss, .count n.toNat)

/-- Perform a history. Client side; models no line of /repo. -/
def pexecAllL {a : Alg} (dbg : Bool) : List (PState a) → List (Spec.POp Platform) → Leaky (List (PState a) × List Spec.Obs)
  | ss, [] => pure (ss, [])
  | ss, op :: ops => do
    let (ss, o) ← op.execL dbg ss
    let (ss, os) ← pexecAllL dbg ss ops
    pure (ss, o :: os)

end Blake2
