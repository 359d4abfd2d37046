import Verif.Model.Many
/-!
# Model of `blake2bp.rs` and `blake2sp.rs`

Line numbers are of blake2b/src/blake2bp.rs; blake2s/src/blake2sp.rs has the same text, with the list of leaf words on 8 more
lines (108-117 there).
-/
namespace Blake2

/-- `[[Word; 8]; DEGREE]`. -/
abbrev LeafWords (a : Alg) := Vector (Vector (Word a) 8) (parDegree a)

/-- Run `compress_many` over an array of leaf words, one job per leaf (`leaves.iter_mut().enumerate().map(..)`).
blake2bp.rs 130-143, 287-295, 369-385 (blake2sp.rs 138-151, 294-302, 376-392). `mkJob i` is the body of the closure: the leaf's input, count and last-node flag. -/
def compressLeaves {a : Alg} (mkJob : Fin (parDegree a) → Res (List Byte × Count a × Bool)) (imp : Platform)
    (finalize : Bool) (leaves : LeafWords a) : Res (LeafWords a) := do
  let src : Source a (Fin (parDegree a)) (Vector (Word a) 8) := {
    pull := fun i w => do
      let (input, count, lastNode) ← mkJob i
      .ok (w, some { id := i, input := input, count := count, lastNode := lastNode })
    getWords := fun w => w
    setWords := fun _ w => w }
  let mem ← Many.compressMany src imp finalize .Parallel (fun i => leaves[i]) (List.finRange (parDegree a))
  .ok (Vector.ofFn mem)

/-- `finalize_root_words`. blake2bp.rs 449-476 (blake2sp.rs 456-483). The `zip` of the `8 * DEGREE` words with the chunks of the
`DEGREE * OUTBYTES`-byte block covers both exactly; the model concatenates the words' bytes. -/
def finalizeRootWords {a : Alg} (leafWords : LeafWords a) (rootWords : Vector (Word a) 8) (hashLength : BitVec 8)
    (imp : Platform) : Res (Hash a) := do
  let block := (leafWords.toList.flatMap fun words => words.toList).flatMap fun word => toLE a.wb word
  let words ← compress1 a imp block rootWords 0 true true .Serial
  .ok { bytes := stateWordsToBytes a words, len := hashLength }

/-- `blake2bp::Params`. blake2bp.rs 70-75 (blake2sp.rs 69-74). -/
structure PParams (a : Alg) where
  hashLength : BitVec 8
  keyLength : BitVec 8
  key : List Byte
  implementation : Platform

namespace PParams
variable {a : Alg}

/-- `Params::new` / `default`. blake2bp.rs 79-86, 182-186 (blake2sp.rs 78-85, 190-194). `plat` is the detected platform. -/
def new (a : Alg) (plat : Platform) : PParams a where
  hashLength := BitVec.ofNat 8 a.outbytes
  keyLength := 0
  key := List.replicate a.keybytes 0
  implementation := plat

/-- `base_params` in `Params::to_words`. blake2bp.rs 89-99 (blake2sp.rs 88-98). -/
def baseParams (p : PParams a) : Res (Params a) := do
  let base := Params.new a p.implementation
  let base ← base.setHashLength p.hashLength.toNat
  let key ← sliceTo p.key p.keyLength.toNat
  let base ← base.setKey key
  let base ← base.setFanout (BitVec.ofNat 8 (parDegree a))
  let base ← base.setMaxDepth 2
  let base ← base.setMaxLeafLength 0
  base.setInnerHashLength a.outbytes

/-- The words of one leaf: the closure `leaf_words`. blake2bp.rs 100-108 (blake2sp.rs 99-107). -/
def leafWordsOf (base : Params a) (workerIndex : Nat) : Res (Vector (Word a) 8) := do
  let p ← base.setNodeOffset (BitVec.ofNat 64 workerIndex)
  let p ← p.setNodeDepth 0
  .ok p.toWords

/-- The words of the root. blake2bp.rs 110-118 (blake2sp.rs 118-126). -/
def rootWordsOf (base : Params a) : Res (Vector (Word a) 8) := do
  let p ← base.setNodeOffset 0
  let p ← p.setNodeDepth 1
  .ok p.toWords

/-- `Params::to_words`. blake2bp.rs 88-120 (blake2sp.rs 87-128). -/
def toWords (p : PParams a) : Res (LeafWords a × Vector (Word a) 8) := do
  let base ← p.baseParams
  let leaves ← (Vector.finRange (parDegree a)).mapM fun i => leafWordsOf base i.val
  let root ← rootWordsOf base
  .ok (leaves, root)

/-- `Params::hash_length`. blake2bp.rs 161-169 (blake2sp.rs 169-177). -/
def setHashLength (p : PParams a) (length : Nat) : Res (PParams a) := do
  rassert (decide (1 ≤ length) && decide (length ≤ a.outbytes))
  .ok { p with hashLength := BitVec.ofNat 8 length }

/-- `Params::key`. blake2bp.rs 173-179 (blake2sp.rs 181-187). -/
def setKey (p : PParams a) (key : List Byte) : Res (PParams a) := do
  rassert (decide (key.length ≤ a.keybytes))
  let p : PParams a := { p with keyLength := BitVec.ofNat 8 key.length }
  let p : PParams a := { p with key := List.replicate a.keybytes 0 }
  let key ← copyRange p.key 0 key.length key
  .ok { p with key := key }

/-- `force_portable`. blake2bp.rs 478-480 (blake2sp.rs 485-487). -/
def forcePortable (p : PParams a) : PParams a := { p with implementation := .Portable }

/-- `impl fmt::Debug for Params`. blake2bp.rs 188-198 (blake2sp.rs 196-206). -/
def debugFmt (p : PParams a) : String :=
  "Params { hash_length: " ++ toString p.hashLength.toNat ++ ", key_length: " ++ toString p.keyLength.toNat ++ " }"

end PParams

/-- `blake2bp::State`. blake2bp.rs 218-230 (blake2sp.rs 225-237). `buf_len : u16` is a `Nat` with checked arithmetic. -/
structure PState (a : Alg) where
  leafWords : LeafWords a
  rootWords : Vector (Word a) 8
  buf : List Byte
  bufLen : Nat
  count : Count a
  hashLength : BitVec 8
  implementation : Platform
  isKeyed : Bool

/-- `x += y` on `u16`: panics (debug) on overflow. -/
def addU16 (x y : Nat) : Res Nat := if x + y < 65536 then .ok (x + y) else .error .panic

/-- `buf[off..][..src.len()].copy_from_slice(src)`. blake2b/src/blake2bp.rs 255, 274. -/
def copyAt (buf : List Byte) (off : Nat) (src : List Byte) : Res (List Byte) :=
  if off ≤ buf.length then copyRange buf off (off + src.length) src else .error .panic

namespace PState
variable {a : Alg}

/-- `State::with_params`. blake2bp.rs 238-270 (blake2sp.rs 245-277). -/
def withParams (params : PParams a) : Res (PState a) := do
  let (leafWords, rootWords) ← params.toWords
  let buf := List.replicate (2 * parDegree a * a.bb) 0
  let (buf, bufLen) ← (if params.keyLength.toNat > 0 then
      (List.range (parDegree a)).foldlM (init := (buf, 0)) fun (st : List Byte × Nat) i => do
        let keybytes ← sliceTo params.key params.keyLength.toNat
        let buf ← copyAt st.1 (i * a.bb) keybytes
        .ok (buf, a.bb * parDegree a)
    else .ok (buf, 0) : Res (List Byte × Nat))
  .ok { leafWords := leafWords, rootWords := rootWords, buf := buf, bufLen := bufLen % 65536, count := 0,
        hashLength := params.hashLength, implementation := params.implementation,
        isKeyed := decide (params.keyLength.toNat > 0) }

/-- `State::new` / `default`. blake2bp.rs 234-236, 437-441 (blake2sp.rs 241-243, 444-448). -/
def new (a : Alg) (plat : Platform) : Res (PState a) := withParams (PParams.new a plat)

/-- `State::fill_buf`. blake2bp.rs 272-277 (blake2sp.rs 279-284). -/
def fillBuf (s : PState a) (input : List Byte) : Res (PState a × List Byte) := do
  let room ← checkedSub s.buf.length s.bufLen
  let take := min room input.length
  let src ← sliceTo input take
  let buf ← copyAt s.buf s.bufLen src
  let bufLen ← addU16 s.bufLen (take % 65536)
  let input ← sliceFrom input take
  .ok ({ s with buf := buf, bufLen := bufLen }, input)

/-- `State::compress_to_leaves`. blake2bp.rs 279-298 (blake2sp.rs 286-305). Returns the state with new leaf words and count. -/
def compressToLeaves (s : PState a) (input : List Byte) : Res (PState a) := do
  let leaves ← compressLeaves (fun i => do
      let inp ← sliceFrom input (i.val * a.bb)
      .ok (inp, s.count, false)) s.implementation false s.leafWords
  .ok { s with leafWords := leaves, count := s.count + BitVec.ofNat (2 * a.w) (input.length / parDegree a) }

/-- First part of `State::update`: complete a partial buffer. blake2bp.rs 306-337 (blake2sp.rs 313-344). -/
def updateBuffered (s : PState a) (input : List Byte) : Res (PState a × List Byte) :=
  if s.bufLen > 0 then do
    let (s, input) ← s.fillBuf input
    if !input.isEmpty then
      if input.length > (parDegree a - 1) * a.bb then do
        let s ← s.compressToLeaves s.buf
        .ok ({ s with bufLen := 0 }, input)
      else do
        let front ← sliceTo s.buf (parDegree a * a.bb)
        let s ← s.compressToLeaves front
        let bufLen := (parDegree a * a.bb) % 65536
        let bufFront ← sliceTo s.buf (parDegree a * a.bb)
        let bufBack ← sliceFrom s.buf (parDegree a * a.bb)
        let bufFront ← copyRange bufFront 0 bufFront.length bufBack
        .ok ({ s with bufLen := bufLen, buf := bufFront ++ bufBack }, input)
    else .ok (s, input)
  else .ok (s, input)

/-- Second part of `State::update`: compress whole stripes directly from the input. blake2bp.rs 343-354 (blake2sp.rs 350-361). -/
def updateBulk (s : PState a) (input : List Byte) : Res (PState a × List Byte) :=
  let neededTail := (parDegree a - 1) * a.bb + 1
  let bulkBytes := input.length - neededTail
  let bulkBytes := bulkBytes - bulkBytes % (parDegree a * a.bb)
  if bulkBytes > 0 then do
    let bulk ← sliceTo input bulkBytes
    let s ← s.compressToLeaves bulk
    let input ← sliceFrom input bulkBytes
    .ok (s, input)
  else .ok (s, input)

/-- `State::update`. blake2bp.rs 301-361 (blake2sp.rs 308-368). -/
def update (s : PState a) (input : List Byte) : Res (PState a) := do
  let (s, input) ← s.updateBuffered input
  let (s, input) ← s.updateBulk input
  let (s, input) ← s.fillBuf input
  rassert (input.length == 0)
  .ok s

/-- `State::finalize`. blake2bp.rs 365-395 (blake2sp.rs 372-402). -/
def finalize (s : PState a) : Res (Hash a) := do
  let leaves ← compressLeaves (fun i => do
      let upTo ← sliceTo s.buf s.bufLen
      let input ← sliceFrom upTo (min (i.val * a.bb) s.bufLen)
      .ok (input, s.count, decide (i.val = parDegree a - 1))) s.implementation true s.leafWords
  finalizeRootWords leaves s.rootWords s.hashLength s.implementation

/-- `State::count`. blake2bp.rs 401-411 (blake2sp.rs 408-418). The subtraction panics on underflow when `dbg`, and wraps otherwise. -/
def getCount (dbg : Bool) (s : PState a) : Res (Count a) :=
  let ret := s.count * BitVec.ofNat (2 * a.w) (parDegree a) + BitVec.ofNat (2 * a.w) s.bufLen
  if s.isKeyed then
    if dbg && decide (ret.toNat < parDegree a * a.bb) then .error .panic
    else .ok (ret - BitVec.ofNat (2 * a.w) (parDegree a * a.bb))
  else .ok ret

/-- `io::Write::write`. blake2bp.rs 416-419 (blake2sp.rs 423-426). -/
def write (s : PState a) (buf : List Byte) : Res (PState a × Nat) := do
  let s ← s.update buf
  .ok (s, buf.length)

/-- `io::Write::flush`. blake2bp.rs 421-423 (blake2sp.rs 428-430). -/
def flush (s : PState a) : Res (PState a) := .ok s

/-- `impl fmt::Debug for State`. blake2bp.rs 426-435 (blake2sp.rs 433-442). -/
def debugFmt (dbg : Bool) (s : PState a) : Res String := do
  let count ← s.getCount dbg
  .ok ("State { count: " ++ toString count.toNat ++ ", hash_length: " ++ toString s.hashLength.toNat ++ " }")

end PState

namespace PParams
variable {a : Alg}

/-- `Params::to_state`. blake2bp.rs 154-156 (blake2sp.rs 162-164). -/
def toState (p : PParams a) : Res (PState a) := PState.withParams p

/-- `Params::hash`. blake2bp.rs 123-151 (blake2sp.rs 131-159). -/
def hash (p : PParams a) (input : List Byte) : Res (Hash a) :=
  if p.keyLength.toNat > 0 then do
    let s ← p.toState
    let s ← s.update input
    s.finalize
  else do
    let (leafWords, rootWords) ← p.toWords
    let leaves ← compressLeaves (fun i => do
        let inp ← sliceFrom input (min input.length (i.val * a.bb))
        .ok (inp, 0, decide (i.val = parDegree a - 1))) p.implementation true leafWords
    finalizeRootWords leaves rootWords p.hashLength p.implementation

end PParams

/-- `blake2bp` / `blake2sp`. blake2b/src/blake2bp.rs 52-54, blake2s/src/blake2sp.rs 51-53. `plat` is the detected platform. -/
def blake2p (a : Alg) (plat : Platform) (input : List Byte) : Res (Hash a) := (PParams.new a plat).hash input

end Blake2
