import Verif.Model.World
/-!
# The code on targets other than x86, of either byte order

The rest of the model reads `Word::from_le_bytes` and `to_le_bytes` by their documentation: the first byte is the low-order one. This file
follows the standard library one step further down, to integers as the target stores them, and repeats every function that
converts between words and bytes, or calls one that does. Nothing else in /repo looks at how a word is stored, outside the SIMD code,
which exists on x86 only, where the low-order byte comes first. It also leaves out what is compiled on x86 only. Line numbers are of the
BLAKE2b crate.
-/
namespace Blake2.Target
open Blake2.Spec

/-- How the target stores an integer: with the low-order or the high-order byte first. `cfg(target_endian)`; /repo has none, and
.github/workflows/ci.yml 54-56 tests two targets of the second kind. -/
inductive ByteOrder where
  | little
  | big
deriving DecidableEq, Repr

/-- An array `[u8; n]`. The lists given here have `n` bytes, as the types in /repo require; others are cut off or filled with zeros. -/
def array (n : Nat) (bytes : List Byte) : List Byte := (bytes ++ List.replicate n 0).take n

/-- `from_ne_bytes` of an `n`-byte integer (standard library, a transmute; behind lib.rs 199-202, portable.rs 78-93): the integer stored as these bytes. -/
def fromNeBytes (e : ByteOrder) (w n : Nat) (bytes : List Byte) : BitVec w :=
  match e with
  | .little => BitVec.ofNat w (leNat (array n bytes))
  | .big => BitVec.ofNat w (leNat (array n bytes).reverse)

/-- `to_ne_bytes` of an `n`-byte integer (standard library, a transmute; behind lib.rs 534-541, blake2bp.rs 462): the bytes as which it is stored. -/
def toNeBytes (e : ByteOrder) (n : Nat) {w : Nat} (x : BitVec w) : List Byte :=
  match e with
  | .little => (List.range n).map fun i => x.extractLsb' (8 * i) 8
  | .big => (List.range n).map fun i => x.extractLsb' (8 * (n - 1 - i)) 8

/-- `swap_bytes` of an `n`-byte integer (standard library; behind lib.rs 199-202, 534-541). -/
def swapBytes (n : Nat) {w : Nat} (x : BitVec w) : BitVec w :=
  (List.range n).foldl (fun y i => (y <<< 8) ||| ((x >>> (8 * i)) &&& 0xff)) 0

/-- `to_le` and `from_le` (standard library; behind lib.rs 199-202, 534-541): nothing on a little-endian target, `swap_bytes` on others. -/
def le (e : ByteOrder) (n : Nat) {w : Nat} (x : BitVec w) : BitVec w :=
  match e with
  | .little => x
  | .big => swapBytes n x

/-- `from_le_bytes` (standard library): `Self::from_le(Self::from_ne_bytes(bytes))`. Used at lib.rs 199-202, portable.rs 78-93. -/
def fromLeBytes (e : ByteOrder) (w n : Nat) (bytes : List Byte) : BitVec w := le e n (fromNeBytes e w n bytes)

/-- `to_le_bytes` (standard library): `self.to_le().to_ne_bytes()`. Used at lib.rs 534-541, blake2bp.rs 462. -/
def toLeBytes (e : ByteOrder) (n : Nat) {w : Nat} (x : BitVec w) : List Byte := toNeBytes e n (le e n x)

/-- The targets. `target_arch` is "x86" or "x86_64", or something else: guts.rs 5-9, 16-22, 29-43, many.rs 97-132, 149-173. -/
inductive Arch where
  | x86
  | other (order : ByteOrder)
deriving DecidableEq, Repr

/-- How the target stores an integer. Models no line of /repo. -/
def Arch.order : Arch → ByteOrder
  | .x86 => .little
  | .other order => order

variable {a : Alg} (e : Arch)

/-- "Parse the message bytes as ints in little endian order." portable.rs 75-93. -/
def msgWords (a : Alg) (block : List Byte) : Vector (Word a) 16 :=
  let word (i : Nat) : Word a := fromLeBytes e.order a.w a.wb ((block.drop (i * a.wb)).take a.wb)
  #v[word 0, word 1, word 2, word 3, word 4, word 5, word 6, word 7,
     word 8, word 9, word 10, word 11, word 12, word 13, word 14, word 15]

/-- `portable::compress_block`. portable.rs 47-117 (blake2s/src/portable.rs 45-113). -/
def compressBlock (a : Alg) : CompressBlock a := fun block words count lastBlock lastNode =>
  let v : Vector (Word a) 16 := #v[
    words[0], words[1], words[2], words[3], words[4], words[5], words[6], words[7],
    (IV a)[0], (IV a)[1], (IV a)[2], (IV a)[3],
    (IV a)[4] ^^^ countLow a count,
    (IV a)[5] ^^^ countHigh a count,
    (IV a)[6] ^^^ lastBlock,
    (IV a)[7] ^^^ lastNode]
  let m := msgWords e a block
  let v := (Portable.roundNumbers a).foldl (Portable.round a m) v
  #v[words[0] ^^^ (v[0] ^^^ v[8]), words[1] ^^^ (v[1] ^^^ v[9]),
     words[2] ^^^ (v[2] ^^^ v[10]), words[3] ^^^ (v[3] ^^^ v[11]),
     words[4] ^^^ (v[4] ^^^ v[12]), words[5] ^^^ (v[5] ^^^ v[13]),
     words[6] ^^^ (v[6] ^^^ v[14]), words[7] ^^^ (v[7] ^^^ v[15])]

/-- `Implementation::compress1_loop`. guts.rs 96-116 (blake2s/src/guts.rs 96-114). On other targets `Platform` has only
the variant `Portable`; what is said here of the others there does not matter. -/
def compress1 : (a : Alg) → Platform → List Byte → Vector (Word a) 8 → Count a → (lastNode finalize : Bool) → Stride →
    Res (Vector (Word a) 8)
  | .b, .AVX2 => BAvx2.compress1Loop
  | .b, _ => compress1Loop .b (compressBlock e .b) arrayRef
  | .s, .AVX2 => SSse41.compress1Loop
  | .s, .SSE41 => SSse41.compress1Loop
  | .s, .Portable => compress1Loop .s (compressBlock e .s) arrayRef

/-- `Params::to_words`. lib.rs 185-204 (blake2s/src/lib.rs 174-195). -/
def toWords : {a : Alg} → Params a → Vector (Word a) 8
  | .b, p =>
    let half := Alg.saltbytes .b / 2
    let iv : Vector (BitVec 64) 8 := IV .b
    let words : Vector (BitVec 64) 8 := #v[iv[0]
        ^^^ p.hashLength.setWidth 64
        ^^^ p.keyLength.setWidth 64 <<< 8
        ^^^ p.fanout.setWidth 64 <<< 16
        ^^^ p.maxDepth.setWidth 64 <<< 24
        ^^^ p.maxLeafLength.setWidth 64 <<< 32,
       iv[1] ^^^ p.nodeOffset,
       iv[2] ^^^ p.nodeDepth.setWidth 64 ^^^ p.innerHashLength.setWidth 64 <<< 8,
       iv[3],
       iv[4] ^^^ fromLeBytes e.order 64 8 (p.salt.take half),
       iv[5] ^^^ fromLeBytes e.order 64 8 (p.salt.drop half),
       iv[6] ^^^ fromLeBytes e.order 64 8 (p.personal.take half),
       iv[7] ^^^ fromLeBytes e.order 64 8 (p.personal.drop half)]
    words
  | .s, p =>
    let half := Alg.saltbytes .s / 2
    let iv : Vector (BitVec 32) 8 := IV .s
    let words : Vector (BitVec 32) 8 := #v[iv[0]
        ^^^ p.hashLength.setWidth 32
        ^^^ p.keyLength.setWidth 32 <<< 8
        ^^^ p.fanout.setWidth 32 <<< 16
        ^^^ p.maxDepth.setWidth 32 <<< 24,
       iv[1] ^^^ p.maxLeafLength,
       iv[2] ^^^ p.nodeOffset.setWidth 32,
       iv[3]
        ^^^ (p.nodeOffset >>> 32).setWidth 32
        ^^^ p.nodeDepth.setWidth 32 <<< 16
        ^^^ p.innerHashLength.setWidth 32 <<< 24,
       iv[4] ^^^ fromLeBytes e.order 32 4 (p.salt.take half),
       iv[5] ^^^ fromLeBytes e.order 32 4 (p.salt.drop half),
       iv[6] ^^^ fromLeBytes e.order 32 4 (p.personal.take half),
       iv[7] ^^^ fromLeBytes e.order 32 4 (p.personal.drop half)]
    words

/-- `state_words_to_bytes`. lib.rs 528-544 (blake2s/src/lib.rs 520-536). -/
def stateWordsToBytes (a : Alg) (w : Vector (Word a) 8) : List Byte :=
  toLeBytes e.order a.wb w[0] ++ toLeBytes e.order a.wb w[1] ++ toLeBytes e.order a.wb w[2] ++ toLeBytes e.order a.wb w[3] ++
  toLeBytes e.order a.wb w[4] ++ toLeBytes e.order a.wb w[5] ++ toLeBytes e.order a.wb w[6] ++ toLeBytes e.order a.wb w[7]

/-! ## `lib.rs` -/

/-- `State::with_params`. lib.rs 406-422 (blake2s/src/lib.rs 398-414). -/
def withParams (params : Params a) : State a :=
  let state : State a := {
    words := toWords e params
    count := 0
    buf := List.replicate a.bb 0
    buflen := 0
    lastNode := params.lastNode
    hashLength := params.hashLength
    implementation := params.implementation
    isKeyed := decide (params.keyLength.toNat > 0) }
  if state.isKeyed then
    { state with buf := params.keyBlock, buflen := params.keyBlock.length % 256 }
  else state

/-- `State::compress_buffer_if_possible`. lib.rs 434-450 (blake2s/src/lib.rs 426-442). -/
def compressBufferIfPossible (s : State a) (input : List Byte) : Res (State a × List Byte) :=
  if s.buflen > 0 then do
    let (s, input) ← s.fillBuf input
    if !input.isEmpty then do
      let words ← compress1 e a s.implementation s.buf s.words s.count s.lastNode false .Serial
      .ok ({ s with words := words, count := s.count + BitVec.ofNat (2 * a.w) a.bb, buflen := 0 }, input)
    else .ok (s, input)
  else .ok (s, input)

/-- `State::update`. lib.rs 453-478 (blake2s/src/lib.rs 445-470). -/
def update (s : State a) (input : List Byte) : Res (State a) := do
  let (s, input) ← compressBufferIfPossible e s input
  let end_ := input.length - 1
  let end_ := end_ - end_ % a.bb
  let (s, input) ← (if end_ > 0 then do
      let blocks ← sliceTo input end_
      let words ← compress1 e a s.implementation blocks s.words s.count s.lastNode false .Serial
      let input ← sliceFrom input end_
      .ok ({ s with words := words, count := s.count + BitVec.ofNat (2 * a.w) end_ }, input)
    else .ok (s, input) : Res (State a × List Byte))
  let (s, _) ← s.fillBuf input
  .ok s

/-- `State::finalize`. lib.rs 482-496 (blake2s/src/lib.rs 474-488). -/
def finalize (s : State a) : Res (Hash a) := do
  let input ← sliceTo s.buf s.buflen
  let words ← compress1 e a s.implementation input s.words s.count s.lastNode true .Serial
  .ok { bytes := stateWordsToBytes e a words, len := s.hashLength }

/-- `Write::write` for `State`. lib.rs 548-551 (blake2s/src/lib.rs 540-543). -/
def write (s : State a) (buf : List Byte) : Res (State a × Nat) := do
  let s ← update e s buf
  .ok (s, buf.length)

/-- `Params::hash`. lib.rs 208-226 (blake2s/src/lib.rs 199-217). -/
def hash (p : Params a) (input : List Byte) : Res (Hash a) :=
  if p.keyLength.toNat > 0 then do
    let s ← update e (withParams e p) input
    finalize e s
  else do
    let words ← compress1 e a p.implementation input (toWords e p) 0 p.lastNode true .Serial
    .ok { bytes := stateWordsToBytes e a words, len := p.hashLength }

/-! ## `many.rs` -/

section Many
variable {ι E : Type} [DecidableEq ι]

/-- Body of the final `for` loop. many.rs 175-183. -/
def runOne (src : Source a ι E) (imp : Platform) (finalize : Bool) (stride : Stride) (mem : ι → E)
    (job : JobRef a ι) : Res (ι → E) := do
  let words ← compress1 e a imp job.input (src.getWords (mem job.id)) job.count job.lastNode finalize stride
  .ok (store mem job.id (src.setWords (mem job.id) words))

/-- The final `for` loop over the jobs still in the iterator. many.rs 175-183. -/
def runQueue (src : Source a ι E) (imp : Platform) (finalize : Bool) (stride : Stride) :
    (ι → E) → List ι → Res (ι → E)
  | mem, [] => .ok mem
  | mem, i :: queue => do
    let (x, job) ← src.pull i (mem i)
    let mem := store mem i x
    match job with
    | none => runQueue src imp finalize stride mem queue
    | some job => do
      let mem ← runOne e src imp finalize stride mem job
      runQueue src imp finalize stride mem queue

/-- `compress_many`. many.rs 134-184. The two levels (149-173) are compiled on x86 only; elsewhere the vector stays empty. As in
`compress1`, only `Portable` exists there. -/
def compressMany (src : Source a ι E) (imp : Platform) (finalize : Bool) (stride : Stride)
    (mem : ι → E) (queue : List ι) : Res (ι → E) :=
  match e, imp with
  | .other _, .Portable => runQueue e src imp finalize stride mem queue
  | _, _ => do
    let (mem, queue, vec) ← Many.level src (implDegree a imp) (hiDegree a)
      (fun jobs => compressHi a imp jobs finalize stride) mem queue []
    let (mem, queue, vec) ← Many.level src (implDegree a imp) (loDegree a)
      (fun jobs => compressLo a imp jobs finalize stride) mem queue vec
    let mem ← vec.foldlM (runOne e src imp finalize stride) mem
    runQueue e src imp finalize stride mem queue

end Many

/-- The closure of `update_many`'s `flat_map`. many.rs 230-260. -/
def updateManyPull {ι : Type} (i : ι) (inp : List Byte) (state : State a) : Res (State a × Option (JobRef a ι)) := do
  let (state, input) ← compressBufferIfPossible e state inp
  if input.isEmpty then .ok (state, none)
  else do
    let lastBlockStart ← checkedSub input.length 1
    let lastBlockStart := lastBlockStart - lastBlockStart % a.bb
    let blocks ← sliceTo input lastBlockStart
    let lastBlock ← sliceFrom input lastBlockStart
    let buf ← copyRange state.buf 0 lastBlock.length lastBlock
    let state : State a := { state with buf := buf, buflen := lastBlock.length % 256 }
    if blocks.isEmpty then .ok (state, none)
    else
      let count := state.count
      let state : State a := { state with count := state.count + BitVec.ofNat (2 * a.w) blocks.length }
      .ok (state, some { id := i, input := blocks, count := count, lastNode := state.lastNode })

/-- `update_many`. many.rs 213-264. -/
def updateMany (pairs : List (State a × List Byte)) : Res (List (State a)) :=
  match pairs with
  | [] => .ok []
  | first :: _ => do
    let src : Source a (Fin pairs.length) (State a) := {
      pull := fun i s => updateManyPull e i (pairs[i]).2 s
      getWords := fun s => s.words
      setWords := fun s w => { s with words := w } }
    let mem ← compressMany e src first.1.implementation false .Serial
      (fun i : Fin pairs.length => (pairs[i]).1) (List.finRange pairs.length)
    .ok (List.ofFn mem)

/-- `HashManyJob::new`. many.rs 287-319. -/
def newJob (params : Params a) (input : List Byte) : Res (HashManyJob a) := do
  let words := toWords e params
  let (words, count, finished) ← (if params.keyLength.toNat > 0 then do
      let finalization := input.isEmpty
      let words ← compress1 e a params.implementation params.keyBlock words 0 params.lastNode finalization .Serial
      .ok (words, BitVec.ofNat (2 * a.w) a.bb, finalization)
    else .ok (words, 0, false) : Res (Vector (Word a) 8 × Count a × Bool))
  .ok { words := words, count := count, lastNode := params.lastNode, hashLength := params.hashLength,
        input := input, finished := finished, implementation := params.implementation }

/-- `HashManyJob::to_hash`. many.rs 326-332. -/
def toHash (dbg : Bool) (j : HashManyJob a) : Res (Hash a) :=
  if dbg && !j.finished then .error .panic
  else .ok { bytes := stateWordsToBytes e a j.words, len := j.hashLength }

/-- `hash_many`. many.rs 386-419. -/
def hashMany (jobs : List (HashManyJob a)) : Res (List (HashManyJob a)) :=
  match jobs with
  | [] => .ok []
  | first :: _ => do
    let src : Source a (Fin jobs.length) (HashManyJob a) := {
      pull := hashManyPull
      getWords := fun j => j.words
      setWords := fun j w => { j with words := w } }
    let mem ← compressMany e src first.implementation true .Serial
      (fun i : Fin jobs.length => jobs[i]) (List.finRange jobs.length)
    .ok (List.ofFn mem)

/-- `hash_many` on jobs that the client picks from those it holds; they are distinct. Client side; `hash_many` is many.rs 386-419. -/
def runBatch (jobs : List (HashManyJob a)) (idx : List Nat) : Res (List (HashManyJob a)) := do
  let pick ← idx.mapM (getState jobs)
  let out ← hashMany e pick
  .ok ((idx.zip out).foldl (fun js p => js.set p.1 p.2) jobs)

/-! ## `blake2bp.rs` -/

/-- `compress_many` over the leaves. blake2bp.rs 130-143, 287-295, 369-385 (blake2sp.rs 138-151, 294-302, 376-392). -/
def compressLeaves (mkJob : Fin (parDegree a) → Res (List Byte × Count a × Bool)) (imp : Platform)
    (finalize : Bool) (leaves : LeafWords a) : Res (LeafWords a) := do
  let src : Source a (Fin (parDegree a)) (Vector (Word a) 8) := {
    pull := fun i w => do
      let (input, count, lastNode) ← mkJob i
      .ok (w, some { id := i, input := input, count := count, lastNode := lastNode })
    getWords := fun w => w
    setWords := fun _ w => w }
  let mem ← compressMany e src imp finalize .Parallel (fun i => leaves[i]) (List.finRange (parDegree a))
  .ok (Vector.ofFn mem)

/-- `finalize_root_words`. blake2bp.rs 449-476 (blake2sp.rs 456-483). -/
def finalizeRootWords (leafWords : LeafWords a) (rootWords : Vector (Word a) 8) (hashLength : BitVec 8)
    (imp : Platform) : Res (Hash a) := do
  let block := (leafWords.toList.flatMap fun words => words.toList).flatMap fun word => toLeBytes e.order a.wb word
  let words ← compress1 e a imp block rootWords 0 true true .Serial
  .ok { bytes := stateWordsToBytes e a words, len := hashLength }

/-- The closure `leaf_words`. blake2bp.rs 100-108 (blake2sp.rs 99-107). -/
def leafWordsOf (base : Params a) (workerIndex : Nat) : Res (Vector (Word a) 8) := do
  let p ← base.setNodeOffset (BitVec.ofNat 64 workerIndex)
  let p ← p.setNodeDepth 0
  .ok (toWords e p)

/-- The words of the root. blake2bp.rs 110-118 (blake2sp.rs 118-126). -/
def rootWordsOf (base : Params a) : Res (Vector (Word a) 8) := do
  let p ← base.setNodeOffset 0
  let p ← p.setNodeDepth 1
  .ok (toWords e p)

/-- `Params::to_words`. blake2bp.rs 88-120 (blake2sp.rs 87-128). -/
def treeToWords (p : PParams a) : Res (LeafWords a × Vector (Word a) 8) := do
  let base ← p.baseParams
  let leaves ← (Vector.finRange (parDegree a)).mapM fun i => leafWordsOf e base i.val
  let root ← rootWordsOf e base
  .ok (leaves, root)

/-- `State::with_params`. blake2bp.rs 238-270 (blake2sp.rs 245-277). -/
def treeWithParams (params : PParams a) : Res (PState a) := do
  let (leafWords, rootWords) ← treeToWords e params
  let buf := List.replicate (2 * parDegree a * a.bb) 0
  let (buf, bufLen) ← (if params.keyLength.toNat > 0 then
      (List.range (parDegree a)).foldlM (init := (buf, 0)) fun (st : List Byte × Nat) i => do
        let keybytes ← sliceTo params.key params.keyLength.toNat
        let buf ← copyAt st.1 (i * a.bb) keybytes
        .ok (buf, a.bb * parDegree a)
    else .ok (buf, 0) : Res (List Byte × Nat))
  .ok { leafWords := leafWords, rootWords := rootWords, buf := buf, bufLen := bufLen % 65536, count := 0,
        hashLength := params.hashLength, implementation := params.implementation,
        isKeyed := decide (params.keyLength.toNat > 0) }

/-- `State::compress_to_leaves`. blake2bp.rs 279-298 (blake2sp.rs 286-305). -/
def compressToLeaves (s : PState a) (input : List Byte) : Res (PState a) := do
  let leaves ← compressLeaves e (fun i => do
      let inp ← sliceFrom input (i.val * a.bb)
      .ok (inp, s.count, false)) s.implementation false s.leafWords
  .ok { s with leafWords := leaves, count := s.count + BitVec.ofNat (2 * a.w) (input.length / parDegree a) }

/-- First part of `State::update`. blake2bp.rs 306-337 (blake2sp.rs 313-344). -/
def updateBuffered (s : PState a) (input : List Byte) : Res (PState a × List Byte) :=
  if s.bufLen > 0 then do
    let (s, input) ← s.fillBuf input
    if !input.isEmpty then
      if input.length > (parDegree a - 1) * a.bb then do
        let s ← compressToLeaves e s s.buf
        .ok ({ s with bufLen := 0 }, input)
      else do
        let front ← sliceTo s.buf (parDegree a * a.bb)
        let s ← compressToLeaves e s front
        let bufLen := (parDegree a * a.bb) % 65536
        let bufFront ← sliceTo s.buf (parDegree a * a.bb)
        let bufBack ← sliceFrom s.buf (parDegree a * a.bb)
        let bufFront ← copyRange bufFront 0 bufFront.length bufBack
        .ok ({ s with bufLen := bufLen, buf := bufFront ++ bufBack }, input)
    else .ok (s, input)
  else .ok (s, input)

/-- Second part of `State::update`. blake2bp.rs 343-354 (blake2sp.rs 350-361). -/
def updateBulk (s : PState a) (input : List Byte) : Res (PState a × List Byte) :=
  let neededTail := (parDegree a - 1) * a.bb + 1
  let bulkBytes := input.length - neededTail
  let bulkBytes := bulkBytes - bulkBytes % (parDegree a * a.bb)
  if bulkBytes > 0 then do
    let bulk ← sliceTo input bulkBytes
    let s ← compressToLeaves e s bulk
    let input ← sliceFrom input bulkBytes
    .ok (s, input)
  else .ok (s, input)

/-- `State::update`. blake2bp.rs 301-361 (blake2sp.rs 308-368). -/
def treeUpdate (s : PState a) (input : List Byte) : Res (PState a) := do
  let (s, input) ← updateBuffered e s input
  let (s, input) ← updateBulk e s input
  let (s, input) ← s.fillBuf input
  rassert (input.length == 0)
  .ok s

/-- `State::finalize`. blake2bp.rs 365-395 (blake2sp.rs 372-402). -/
def treeFinalize (s : PState a) : Res (Hash a) := do
  let leaves ← compressLeaves e (fun i => do
      let upTo ← sliceTo s.buf s.bufLen
      let input ← sliceFrom upTo (min (i.val * a.bb) s.bufLen)
      .ok (input, s.count, decide (i.val = parDegree a - 1))) s.implementation true s.leafWords
  finalizeRootWords e leaves s.rootWords s.hashLength s.implementation

/-- `Write::write` for `State`. blake2bp.rs 416-419 (blake2sp.rs 423-426). -/
def treeWrite (s : PState a) (buf : List Byte) : Res (PState a × Nat) := do
  let s ← treeUpdate e s buf
  .ok (s, buf.length)

/-- `Params::hash`. blake2bp.rs 123-151 (blake2sp.rs 131-159). -/
def treeHash (p : PParams a) (input : List Byte) : Res (Hash a) :=
  if p.keyLength.toNat > 0 then do
    let s ← treeWithParams e p
    let s ← treeUpdate e s input
    treeFinalize e s
  else do
    let (leafWords, rootWords) ← treeToWords e p
    let leaves ← compressLeaves e (fun i => do
        let inp ← sliceFrom input (min input.length (i.val * a.bb))
        .ok (inp, 0, decide (i.val = parDegree a - 1))) p.implementation true leafWords
    finalizeRootWords e leaves rootWords p.hashLength p.implementation

/-! ## Programs -/

/-- One operation on states: as `Spec.Op.exec`, with the functions of this file. Client side; the functions are lib.rs 230-555, many.rs 213-264. -/
def opExec (dbg : Bool) (ss : List (State a)) : Op Platform → Res (List (State a) × Obs)
  | .create plat calls => do
    let p ← (Params.new a plat).build calls
    .ok (ss ++ [withParams e p], .done)
  | .update i x => do
    let s ← getState ss i
    let s ← update e s x
    .ok (ss.set i s, .done)
  | .updateMany jobs => do
    let pairs ← jobs.mapM fun j => do
      let s ← getState ss j.1
      .ok (s, j.2)
    let out ← updateMany e pairs
    .ok ((jobs.zip out).foldl (fun ss p => ss.set p.1.1 p.2) ss, .done)
  | .write i x => do
    let s ← getState ss i
    let (s, n) ← write e s x
    .ok (ss.set i s, .written n)
  | .finalize i => do
    let s ← getState ss i
    let h ← finalize e s
    let d ← h.asBytes
    .ok (ss, .digest d)
  -- these convert nothing
  | .clone i => (Op.clone i : Op Platform).exec dbg ss
  | .flush i => (Op.flush i : Op Platform).exec dbg ss
  | .setLastNode i b => (Op.setLastNode i b : Op Platform).exec dbg ss
  | .count i => (Op.count i : Op Platform).exec dbg ss

/-- One operation on tree states, likewise. Client side; the functions are blake2bp.rs 154-423. -/
def treeOpExec (dbg : Bool) (ss : List (PState a)) : POp Platform → Res (List (PState a) × Obs)
  | .create plat calls => do
    let p ← (PParams.new a plat).build calls
    let s ← treeWithParams e p
    .ok (ss ++ [s], .done)
  | .update i x => do
    let s ← getState ss i
    let s ← treeUpdate e s x
    .ok (ss.set i s, .done)
  | .write i x => do
    let s ← getState ss i
    let (s, n) ← treeWrite e s x
    .ok (ss.set i s, .written n)
  | .finalize i => do
    let s ← getState ss i
    let h ← treeFinalize e s
    let d ← h.asBytes
    .ok (ss, .digest d)
  -- these convert nothing
  | .clone i => (POp.clone i : POp Platform).exec dbg ss
  | .flush i => (POp.flush i : POp Platform).exec dbg ss
  | .count i => (POp.count i : POp Platform).exec dbg ss

/-- One call, on this target: as `Spec.ApiCall.exec`, with the functions of this file. Client side. -/
def exec (dbg : Bool) (m : Mem a) : ApiCall Platform → Res (Mem a × Answer)
  | .hash i x => do
    let p ← getState m.params i
    let h ← hash e p x
    .ok ({ m with hashes := m.hashes ++ [h] }, .done)
  | .toState i => do
    let p ← getState m.params i
    .ok ({ m with states := m.states ++ [withParams e p] }, .done)
  | .oneShot plat x => do
    let h ← hash e (Params.new a plat) x
    .ok ({ m with hashes := m.hashes ++ [h] }, .done)
  | .newState plat => .ok ({ m with states := m.states ++ [withParams e (Params.new a plat)] }, .done)
  | .onStates op => do
    let (ss, o) ← opExec e dbg m.states op
    .ok ({ m with states := ss }, .plain o)
  | .finalize i => do
    let s ← getState m.states i
    let h ← finalize e s
    .ok ({ m with hashes := m.hashes ++ [h] }, .done)
  | .newJob i x => do
    let p ← getState m.params i
    let j ← newJob e p x
    .ok ({ m with jobs := m.jobs ++ [j] }, .done)
  | .hashMany is => do
    let jobs ← runBatch e m.jobs is
    .ok ({ m with jobs := jobs }, .done)
  | .toHash i => do
    let j ← getState m.jobs i
    let h ← toHash e dbg j
    .ok ({ m with hashes := m.hashes ++ [h] }, .done)
  | .hashTree i x => do
    let p ← getState m.treeParams i
    let h ← treeHash e p x
    .ok ({ m with hashes := m.hashes ++ [h] }, .done)
  | .toTreeState i => do
    let p ← getState m.treeParams i
    let s ← treeWithParams e p
    .ok ({ m with treeStates := m.treeStates ++ [s] }, .done)
  | .oneShotTree plat x => do
    let h ← treeHash e (PParams.new a plat) x
    .ok ({ m with hashes := m.hashes ++ [h] }, .done)
  | .newTreeState plat => do
    let s ← treeWithParams e (PParams.new a plat)
    .ok ({ m with treeStates := m.treeStates ++ [s] }, .done)
  | .onTreeStates op => do
    let (ss, o) ← treeOpExec e dbg m.treeStates op
    .ok ({ m with treeStates := ss }, .plain o)
  | .finalizeTree i => do
    let s ← getState m.treeStates i
    let h ← treeFinalize e s
    .ok ({ m with hashes := m.hashes ++ [h] }, .done)
  -- the other calls convert nothing
  | c => c.exec dbg m

/-- Run a program on this target. Client side; models no line of /repo. -/
def run (dbg : Bool) : Mem a → List (ApiCall Platform) → Res (Mem a × List Answer)
  | m, [] => .ok (m, [])
  | m, c :: cs => do
    let (m, o) ← exec e dbg m c
    let (m, os) ← run dbg m cs
    .ok (m, o :: os)

end Blake2.Target
