import Verif.Model.Impl
/-!
# Model of `lib.rs`: `Params`, `State`, `Hash`

Line numbers are of blake2b/src/lib.rs; blake2s/src/lib.rs has the same text at the lines given in parentheses, except
where a definition branches on the algorithm.
-/
namespace Blake2

/-- `struct Params`. lib.rs 146-160 (135-149). -/
structure Params (a : Alg) where
  hashLength : BitVec 8
  keyLength : BitVec 8
  keyBlock : List Byte
  salt : List Byte
  personal : List Byte
  fanout : BitVec 8
  maxDepth : BitVec 8
  maxLeafLength : BitVec 32
  nodeOffset : BitVec 64
  nodeDepth : BitVec 8
  innerHashLength : BitVec 8
  lastNode : Bool
  implementation : Platform

namespace Params
variable {a : Alg}

/-- `Params::new` / `Params::default`. lib.rs 165-183 (154-172), 342-346 (334-338). `plat` is the answer of
`Implementation::detect()`. -/
def new (a : Alg) (plat : Platform) : Params a where
  hashLength := BitVec.ofNat 8 a.outbytes
  keyLength := 0
  keyBlock := List.replicate a.bb 0
  salt := List.replicate a.saltbytes 0
  personal := List.replicate a.personalbytes 0
  fanout := 1
  maxDepth := 1
  maxLeafLength := 0
  nodeOffset := 0
  nodeDepth := 0
  innerHashLength := 0
  lastNode := false
  implementation := plat

/-- `Params::to_words`. blake2b/src/lib.rs 185-204, blake2s/src/lib.rs 174-195. `array_refs!(&self.salt, n/2, n/2)`
splits the array in two halves. -/
def toWords : {a : Alg} → Params a → Vector (Word a) 8
  | .b, p =>
    let half := Alg.saltbytes .b / 2
    let iv : Vector (BitVec 64) 8 := IV .b
    let words : Vector (BitVec 64) 8 := #v[iv[0]
        ^^^ p.hashLength.setWidth 64
        ^^^ p.keyLength.setWidth 64 <<< 8
        ^^^ p.fanout.setWidth 64 <<< 16
        ^^^ p.maxDepth.setWidth 64 <<< 24
        ^^^ p.maxLeafLength.setWidth 64 <<< 32,
       iv[1] ^^^ p.nodeOffset,
       iv[2] ^^^ p.nodeDepth.setWidth 64 ^^^ p.innerHashLength.setWidth 64 <<< 8,
       iv[3],
       iv[4] ^^^ fromLE 64 (p.salt.take half),
       iv[5] ^^^ fromLE 64 (p.salt.drop half),
       iv[6] ^^^ fromLE 64 (p.personal.take half),
       iv[7] ^^^ fromLE 64 (p.personal.drop half)]
    words
  | .s, p =>
    let half := Alg.saltbytes .s / 2
    let iv : Vector (BitVec 32) 8 := IV .s
    let words : Vector (BitVec 32) 8 := #v[iv[0]
        ^^^ p.hashLength.setWidth 32
        ^^^ p.keyLength.setWidth 32 <<< 8
        ^^^ p.fanout.setWidth 32 <<< 16
        ^^^ p.maxDepth.setWidth 32 <<< 24,
       iv[1] ^^^ p.maxLeafLength,
       iv[2] ^^^ p.nodeOffset.setWidth 32,
       iv[3]
        ^^^ (p.nodeOffset >>> 32).setWidth 32
        ^^^ p.nodeDepth.setWidth 32 <<< 16
        ^^^ p.innerHashLength.setWidth 32 <<< 24,
       iv[4] ^^^ fromLE 32 (p.salt.take half),
       iv[5] ^^^ fromLE 32 (p.salt.drop half),
       iv[6] ^^^ fromLE 32 (p.personal.take half),
       iv[7] ^^^ fromLE 32 (p.personal.drop half)]
    words

/-- `Params::hash_length`. lib.rs 238-246 (229-237). -/
def setHashLength (p : Params a) (length : Nat) : Res (Params a) := do
  rassert (decide (1 ≤ length) && decide (length ≤ a.outbytes))
  .ok { p with hashLength := BitVec.ofNat 8 length }

/-- `Params::key`. lib.rs 251-257 (242-248). -/
def setKey (p : Params a) (key : List Byte) : Res (Params a) := do
  rassert (decide (key.length ≤ a.keybytes))
  let p : Params a := { p with keyLength := BitVec.ofNat 8 key.length }
  let p : Params a := { p with keyBlock := List.replicate a.bb 0 }
  let keyBlock ← copyRange p.keyBlock 0 key.length key
  .ok { p with keyBlock := keyBlock }

/-- `Params::salt`. lib.rs 262-267 (253-258). -/
def setSalt (p : Params a) (salt : List Byte) : Res (Params a) := do
  rassert (decide (salt.length ≤ a.saltbytes))
  let p : Params a := { p with salt := List.replicate a.saltbytes 0 }
  let salt ← copyRange p.salt 0 salt.length salt
  .ok { p with salt := salt }

/-- `Params::personal`. lib.rs 272-281 (263-272). -/
def setPersonal (p : Params a) (personalization : List Byte) : Res (Params a) := do
  rassert (decide (personalization.length ≤ a.personalbytes))
  let p : Params a := { p with personal := List.replicate a.personalbytes 0 }
  let personal ← copyRange p.personal 0 personalization.length personalization
  .ok { p with personal := personal }

/-- `Params::fanout`. lib.rs 285-288 (276-279). -/
def setFanout (p : Params a) (fanout : BitVec 8) : Res (Params a) := .ok { p with fanout := fanout }

/-- `Params::max_depth`. lib.rs 292-295 (283-286). -/
def setMaxDepth (p : Params a) (depth : BitVec 8) : Res (Params a) := .ok { p with maxDepth := depth }

/-- `Params::max_leaf_length`. lib.rs 299-302 (290-293). -/
def setMaxLeafLength (p : Params a) (length : BitVec 32) : Res (Params a) := .ok { p with maxLeafLength := length }

/-- `Params::node_offset`. blake2b/src/lib.rs 306-309; blake2s/src/lib.rs 297-301 asserts `offset < (1 << 48)`. -/
def setNodeOffset : {a : Alg} → (p : Params a) → (offset : BitVec 64) → Res (Params a)
  | .b, p, offset => .ok { p with nodeOffset := offset }
  | .s, p, offset => do
    rassert (decide (offset.toNat < 1 <<< 48))
    .ok { p with nodeOffset := offset }

/-- `Params::node_depth`. lib.rs 313-316 (305-308). -/
def setNodeDepth (p : Params a) (depth : BitVec 8) : Res (Params a) := .ok { p with nodeDepth := depth }

/-- `Params::inner_hash_length`. lib.rs 320-324 (312-316). -/
def setInnerHashLength (p : Params a) (length : Nat) : Res (Params a) := do
  rassert (decide (length ≤ a.outbytes))
  .ok { p with innerHashLength := BitVec.ofNat 8 length }

/-- `Params::last_node`. lib.rs 332-339 (324-331). -/
def setLastNode (p : Params a) (lastNode : Bool) : Res (Params a) := .ok { p with lastNode := lastNode }

/-- `benchmarks::force_portable`. lib.rs 682-684 (674-676). -/
def forcePortable (p : Params a) : Params a := { p with implementation := .Portable }

end Params

/-- `struct Hash`. lib.rs 581-585 (573-577). -/
structure Hash (a : Alg) where
  bytes : List Byte
  len : BitVec 8
deriving DecidableEq

/-- `state_words_to_bytes`. lib.rs 528-544 (520-536). -/
def stateWordsToBytes (a : Alg) (w : Vector (Word a) 8) : List Byte :=
  toLE a.wb w[0] ++ toLE a.wb w[1] ++ toLE a.wb w[2] ++ toLE a.wb w[3] ++
  toLE a.wb w[4] ++ toLE a.wb w[5] ++ toLE a.wb w[6] ++ toLE a.wb w[7]

/-- `struct State`. lib.rs 389-398 (381-390). `buflen : u8` is a `Nat` with checked arithmetic. -/
structure State (a : Alg) where
  words : Vector (Word a) 8
  count : Count a
  buf : List Byte
  buflen : Nat
  lastNode : Bool
  hashLength : BitVec 8
  implementation : Platform
  isKeyed : Bool

/-- `x += y` on `u8`: panics (debug) on overflow. -/
def addU8 (x y : Nat) : Res Nat := if x + y < 256 then .ok (x + y) else .error .panic

namespace State
variable {a : Alg}

/-- `State::with_params`. lib.rs 406-422 (398-414). -/
def withParams (params : Params a) : State a :=
  let state : State a := {
    words := params.toWords
    count := 0
    buf := List.replicate a.bb 0
    buflen := 0
    lastNode := params.lastNode
    hashLength := params.hashLength
    implementation := params.implementation
    isKeyed := decide (params.keyLength.toNat > 0) }
  if state.isKeyed then
    { state with buf := params.keyBlock, buflen := params.keyBlock.length % 256 }
  else state

/-- `State::new` / `State::default`. lib.rs 402-404 (394-396), 571-575 (563-567). -/
def new (a : Alg) (plat : Platform) : State a := withParams (Params.new a plat)

/-- `State::fill_buf`. lib.rs 424-429 (416-421). Returns the new state and the rest of the input. -/
def fillBuf (s : State a) (input : List Byte) : Res (State a × List Byte) := do
  let room ← checkedSub a.bb s.buflen
  let take := min room input.length
  let src ← sliceTo input take
  let buf ← copyRange s.buf s.buflen (s.buflen + take) src
  let buflen ← addU8 s.buflen (take % 256)
  let input ← sliceFrom input take
  .ok ({ s with buf := buf, buflen := buflen }, input)

/-- `State::compress_buffer_if_possible`. lib.rs 434-450 (426-442). -/
def compressBufferIfPossible (s : State a) (input : List Byte) : Res (State a × List Byte) :=
  if s.buflen > 0 then do
    let (s, input) ← fillBuf s input
    if !input.isEmpty then do
      let words ← compress1 a s.implementation s.buf s.words s.count s.lastNode false .Serial
      .ok ({ s with words := words, count := s.count + BitVec.ofNat (2 * a.w) a.bb, buflen := 0 }, input)
    else .ok (s, input)
  else .ok (s, input)

/-- `State::update`. lib.rs 453-478 (445-470). -/
def update (s : State a) (input : List Byte) : Res (State a) := do
  let (s, input) ← compressBufferIfPossible s input
  let end_ := input.length - 1
  let end_ := end_ - end_ % a.bb
  let (s, input) ← (if end_ > 0 then do
      let blocks ← sliceTo input end_
      let words ← compress1 a s.implementation blocks s.words s.count s.lastNode false .Serial
      let input ← sliceFrom input end_
      .ok ({ s with words := words, count := s.count + BitVec.ofNat (2 * a.w) end_ }, input)
    else .ok (s, input) : Res (State a × List Byte))
  let (s, _) ← fillBuf s input
  .ok s

/-- `State::finalize`. lib.rs 482-496 (474-488). -/
def finalize (s : State a) : Res (Hash a) := do
  let input ← sliceTo s.buf s.buflen
  let words ← compress1 a s.implementation input s.words s.count s.lastNode true .Serial
  .ok { bytes := stateWordsToBytes a words, len := s.hashLength }

/-- `State::set_last_node`. lib.rs 506-513 (498-505). -/
def setLastNode (s : State a) (lastNode : Bool) : State a := { s with lastNode := lastNode }

/-- `State::count`. lib.rs 519-525 (511-517). The subtraction is `-=`: it panics on underflow when `dbg` (overflow checks
on, as in debug builds) and wraps otherwise. -/
def getCount (dbg : Bool) (s : State a) : Res (Count a) :=
  let ret := s.count + BitVec.ofNat (2 * a.w) s.buflen
  if s.isKeyed then
    if dbg && decide (ret.toNat < a.bb) then .error .panic
    else .ok (ret - BitVec.ofNat (2 * a.w) a.bb)
  else .ok ret

/-- `impl io::Write for State`: `write`. lib.rs 548-551 (540-543). Returns the state and the number of bytes written. -/
def write (s : State a) (buf : List Byte) : Res (State a × Nat) := do
  let s ← update s buf
  .ok (s, buf.length)

/-- `flush`. lib.rs 553-555 (545-547). -/
def flush (s : State a) : Res (State a) := .ok s

end State

namespace Params
variable {a : Alg}

/-- `Params::to_state`. lib.rs 230-232 (221-223). -/
def toState (p : Params a) : State a := State.withParams p

/-- `Params::hash`. lib.rs 208-226 (199-217). -/
def hash (p : Params a) (input : List Byte) : Res (Hash a) :=
  if p.keyLength.toNat > 0 then do
    let s ← p.toState.update input
    s.finalize
  else do
    let words ← compress1 a p.implementation input p.toWords 0 p.lastNode true .Serial
    .ok { bytes := stateWordsToBytes a words, len := p.hashLength }

end Params

/-- `blake2b` / `blake2s`. blake2b/src/lib.rs 117-119, blake2s/src/lib.rs 106-108. `plat` is the detected platform. -/
def blake2 (a : Alg) (plat : Platform) (input : List Byte) : Res (Hash a) := (Params.new a plat).hash input

namespace Hash
variable {a : Alg}

/-- `Hash::as_bytes`. lib.rs 590-592 (582-584). -/
def asBytes (h : Hash a) : Res (List Byte) := sliceTo h.bytes h.len.toNat

/-- `Hash::as_array`. lib.rs 598-601 (590-593). The assertion is a `debug_assert`. -/
def asArray (dbg : Bool) (h : Hash a) : Res (List Byte) :=
  if dbg && !(h.len.toNat == a.outbytes) then .error .panic else .ok h.bytes

/-- The table in `bytes_to_hex`. lib.rs 611 (603). -/
def hexTable : Vector Char 16 :=
  #v['0', '1', '2', '3', '4', '5', '6', '7', '8', '9', 'a', 'b', 'c', 'd', 'e', 'f']

/-- `table[i] as char` in `bytes_to_hex`, which panics out of bounds. lib.rs 613-614 (605-606). -/
def hexAt (i : Nat) : Res Char := if h : i < 16 then .ok hexTable[i] else .error .panic

/-- `bytes_to_hex`. lib.rs 609-617 (601-609). The `ArrayString` holds `2 * OUTBYTES` bytes and `push` panics beyond. -/
def bytesToHex (a : Alg) (bytes : List Byte) : Res (List Char) :=
  bytes.foldlM (init := []) fun s (b : BitVec 8) => do
    let c ← hexAt (b >>> 4).toNat
    let s ← push s c
    let c ← hexAt (b &&& 0xf).toNat
    push s c
where
  push (s : List Char) (c : Char) : Res (List Char) :=
    if s.length < 2 * a.outbytes then .ok (s ++ [c]) else .error .panic

/-- `Hash::to_hex`. lib.rs 605-607 (597-599). -/
def toHex (h : Hash a) : Res (List Char) := do
  let b ← h.asBytes
  bytesToHex a b

/-- `impl From<[u8; OUTBYTES]> for Hash`. lib.rs 619-626 (611-618); `From<&[u8; OUTBYTES]>` 628-632 (620-624) is the same. -/
def ofArray (bytes : List Byte) : Hash a := { bytes := bytes, len := BitVec.ofNat 8 a.outbytes }

end Hash

/-- The byte loop of `constant_time_eq` (a dependency, not in /repo), with a log of the positions it reads: every byte pair is
xored and or-ed into an accumulator. Called at blake2b/src/lib.rs 637, 644. -/
def constantTimeLoop : Nat → List (Byte × Byte) → Byte → Byte × List Nat
  | _, [], acc => (acc, [])
  | i, p :: ps, acc =>
    let (acc, log) := constantTimeLoop (i + 1) ps (acc ||| (p.1 ^^^ p.2))
    (acc, i :: log)

/-- `constant_time_eq::constant_time_eq` (a dependency, not in /repo): false for different lengths, otherwise the accumulator of
the loop is compared with zero at the end. Returns the answer and the log. Called at blake2b/src/lib.rs 637, 644. -/
def constantTimeEqLog (x y : List Byte) : Bool × List Nat :=
  if x.length != y.length then (false, [])
  else
    let (acc, log) := constantTimeLoop 0 (x.zip y) 0
    (acc == 0, log)

/-- The answer alone. Called at blake2b/src/lib.rs 637, 644. -/
def constantTimeEq (x y : List Byte) : Bool := (constantTimeEqLog x y).1

namespace Hash
variable {a : Alg}

/-- `impl PartialEq for Hash`. lib.rs 635-639 (627-631). -/
def eqHash (h k : Hash a) : Res Bool := do
  let x ← h.asBytes
  let y ← k.asBytes
  .ok (constantTimeEq x y)

/-- `impl PartialEq<[u8]> for Hash`. lib.rs 642-646 (634-638). -/
def eqSlice (h : Hash a) (other : List Byte) : Res Bool := do
  let x ← h.asBytes
  .ok (constantTimeEq x other)

end Hash

/-! ## `Debug` formatting

The format strings are transcribed; `{}` on integers and booleans and `{:?}` on byte arrays are Lean's decimal
`toString`, `true`/`false`, and `[a, b, ...]`. The alternate form `{:#?}` is not modelled. -/

/-- `{:?}` of a `[u8; N]`. -/
def fmtBytes (l : List Byte) : String := "[" ++ String.intercalate ", " (l.map fun b => toString b.toNat) ++ "]"

/-- `{}` of a `bool`. Standard library; used through blake2b/src/lib.rs 366, 566. -/
def fmtBool (b : Bool) : String := if b then "true" else "false"

/-- `impl fmt::Debug for Params`. lib.rs 348-369 (340-361). -/
def Params.debugFmt {a : Alg} (p : Params a) : String :=
  "Params { hash_length: " ++ toString p.hashLength.toNat ++
  ", key_length: " ++ toString p.keyLength.toNat ++
  ", salt: " ++ fmtBytes p.salt ++
  ", personal: " ++ fmtBytes p.personal ++
  ", fanout: " ++ toString p.fanout.toNat ++
  ", max_depth: " ++ toString p.maxDepth.toNat ++
  ", max_leaf_length: " ++ toString p.maxLeafLength.toNat ++
  ", node_offset: " ++ toString p.nodeOffset.toNat ++
  ", node_depth: " ++ toString p.nodeDepth.toNat ++
  ", inner_hash_length: " ++ toString p.innerHashLength.toNat ++
  ", last_node: " ++ fmtBool p.lastNode ++ " }"

/-- `impl fmt::Debug for State`. lib.rs 558-569 (550-561). -/
def State.debugFmt {a : Alg} (dbg : Bool) (s : State a) : Res String := do
  let count ← s.getCount dbg
  .ok ("State { count: " ++ toString count.toNat ++
    ", hash_length: " ++ toString s.hashLength.toNat ++
    ", last_node: " ++ fmtBool s.lastNode ++ " }")

/-- `impl fmt::Debug for Hash`. lib.rs 656-660 (648-652). -/
def Hash.debugFmt {a : Alg} (h : Hash a) : Res String := do
  let hex ← h.toHex
  .ok ("Hash(0x" ++ String.ofList hex ++ ")")

end Blake2
