import Verif.Basic
/-!
# Specification of BLAKE2b, BLAKE2s, BLAKE2bp, BLAKE2sp

Written from RFC 7693 (sections cited as "RFC") and the BLAKE2 paper / parameter-block tables
(https://blake2.net/blake2.pdf, sections cited as "paper"), independently of the Rust code.
Nothing in this file refers to the model.
-/
namespace Blake2.Spec

/-- RFC 2.1: block bytes `bb`. -/
def bb : Alg → Nat
  | .b => 128
  | .s => 64

/-- RFC 2.1: rounds in F. -/
def rounds : Alg → Nat
  | .b => 12
  | .s => 10

/-- RFC 2.1: maximal hash bytes `nn`, also maximal key bytes `kk`. -/
def maxOut : Alg → Nat
  | .b => 64
  | .s => 32

/-- RFC 2.1: the G rotation constants (R1, R2, R3, R4). -/
def rot : Alg → Nat × Nat × Nat × Nat
  | .b => (32, 24, 16, 63)
  | .s => (16, 12, 8, 7)

/-- RFC 2.6 / appendix: initialization vector. -/
def iv : (a : Alg) → Vector (Word a) 8
  | .b => #v[0x6A09E667F3BCC908#64, 0xBB67AE8584CAA73B#64, 0x3C6EF372FE94F82B#64, 0xA54FF53A5F1D36F1#64,
             0x510E527FADE682D1#64, 0x9B05688C2B3E6C1F#64, 0x1F83D9ABFB41BD6B#64, 0x5BE0CD19137E2179#64]
  | .s => #v[0x6A09E667#32, 0xBB67AE85#32, 0x3C6EF372#32, 0xA54FF53A#32,
             0x510E527F#32, 0x9B05688C#32, 0x1F83D9AB#32, 0x5BE0CD19#32]

/-- RFC 2.7: message schedule, ten rows; round `i` uses row `i mod 10`. -/
def sigma : Vector (Vector (Fin 16) 16) 10 := #v[
  #v[ 0,  1,  2,  3,  4,  5,  6,  7,  8,  9, 10, 11, 12, 13, 14, 15],
  #v[14, 10,  4,  8,  9, 15, 13,  6,  1, 12,  0,  2, 11,  7,  5,  3],
  #v[11,  8, 12,  0,  5,  2, 15, 13, 10, 14,  3,  6,  7,  1,  9,  4],
  #v[ 7,  9,  3,  1, 13, 12, 11, 14,  2,  6,  5, 10,  4,  0, 15,  8],
  #v[ 9,  0,  5,  7,  2,  4, 10, 15, 14,  1, 11, 12,  6,  8,  3, 13],
  #v[ 2, 12,  6, 10,  0, 11,  8,  3,  4, 13,  7,  5, 15, 14,  1,  9],
  #v[12,  5,  1, 15, 14, 13,  4, 10,  0,  7,  6,  3,  9,  2,  8, 11],
  #v[13, 11,  7, 14, 12,  1,  3,  9,  5,  0, 15,  4,  8,  6,  2, 10],
  #v[ 6, 15, 14,  9, 11,  3,  0,  8, 12,  2, 13,  7,  1,  4, 10,  5],
  #v[10,  2,  8,  4,  7,  6,  1,  5, 15, 11,  9, 14,  3, 12, 13,  0]]

/-- RFC 3.1: mixing function G. -/
def G (al : Alg) (v : Vector (Word al) 16) (a b c d : Fin 16) (x y : Word al) : Vector (Word al) 16 :=
  let (R1, R2, R3, R4) := rot al
  let v := v.set a (v[a] + v[b] + x)
  let v := v.set d ((v[d] ^^^ v[a]).rotateRight R1)
  let v := v.set c (v[c] + v[d])
  let v := v.set b ((v[b] ^^^ v[c]).rotateRight R2)
  let v := v.set a (v[a] + v[b] + y)
  let v := v.set d ((v[d] ^^^ v[a]).rotateRight R3)
  let v := v.set c (v[c] + v[d])
  let v := v.set b ((v[b] ^^^ v[c]).rotateRight R4)
  v

/-- RFC 3.2: one round, `i` being the round number. -/
def round (a : Alg) (m : Vector (Word a) 16) (v : Vector (Word a) 16) (i : Nat) : Vector (Word a) 16 :=
  let s := sigma[i % 10]'(Nat.mod_lt _ (by decide))
  let v := G a v 0 4  8 12 m[s[0]]  m[s[1]]
  let v := G a v 1 5  9 13 m[s[2]]  m[s[3]]
  let v := G a v 2 6 10 14 m[s[4]]  m[s[5]]
  let v := G a v 3 7 11 15 m[s[6]]  m[s[7]]
  let v := G a v 0 5 10 15 m[s[8]]  m[s[9]]
  let v := G a v 1 6 11 12 m[s[10]] m[s[11]]
  let v := G a v 2 7  8 13 m[s[12]] m[s[13]]
  let v := G a v 3 4  9 14 m[s[14]] m[s[15]]
  v

/-- The sixteen message words of a block, each read in little-endian order (RFC 2.4, 3.3). -/
def msgWords (a : Alg) (block : List Byte) : Vector (Word a) 16 :=
  Vector.ofFn fun i => BitVec.ofNat a.w (leNat ((block.drop (i * a.wb)).take a.wb))

/-- The all-ones word if the flag is set. -/
def flag (a : Alg) (f : Bool) : Word a := if f then BitVec.allOnes a.w else 0

/-- RFC 3.2: compression function `F(h, m, t, f)`, with the second finalization flag `f1` (last node) of
paper section 2.2/2.10: the last word of the local vector is complemented for the last block of a last node. -/
def F (a : Alg) (h : Vector (Word a) 8) (block : List Byte) (t : Nat) (f f1 : Bool) : Vector (Word a) 8 :=
  let m := msgWords a block
  let v : Vector (Word a) 16 := #v[
    h[0], h[1], h[2], h[3], h[4], h[5], h[6], h[7],
    (iv a)[0], (iv a)[1], (iv a)[2], (iv a)[3],
    (iv a)[4] ^^^ BitVec.ofNat a.w (t % 2 ^ a.w),
    (iv a)[5] ^^^ BitVec.ofNat a.w (t / 2 ^ a.w),
    (iv a)[6] ^^^ flag a f,
    (iv a)[7] ^^^ flag a f1]
  let v := (List.range (rounds a)).foldl (round a m) v
  #v[h[0] ^^^ v[0] ^^^ v[8],  h[1] ^^^ v[1] ^^^ v[9],
     h[2] ^^^ v[2] ^^^ v[10], h[3] ^^^ v[3] ^^^ v[11],
     h[4] ^^^ v[4] ^^^ v[12], h[5] ^^^ v[5] ^^^ v[13],
     h[6] ^^^ v[6] ^^^ v[14], h[7] ^^^ v[7] ^^^ v[15]]

/-- Zero padding on the right up to `n` bytes. -/
def pad (n : Nat) (l : List Byte) : List Byte := l ++ List.replicate (n - l.length) 0

/-- The `i`-th data block, zero padded (RFC 3.3). -/
def dataBlock (a : Alg) (data : List Byte) (i : Nat) : List Byte :=
  pad (bb a) ((data.drop (i * bb a)).take (bb a))

/-- Number of data blocks: at least one (RFC 3.3, "dd = max(1, ceil(ll / bb))" once a key block is counted as data). -/
def numBlocks (a : Alg) (len : Nat) : Nat := max 1 ((len + bb a - 1) / bb a)

/-- RFC 3.3: process the data blocks `d[0] .. d[dd-1]` from the initial chaining value `h`. `data` already starts with
the padded key block if there is one, so the byte counter of the last block is `data.length`. -/
def process (a : Alg) (h : Vector (Word a) 8) (data : List Byte) (lastNode : Bool) : Vector (Word a) 8 :=
  let dd := numBlocks a data.length
  let h := (List.range (dd - 1)).foldl (fun h i => F a h (dataBlock a data i) ((i + 1) * bb a) false false) h
  F a h (dataBlock a data (dd - 1)) data.length true lastNode

/-- The chaining value as bytes (little endian). -/
def wordsToBytes (a : Alg) (h : Vector (Word a) 8) : List Byte :=
  h.toList.flatMap fun x => leBytes a.wb x.toNat

/-- The user-visible parameters of a BLAKE2 node (paper section 2.5, 2.10). Byte strings are as the caller supplies them. -/
structure Config where
  digestLength : Nat
  key : List Byte
  fanout : Nat
  maxDepth : Nat
  leafLength : Nat
  nodeOffset : Nat
  nodeDepth : Nat
  innerLength : Nat
  salt : List Byte
  personal : List Byte
  lastNode : Bool
deriving DecidableEq, Repr

/-- Default parameters: sequential mode, full-length digest, no key. -/
def Config.default (a : Alg) : Config where
  digestLength := maxOut a
  key := []
  fanout := 1
  maxDepth := 1
  leafLength := 0
  nodeOffset := 0
  nodeDepth := 0
  innerLength := 0
  salt := []
  personal := []
  lastNode := false

/-- Bytes of salt and of personalization (paper tables 1 and 2). -/
def saltBytes : Alg → Nat
  | .b => 16
  | .s => 8

/-- Bytes of the node offset field (paper tables 1 and 2). -/
def nodeOffsetBytes : Alg → Nat
  | .b => 8
  | .s => 6

/-- Paper, tables 1 (BLAKE2b, 64 bytes) and 2 (BLAKE2s, 32 bytes): the parameter block. -/
def paramBlock (a : Alg) (c : Config) : List Byte :=
  [BitVec.ofNat 8 c.digestLength, BitVec.ofNat 8 c.key.length, BitVec.ofNat 8 c.fanout, BitVec.ofNat 8 c.maxDepth]
  ++ leBytes 4 c.leafLength
  ++ leBytes (nodeOffsetBytes a) c.nodeOffset
  ++ [BitVec.ofNat 8 c.nodeDepth, BitVec.ofNat 8 c.innerLength]
  ++ (match a with | .b => List.replicate 14 0 | .s => [])   -- reserved
  ++ pad (saltBytes a) c.salt
  ++ pad (saltBytes a) c.personal

/-- The ranges the parameters must lie in (paper section 2.5). -/
def Config.Valid (a : Alg) (c : Config) : Prop :=
  1 ≤ c.digestLength ∧ c.digestLength ≤ maxOut a ∧ c.key.length ≤ maxOut a ∧
  c.fanout < 2 ^ 8 ∧ c.maxDepth < 2 ^ 8 ∧ c.leafLength < 2 ^ 32 ∧
  c.nodeOffset < 2 ^ (8 * nodeOffsetBytes a) ∧ c.nodeDepth < 2 ^ 8 ∧ c.innerLength ≤ maxOut a ∧
  c.salt.length ≤ saltBytes a ∧ c.personal.length ≤ saltBytes a

/-- Paper section 2.5: the initial chaining value is the IV xored with the parameter block. -/
def initH (a : Alg) (c : Config) : Vector (Word a) 8 :=
  Vector.ofFn fun i => (iv a)[i] ^^^
    BitVec.ofNat a.w (leNat (((paramBlock a c).drop (i * a.wb)).take a.wb))

/-- RFC 3.3: the data that is hashed, starting with the zero padded key block iff there is a key. -/
def keyedData (a : Alg) (key msg : List Byte) : List Byte :=
  (if key = [] then [] else pad (bb a) key) ++ msg

/-- Full-length (untruncated) output of a node. -/
def hashFull (a : Alg) (c : Config) (msg : List Byte) : List Byte :=
  wordsToBytes a (process a (initH a c) (keyedData a c.key msg) c.lastNode)

/-- BLAKE2b / BLAKE2s with arbitrary parameters: the first `digestLength` bytes of the final chaining value. -/
def hash (a : Alg) (c : Config) (msg : List Byte) : List Byte :=
  (hashFull a c msg).take c.digestLength

/-! ## Frames: what the compression function is given -/

/-- One call of the compression function: the block, the byte counter (which has `2 * w` bits) and the two flags. -/
structure Frame where
  block : List Byte
  counter : Nat
  final : Bool
  lastNode : Bool
deriving DecidableEq

/-- The calls made for `data` (RFC 3.3), in order. -/
def frames (a : Alg) (data : List Byte) (lastNode : Bool) : List Frame :=
  let dd := numBlocks a data.length
  (List.range (dd - 1)).map (fun i => ⟨dataBlock a data i, (i + 1) * bb a % 2 ^ (2 * a.w), false, false⟩) ++
    [⟨dataBlock a data (dd - 1), data.length % 2 ^ (2 * a.w), true, lastNode⟩]

/-- Apply the compression function to one frame. -/
def Frame.step (a : Alg) (h : Vector (Word a) 8) (fr : Frame) : Vector (Word a) 8 :=
  F a h fr.block fr.counter fr.final fr.lastNode

/-! ## Where the constants come from -/

/-- A prime number, by its definition. -/
def isPrime (n : Nat) : Bool := 2 ≤ n && (List.range n).all fun d => d < 2 || n % d ≠ 0

/-- The first eight primes. -/
def firstPrimes : List Nat := ((List.range 20).filter isPrime).take 8

/-! ## Hexadecimal -/

/-- Two lowercase hexadecimal digits per byte, high nibble first. `Nat.digitChar` is Lean's digit table. -/
def hexOf (bytes : List Byte) : List Char :=
  bytes.flatMap fun b => [Nat.digitChar (b.toNat / 16), Nat.digitChar (b.toNat % 16)]

/-- The value of a hexadecimal digit of either case. -/
def hexVal (c : Char) : Option Nat :=
  if '0' ≤ c ∧ c ≤ '9' then some (c.toNat - '0'.toNat)
  else if 'a' ≤ c ∧ c ≤ 'f' then some (c.toNat - 'a'.toNat + 10)
  else if 'A' ≤ c ∧ c ≤ 'F' then some (c.toNat - 'A'.toNat + 10)
  else none

/-- Decode hexadecimal text; `none` if its length is odd or a character is not a digit. -/
def unhex : List Char → Option (List Byte)
  | [] => some []
  | [_] => none
  | c :: d :: rest => do
    let x ← hexVal c
    let y ← hexVal d
    let bytes ← unhex rest
    some (BitVec.ofNat 8 (16 * x + y) :: bytes)

/-! ## BLAKE2bp and BLAKE2sp (paper section 2.9 / reference implementation) -/

/-- Parallelism degree: BLAKE2bp has four leaves, BLAKE2sp eight. -/
def degree : Alg → Nat
  | .b => 4
  | .s => 8

/-- The message of leaf `i`: the input blocks number `i`, `i + degree`, `i + 2 * degree`, ... in order. -/
def leafMsg (a : Alg) (msg : List Byte) (i : Nat) : List Byte :=
  (((List.range ((msg.length + bb a - 1) / bb a)).filter (fun j => j % degree a = i)).map
    (fun j => (msg.drop (j * bb a)).take (bb a))).flatten

/-- Parameters of leaf `i`. All nodes carry the requested digest length and the key length; inner length is full. -/
def leafConfig (a : Alg) (hashLength : Nat) (key : List Byte) (i : Nat) : Config :=
  { Config.default a with
    digestLength := hashLength, key := key, fanout := degree a, maxDepth := 2, leafLength := 0,
    nodeOffset := i, nodeDepth := 0, innerLength := maxOut a, lastNode := decide (i = degree a - 1) }

/-- Parameters of the root. -/
def rootConfig (a : Alg) (hashLength : Nat) (key : List Byte) : Config :=
  { Config.default a with
    digestLength := hashLength, key := key, fanout := degree a, maxDepth := 2, leafLength := 0,
    nodeOffset := 0, nodeDepth := 1, innerLength := maxOut a, lastNode := true }

/-- BLAKE2bp / BLAKE2sp. Leaves hash their stripe (after the key block when keyed); the root hashes the concatenation
of the full-length leaf outputs. The root's parameter block records the key length but the root hashes no key block. -/
def hashP (a : Alg) (hashLength : Nat) (key msg : List Byte) : List Byte :=
  let leaves := (List.range (degree a)).flatMap fun i => hashFull a (leafConfig a hashLength key i) (leafMsg a msg i)
  (wordsToBytes a (process a (initH a (rootConfig a hashLength key)) leaves true)).take hashLength

end Blake2.Spec
