import Verif.Model.NWay
/-!
# Model of `blake2b/src/sse41.rs`
-/
namespace Blake2.BSse41
open X86

/-- `loadu` of `[Word; DEGREE]`. blake2b/src/sse41.rs 18-21. -/
def loadu (src : Vector (BitVec 64) 2) : M128 := ofLanes 64 128 src.toList
/-- `storeu` to `[Word; DEGREE]`. blake2b/src/sse41.rs 24-27. -/
def storeu (x : M128) : Vector (BitVec 64) 2 := #v[lane 64 x 0, lane 64 x 1]
/-- `loadu(block.add(k))` where `block: *const [Word; DEGREE]` points to a message block. blake2b/src/sse41.rs 324-340. -/
def loadBlock (block : List Byte) (k : Nat) : M128 :=
  mm_loadu_si128 ((block.drop (16 * k)).take 16)
/-- `add`. blake2b/src/sse41.rs 30-32. -/
def add (a b : M128) : M128 := mm_add_epi64 a b
/-- `eq`. blake2b/src/sse41.rs 35-37. -/
def eq (a b : M128) : M128 := mm_cmpeq_epi64 a b
/-- `and`. blake2b/src/sse41.rs 40-42. -/
def and (a b : M128) : M128 := mm_and_si128 a b
/-- `negate_and`. blake2b/src/sse41.rs 45-48. -/
def negateAnd (a b : M128) : M128 := mm_andnot_si128 a b
/-- `xor`. blake2b/src/sse41.rs 51-53. -/
def xor (a b : M128) : M128 := mm_xor_si128 a b
/-- `set1`. blake2b/src/sse41.rs 56-58. -/
def set1 (x : BitVec 64) : M128 := mm_set1_epi64x x
/-- `set2`. blake2b/src/sse41.rs 61-64. The arguments are collected in a vector. -/
def setN (v : Vector (BitVec 64) 2) : M128 := mm_set_epi64x v[1] v[0]
/-- `rot32`. blake2b/src/sse41.rs 83-85. -/
def rot32 (x : M128) : M128 := mm_or_si128 (mm_srli_epi64 x 32) (mm_slli_epi64 x (64 - 32))
/-- `rot24`. blake2b/src/sse41.rs 88-90. -/
def rot24 (x : M128) : M128 := mm_or_si128 (mm_srli_epi64 x 24) (mm_slli_epi64 x (64 - 24))
/-- `rot16`. blake2b/src/sse41.rs 93-95. -/
def rot16 (x : M128) : M128 := mm_or_si128 (mm_srli_epi64 x 16) (mm_slli_epi64 x (64 - 16))
/-- `rot63`. blake2b/src/sse41.rs 98-100. -/
def rot63 (x : M128) : M128 := mm_or_si128 (mm_srli_epi64 x 63) (mm_slli_epi64 x (64 - 63))

/-- `transpose_vecs`. blake2b/src/sse41.rs 282-286. -/
def transposeVecs (a b : M128) : Vector M128 2 :=
  let a_words := storeu a
  let b_words := storeu b
  #v[setN #v[a_words[0], b_words[0]], setN #v[a_words[1], b_words[1]]]
/-- `transpose_state_vecs`. blake2b/src/sse41.rs 289-300. -/
def transposeState (w : Vector (Vector (BitVec 64) 8) 2) : Vector M128 8 :=
  let t0 := transposeVecs (loadu #v[w[0][0], w[0][1]]) (loadu #v[w[1][0], w[1][1]])
  let t1 := transposeVecs (loadu #v[w[0][2], w[0][3]]) (loadu #v[w[1][2], w[1][3]])
  let t2 := transposeVecs (loadu #v[w[0][4], w[0][5]]) (loadu #v[w[1][4], w[1][5]])
  let t3 := transposeVecs (loadu #v[w[0][6], w[0][7]]) (loadu #v[w[1][6], w[1][7]])
  #v[t0[0], t0[1], t1[0], t1[1], t2[0], t2[1], t3[0], t3[1]]
/-- `untranspose_state_vecs`. blake2b/src/sse41.rs 303-321. -/
def untransposeState (h : Vector M128 8) : Vector (Vector (BitVec 64) 8) 2 :=
  let out0 := transposeVecs h[0] h[1]
  let out1 := transposeVecs h[2] h[3]
  let out2 := transposeVecs h[4] h[5]
  let out3 := transposeVecs h[6] h[7]
  #v[storeu out0[0] ++ storeu out1[0] ++ storeu out2[0] ++ storeu out3[0],
     storeu out0[1] ++ storeu out1[1] ++ storeu out2[1] ++ storeu out3[1]]
/-- `transpose_msg_vecs`. blake2b/src/sse41.rs 324-340. -/
def transposeMsg (blocks : Vector (List Byte) 2) : Vector M128 16 :=
  let t0 := transposeVecs (loadBlock blocks[0] 0) (loadBlock blocks[1] 0)
  let t1 := transposeVecs (loadBlock blocks[0] 1) (loadBlock blocks[1] 1)
  let t2 := transposeVecs (loadBlock blocks[0] 2) (loadBlock blocks[1] 2)
  let t3 := transposeVecs (loadBlock blocks[0] 3) (loadBlock blocks[1] 3)
  let t4 := transposeVecs (loadBlock blocks[0] 4) (loadBlock blocks[1] 4)
  let t5 := transposeVecs (loadBlock blocks[0] 5) (loadBlock blocks[1] 5)
  let t6 := transposeVecs (loadBlock blocks[0] 6) (loadBlock blocks[1] 6)
  let t7 := transposeVecs (loadBlock blocks[0] 7) (loadBlock blocks[1] 7)
  #v[t0[0], t0[1], t1[0], t1[1], t2[0], t2[1], t3[0], t3[1], t4[0], t4[1], t5[0], t5[1], t6[0], t6[1], t7[0], t7[1]]

/-- The wrappers of `blake2b/src/sse41.rs` as an N-way implementation, `DEGREE` = 2. -/
def impl : VImpl .b 2 M128 where
  add := add
  xor := xor
  eq := eq
  and := and
  negateAnd := negateAnd
  rotA := rot32
  rotB := rot24
  rotC := rot16
  rotD := rot63
  set1 := set1
  setN := setN
  toInts := storeu
  transposeState := transposeState
  untransposeState := untransposeState
  transposeMsg := transposeMsg

/-- `sse41::compress2_loop`. blake2b/src/sse41.rs 376-461. -/
def compress2Loop := NWay.compressLoop impl

end Blake2.BSse41
