import Verif.Model.NWay
/-!
# Model of `blake2s/src/avx2.rs`
-/
namespace Blake2.SAvx2
open X86

/-- `loadu` of `[Word; DEGREE]`. blake2s/src/avx2.rs 17-20. -/
def loadu (src : Vector (BitVec 32) 8) : M256 := ofLanes 32 256 src.toList
/-- `storeu` to `[Word; DEGREE]`. blake2s/src/avx2.rs 23-26. -/
def storeu (x : M256) : Vector (BitVec 32) 8 := #v[lane 32 x 0, lane 32 x 1, lane 32 x 2, lane 32 x 3, lane 32 x 4, lane 32 x 5, lane 32 x 6, lane 32 x 7]
/-- `loadu(block.add(k))` where `block: *const [Word; DEGREE]` points to a message block. blake2s/src/avx2.rs 364-398. -/
def loadBlock (block : List Byte) (k : Nat) : M256 :=
  mm256_loadu_si256 ((block.drop (32 * k)).take 32)
/-- `add`. blake2s/src/avx2.rs 29-31. -/
def add (a b : M256) : M256 := mm256_add_epi32 a b
/-- `eq`. blake2s/src/avx2.rs 34-36. -/
def eq (a b : M256) : M256 := mm256_cmpeq_epi32 a b
/-- `and`. blake2s/src/avx2.rs 39-41. -/
def and (a b : M256) : M256 := mm256_and_si256 a b
/-- `negate_and`. blake2s/src/avx2.rs 44-47. -/
def negateAnd (a b : M256) : M256 := mm256_andnot_si256 a b
/-- `xor`. blake2s/src/avx2.rs 50-52. -/
def xor (a b : M256) : M256 := mm256_xor_si256 a b
/-- `set1`. blake2s/src/avx2.rs 55-57. -/
def set1 (x : BitVec 32) : M256 := mm256_set1_epi32 x
/-- `set8`. blake2s/src/avx2.rs 60-64. The arguments are collected in a vector. -/
def setN (v : Vector (BitVec 32) 8) : M256 := mm256_setr_epi32 v[0] v[1] v[2] v[3] v[4] v[5] v[6] v[7]
/-- `rot16`. blake2s/src/avx2.rs 76-78. -/
def rot16 (x : M256) : M256 := mm256_or_si256 (mm256_srli_epi32 x 16) (mm256_slli_epi32 x (32 - 16))
/-- `rot12`. blake2s/src/avx2.rs 81-83. -/
def rot12 (x : M256) : M256 := mm256_or_si256 (mm256_srli_epi32 x 12) (mm256_slli_epi32 x (32 - 12))
/-- `rot8`. blake2s/src/avx2.rs 86-88. -/
def rot8 (x : M256) : M256 := mm256_or_si256 (mm256_srli_epi32 x 8) (mm256_slli_epi32 x (32 - 8))
/-- `rot7`. blake2s/src/avx2.rs 91-93. -/
def rot7 (x : M256) : M256 := mm256_or_si256 (mm256_srli_epi32 x 7) (mm256_slli_epi32 x (32 - 7))

/-- `interleave128`. blake2s/src/avx2.rs 274-279. -/
def interleave128 (a b : M256) : M256 × M256 :=
  (mm256_permute2x128_si256 a b 0x20, mm256_permute2x128_si256 a b 0x31)
/-- `transpose_vecs`. blake2s/src/avx2.rs 288-328. -/
def transposeVecs (vec_a vec_b vec_c vec_d vec_e vec_f vec_g vec_h : M256) : Vector M256 8 :=
  let ab_0145 := mm256_unpacklo_epi32 vec_a vec_b
  let ab_2367 := mm256_unpackhi_epi32 vec_a vec_b
  let cd_0145 := mm256_unpacklo_epi32 vec_c vec_d
  let cd_2367 := mm256_unpackhi_epi32 vec_c vec_d
  let ef_0145 := mm256_unpacklo_epi32 vec_e vec_f
  let ef_2367 := mm256_unpackhi_epi32 vec_e vec_f
  let gh_0145 := mm256_unpacklo_epi32 vec_g vec_h
  let gh_2367 := mm256_unpackhi_epi32 vec_g vec_h
  let abcd_04 := mm256_unpacklo_epi64 ab_0145 cd_0145
  let abcd_15 := mm256_unpackhi_epi64 ab_0145 cd_0145
  let abcd_26 := mm256_unpacklo_epi64 ab_2367 cd_2367
  let abcd_37 := mm256_unpackhi_epi64 ab_2367 cd_2367
  let efgh_04 := mm256_unpacklo_epi64 ef_0145 gh_0145
  let efgh_15 := mm256_unpackhi_epi64 ef_0145 gh_0145
  let efgh_26 := mm256_unpacklo_epi64 ef_2367 gh_2367
  let efgh_37 := mm256_unpackhi_epi64 ef_2367 gh_2367
  let (abcdefgh_0, abcdefgh_4) := interleave128 abcd_04 efgh_04
  let (abcdefgh_1, abcdefgh_5) := interleave128 abcd_15 efgh_15
  let (abcdefgh_2, abcdefgh_6) := interleave128 abcd_26 efgh_26
  let (abcdefgh_3, abcdefgh_7) := interleave128 abcd_37 efgh_37
  #v[abcdefgh_0, abcdefgh_1, abcdefgh_2, abcdefgh_3, abcdefgh_4, abcdefgh_5, abcdefgh_6, abcdefgh_7]
/-- `transpose_state_vecs`. blake2s/src/avx2.rs 331-345. -/
def transposeState (w : Vector (Vector (BitVec 32) 8) 8) : Vector M256 8 :=
  let t0 := transposeVecs (loadu #v[w[0][0], w[0][1], w[0][2], w[0][3], w[0][4], w[0][5], w[0][6], w[0][7]]) (loadu #v[w[1][0], w[1][1], w[1][2], w[1][3], w[1][4], w[1][5], w[1][6], w[1][7]]) (loadu #v[w[2][0], w[2][1], w[2][2], w[2][3], w[2][4], w[2][5], w[2][6], w[2][7]]) (loadu #v[w[3][0], w[3][1], w[3][2], w[3][3], w[3][4], w[3][5], w[3][6], w[3][7]]) (loadu #v[w[4][0], w[4][1], w[4][2], w[4][3], w[4][4], w[4][5], w[4][6], w[4][7]]) (loadu #v[w[5][0], w[5][1], w[5][2], w[5][3], w[5][4], w[5][5], w[5][6], w[5][7]]) (loadu #v[w[6][0], w[6][1], w[6][2], w[6][3], w[6][4], w[6][5], w[6][6], w[6][7]]) (loadu #v[w[7][0], w[7][1], w[7][2], w[7][3], w[7][4], w[7][5], w[7][6], w[7][7]])
  #v[t0[0], t0[1], t0[2], t0[3], t0[4], t0[5], t0[6], t0[7]]
/-- `untranspose_state_vecs`. blake2s/src/avx2.rs 348-361. -/
def untransposeState (h : Vector M256 8) : Vector (Vector (BitVec 32) 8) 8 :=
  let out0 := transposeVecs h[0] h[1] h[2] h[3] h[4] h[5] h[6] h[7]
  #v[storeu out0[0],
     storeu out0[1],
     storeu out0[2],
     storeu out0[3],
     storeu out0[4],
     storeu out0[5],
     storeu out0[6],
     storeu out0[7]]
/-- `transpose_msg_vecs`. blake2s/src/avx2.rs 364-398. -/
def transposeMsg (blocks : Vector (List Byte) 8) : Vector M256 16 :=
  let t0 := transposeVecs (loadBlock blocks[0] 0) (loadBlock blocks[1] 0) (loadBlock blocks[2] 0) (loadBlock blocks[3] 0) (loadBlock blocks[4] 0) (loadBlock blocks[5] 0) (loadBlock blocks[6] 0) (loadBlock blocks[7] 0)
  let t1 := transposeVecs (loadBlock blocks[0] 1) (loadBlock blocks[1] 1) (loadBlock blocks[2] 1) (loadBlock blocks[3] 1) (loadBlock blocks[4] 1) (loadBlock blocks[5] 1) (loadBlock blocks[6] 1) (loadBlock blocks[7] 1)
  #v[t0[0], t0[1], t0[2], t0[3], t0[4], t0[5], t0[6], t0[7], t1[0], t1[1], t1[2], t1[3], t1[4], t1[5], t1[6], t1[7]]

/-- The wrappers of `blake2s/src/avx2.rs` as an N-way implementation, `DEGREE` = 8. -/
def impl : VImpl .s 8 M256 where
  add := add
  xor := xor
  eq := eq
  and := and
  negateAnd := negateAnd
  rotA := rot16
  rotB := rot12
  rotC := rot8
  rotD := rot7
  set1 := set1
  setN := setN
  toInts := storeu
  transposeState := transposeState
  untransposeState := untransposeState
  transposeMsg := transposeMsg

/-- `avx2::compress8_loop`. blake2s/src/avx2.rs 461-592. -/
def compress8Loop := NWay.compressLoop impl

end Blake2.SAvx2
