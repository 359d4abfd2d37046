import Verif.Model.NWay
/-!
# Model of `blake2s/src/sse41.rs`
-/
namespace Blake2.SSse41
open X86

/-- `loadu` of `[Word; DEGREE]`. blake2s/src/sse41.rs 18-21. -/
def loadu (src : Vector (BitVec 32) 4) : M128 := ofLanes 32 128 src.toList
/-- `storeu` to `[Word; DEGREE]`. blake2s/src/sse41.rs 24-27. -/
def storeu (x : M128) : Vector (BitVec 32) 4 := #v[lane 32 x 0, lane 32 x 1, lane 32 x 2, lane 32 x 3]
/-- `loadu(block.add(k))` where `block: *const [Word; DEGREE]` points to a message block. blake2s/src/sse41.rs 705-739. -/
def loadBlock (block : List Byte) (k : Nat) : M128 :=
  mm_loadu_si128 ((block.drop (16 * k)).take 16)
/-- `add`. blake2s/src/sse41.rs 30-32. -/
def add (a b : M128) : M128 := mm_add_epi32 a b
/-- `eq`. blake2s/src/sse41.rs 35-37. -/
def eq (a b : M128) : M128 := mm_cmpeq_epi32 a b
/-- `and`. blake2s/src/sse41.rs 40-42. -/
def and (a b : M128) : M128 := mm_and_si128 a b
/-- `negate_and`. blake2s/src/sse41.rs 45-48. -/
def negateAnd (a b : M128) : M128 := mm_andnot_si128 a b
/-- `xor`. blake2s/src/sse41.rs 51-53. -/
def xor (a b : M128) : M128 := mm_xor_si128 a b
/-- `set1`. blake2s/src/sse41.rs 56-58. -/
def set1 (x : BitVec 32) : M128 := mm_set1_epi32 x
/-- `set4`. blake2s/src/sse41.rs 61-63. The arguments are collected in a vector. -/
def setN (v : Vector (BitVec 32) 4) : M128 := mm_setr_epi32 v[0] v[1] v[2] v[3]
/-- `rot16`. blake2s/src/sse41.rs 90-92. -/
def rot16 (x : M128) : M128 := mm_or_si128 (mm_srli_epi32 x 16) (mm_slli_epi32 x (32 - 16))
/-- `rot12`. blake2s/src/sse41.rs 85-87. -/
def rot12 (x : M128) : M128 := mm_or_si128 (mm_srli_epi32 x 12) (mm_slli_epi32 x (32 - 12))
/-- `rot8`. blake2s/src/sse41.rs 80-82. -/
def rot8 (x : M128) : M128 := mm_or_si128 (mm_srli_epi32 x 8) (mm_slli_epi32 x (32 - 8))
/-- `rot7`. blake2s/src/sse41.rs 75-77. -/
def rot7 (x : M128) : M128 := mm_or_si128 (mm_srli_epi32 x 7) (mm_slli_epi32 x (32 - 7))

/-- `transpose_vecs`. blake2s/src/sse41.rs 636-657. -/
def transposeVecs (vec_a vec_b vec_c vec_d : M128) : Vector M128 4 :=
  let ab_01 := mm_unpacklo_epi32 vec_a vec_b
  let ab_23 := mm_unpackhi_epi32 vec_a vec_b
  let cd_01 := mm_unpacklo_epi32 vec_c vec_d
  let cd_23 := mm_unpackhi_epi32 vec_c vec_d
  let abcd_0 := mm_unpacklo_epi64 ab_01 cd_01
  let abcd_1 := mm_unpackhi_epi64 ab_01 cd_01
  let abcd_2 := mm_unpacklo_epi64 ab_23 cd_23
  let abcd_3 := mm_unpackhi_epi64 ab_23 cd_23
  #v[abcd_0, abcd_1, abcd_2, abcd_3]
/-- `transpose_state_vecs`. blake2s/src/sse41.rs 660-681. -/
def transposeState (w : Vector (Vector (BitVec 32) 8) 4) : Vector M128 8 :=
  let t0 := transposeVecs (loadu #v[w[0][0], w[0][1], w[0][2], w[0][3]]) (loadu #v[w[1][0], w[1][1], w[1][2], w[1][3]]) (loadu #v[w[2][0], w[2][1], w[2][2], w[2][3]]) (loadu #v[w[3][0], w[3][1], w[3][2], w[3][3]])
  let t1 := transposeVecs (loadu #v[w[0][4], w[0][5], w[0][6], w[0][7]]) (loadu #v[w[1][4], w[1][5], w[1][6], w[1][7]]) (loadu #v[w[2][4], w[2][5], w[2][6], w[2][7]]) (loadu #v[w[3][4], w[3][5], w[3][6], w[3][7]])
  #v[t0[0], t0[1], t0[2], t0[3], t1[0], t1[1], t1[2], t1[3]]
/-- `untranspose_state_vecs`. blake2s/src/sse41.rs 684-702. -/
def untransposeState (h : Vector M128 8) : Vector (Vector (BitVec 32) 8) 4 :=
  let out0 := transposeVecs h[0] h[1] h[2] h[3]
  let out1 := transposeVecs h[4] h[5] h[6] h[7]
  #v[storeu out0[0] ++ storeu out1[0],
     storeu out0[1] ++ storeu out1[1],
     storeu out0[2] ++ storeu out1[2],
     storeu out0[3] ++ storeu out1[3]]
/-- `transpose_msg_vecs`. blake2s/src/sse41.rs 705-739. -/
def transposeMsg (blocks : Vector (List Byte) 4) : Vector M128 16 :=
  let t0 := transposeVecs (loadBlock blocks[0] 0) (loadBlock blocks[1] 0) (loadBlock blocks[2] 0) (loadBlock blocks[3] 0)
  let t1 := transposeVecs (loadBlock blocks[0] 1) (loadBlock blocks[1] 1) (loadBlock blocks[2] 1) (loadBlock blocks[3] 1)
  let t2 := transposeVecs (loadBlock blocks[0] 2) (loadBlock blocks[1] 2) (loadBlock blocks[2] 2) (loadBlock blocks[3] 2)
  let t3 := transposeVecs (loadBlock blocks[0] 3) (loadBlock blocks[1] 3) (loadBlock blocks[2] 3) (loadBlock blocks[3] 3)
  #v[t0[0], t0[1], t0[2], t0[3], t1[0], t1[1], t1[2], t1[3], t2[0], t2[1], t2[2], t2[3], t3[0], t3[1], t3[2], t3[3]]

/-- The wrappers of `blake2s/src/sse41.rs` as an N-way implementation, `DEGREE` = 4. -/
def impl : VImpl .s 4 M128 where
  add := add
  xor := xor
  eq := eq
  and := and
  negateAnd := negateAnd
  rotA := rot16
  rotB := rot12
  rotC := rot8
  rotD := rot7
  set1 := set1
  setN := setN
  toInts := storeu
  transposeState := transposeState
  untransposeState := untransposeState
  transposeMsg := transposeMsg

/-- The four rows `row1` .. `row4` of the 4x4 state. -/
structure Rows where
  row1 : M128
  row2 : M128
  row3 : M128
  row4 : M128

/-- `g1`. blake2s/src/sse41.rs 95-108. -/
def g1 (v : Rows) (m : M128) : Rows :=
  let row1 := add (add v.row1 m) v.row2
  let row4 := xor v.row4 row1
  let row4 := rot16 row4
  let row3 := add v.row3 row4
  let row2 := xor v.row2 row3
  let row2 := rot12 row2
  ⟨row1, row2, row3, row4⟩
/-- `g2`. blake2s/src/sse41.rs 111-124. -/
def g2 (v : Rows) (m : M128) : Rows :=
  let row1 := add (add v.row1 m) v.row2
  let row4 := xor v.row4 row1
  let row4 := rot8 row4
  let row3 := add v.row3 row4
  let row2 := xor v.row2 row3
  let row2 := rot7 row2
  ⟨row1, row2, row3, row4⟩
/-- `diagonalize`. blake2s/src/sse41.rs 137-141. -/
def diagonalize (v : Rows) : Rows :=
  ⟨mm_shuffle_epi32 v.row1 (MM_SHUFFLE 2 1 0 3), v.row2,
   mm_shuffle_epi32 v.row3 (MM_SHUFFLE 0 3 2 1), mm_shuffle_epi32 v.row4 (MM_SHUFFLE 1 0 3 2)⟩
/-- `undiagonalize`. blake2s/src/sse41.rs 144-148. -/
def undiagonalize (v : Rows) : Rows :=
  ⟨mm_shuffle_epi32 v.row1 (MM_SHUFFLE 0 3 2 1), v.row2,
   mm_shuffle_epi32 v.row3 (MM_SHUFFLE 2 1 0 3), mm_shuffle_epi32 v.row4 (MM_SHUFFLE 1 0 3 2)⟩

/-- Round 1 of `compress_block`. blake2s/src/sse41.rs 175-196. -/
def round1 (m0 m1 m2 m3 : M128) (v : Rows) : Rows :=
  let buf := mm_castps_si128 (mm_shuffle_ps (mm_castsi128_ps m0) (mm_castsi128_ps m1) (MM_SHUFFLE 2 0 2 0))
  let v := g1 v buf
  let buf := mm_castps_si128 (mm_shuffle_ps (mm_castsi128_ps m0) (mm_castsi128_ps m1) (MM_SHUFFLE 3 1 3 1))
  let v := g2 v buf
  let v := diagonalize v
  let t0 := mm_shuffle_epi32 m2 (MM_SHUFFLE 3 2 0 1)
  let t1 := mm_shuffle_epi32 m3 (MM_SHUFFLE 0 1 3 2)
  let buf := mm_blend_epi16 t0 t1 0xC3
  let v := g1 v buf
  let t0 := mm_blend_epi16 t0 t1 0x3C
  let buf := mm_shuffle_epi32 t0 (MM_SHUFFLE 2 3 0 1)
  let v := g2 v buf
  undiagonalize v

/-- Round 2 of `compress_block`. blake2s/src/sse41.rs 198-220. -/
def round2 (m0 m1 m2 m3 : M128) (v : Rows) : Rows :=
  let t0 := mm_blend_epi16 m1 m2 0x0C
  let t1 := mm_slli_si128 m3 4
  let t2 := mm_blend_epi16 t0 t1 0xF0
  let buf := mm_shuffle_epi32 t2 (MM_SHUFFLE 2 1 0 3)
  let v := g1 v buf
  let t0 := mm_shuffle_epi32 m2 (MM_SHUFFLE 0 0 2 0)
  let t1 := mm_blend_epi16 m1 m3 0xC0
  let t2 := mm_blend_epi16 t0 t1 0xF0
  let buf := mm_shuffle_epi32 t2 (MM_SHUFFLE 2 3 0 1)
  let v := g2 v buf
  let v := diagonalize v
  let t0 := mm_slli_si128 m1 4
  let t1 := mm_blend_epi16 m2 t0 0x30
  let t2 := mm_blend_epi16 m0 t1 0xF0
  let buf := mm_shuffle_epi32 t2 (MM_SHUFFLE 3 0 1 2)
  let v := g1 v buf
  let t0 := mm_unpackhi_epi32 m0 m1
  let t1 := mm_slli_si128 m3 4
  let t2 := mm_blend_epi16 t0 t1 0x0C
  let buf := mm_shuffle_epi32 t2 (MM_SHUFFLE 3 0 1 2)
  let v := g2 v buf
  undiagonalize v

/-- Round 3 of `compress_block`. blake2s/src/sse41.rs 222-244. -/
def round3 (m0 m1 m2 m3 : M128) (v : Rows) : Rows :=
  let t0 := mm_unpackhi_epi32 m2 m3
  let t1 := mm_blend_epi16 m3 m1 0x0C
  let t2 := mm_blend_epi16 t0 t1 0x0F
  let buf := mm_shuffle_epi32 t2 (MM_SHUFFLE 3 1 0 2)
  let v := g1 v buf
  let t0 := mm_unpacklo_epi32 m2 m0
  let t1 := mm_blend_epi16 t0 m0 0xF0
  let t2 := mm_slli_si128 m3 8
  let buf := mm_blend_epi16 t1 t2 0xC0
  let v := g2 v buf
  let v := diagonalize v
  let t0 := mm_blend_epi16 m0 m2 0x3C
  let t1 := mm_srli_si128 m1 12
  let t2 := mm_blend_epi16 t0 t1 0x03
  let buf := mm_shuffle_epi32 t2 (MM_SHUFFLE 0 3 2 1)
  let v := g1 v buf
  let t0 := mm_slli_si128 m3 4
  let t1 := mm_blend_epi16 m0 m1 0x33
  let t2 := mm_blend_epi16 t1 t0 0xC0
  let buf := mm_shuffle_epi32 t2 (MM_SHUFFLE 1 2 3 0)
  let v := g2 v buf
  undiagonalize v

/-- Round 4 of `compress_block`. blake2s/src/sse41.rs 246-265. -/
def round4 (m0 m1 m2 m3 : M128) (v : Rows) : Rows :=
  let t0 := mm_unpackhi_epi32 m0 m1
  let t1 := mm_unpackhi_epi32 t0 m2
  let t2 := mm_blend_epi16 t1 m3 0x0C
  let buf := mm_shuffle_epi32 t2 (MM_SHUFFLE 3 1 0 2)
  let v := g1 v buf
  let t0 := mm_slli_si128 m2 8
  let t1 := mm_blend_epi16 m3 m0 0x0C
  let t2 := mm_blend_epi16 t1 t0 0xC0
  let buf := mm_shuffle_epi32 t2 (MM_SHUFFLE 2 0 1 3)
  let v := g2 v buf
  let v := diagonalize v
  let t0 := mm_blend_epi16 m0 m1 0x0F
  let t1 := mm_blend_epi16 t0 m3 0xC0
  let buf := mm_shuffle_epi32 t1 (MM_SHUFFLE 0 1 2 3)
  let v := g1 v buf
  let t0 := mm_alignr_epi8 m0 m1 4
  let buf := mm_blend_epi16 t0 m2 0x33
  let v := g2 v buf
  undiagonalize v

/-- Round 5 of `compress_block`. blake2s/src/sse41.rs 267-288. -/
def round5 (m0 m1 m2 m3 : M128) (v : Rows) : Rows :=
  let t0 := mm_unpacklo_epi64 m1 m2
  let t1 := mm_unpackhi_epi64 m0 m2
  let t2 := mm_blend_epi16 t0 t1 0x33
  let buf := mm_shuffle_epi32 t2 (MM_SHUFFLE 2 0 1 3)
  let v := g1 v buf
  let t0 := mm_unpackhi_epi64 m1 m3
  let t1 := mm_unpacklo_epi64 m0 m1
  let buf := mm_blend_epi16 t0 t1 0x33
  let v := g2 v buf
  let v := diagonalize v
  let t0 := mm_unpackhi_epi64 m3 m1
  let t1 := mm_unpackhi_epi64 m2 m0
  let t2 := mm_blend_epi16 t1 t0 0x33
  let buf := mm_shuffle_epi32 t2 (MM_SHUFFLE 2 1 0 3)
  let v := g1 v buf
  let t0 := mm_blend_epi16 m0 m2 0x03
  let t1 := mm_slli_si128 t0 8
  let t2 := mm_blend_epi16 t1 m3 0x0F
  let buf := mm_shuffle_epi32 t2 (MM_SHUFFLE 2 0 3 1)
  let v := g2 v buf
  undiagonalize v

/-- Round 6 of `compress_block`. blake2s/src/sse41.rs 290-310. -/
def round6 (m0 m1 m2 m3 : M128) (v : Rows) : Rows :=
  let t0 := mm_unpackhi_epi32 m0 m1
  let t1 := mm_unpacklo_epi32 m0 m2
  let buf := mm_unpacklo_epi64 t0 t1
  let v := g1 v buf
  let t0 := mm_srli_si128 m2 4
  let t1 := mm_blend_epi16 m0 m3 0x03
  let buf := mm_blend_epi16 t1 t0 0x3C
  let v := g2 v buf
  let v := diagonalize v
  let t0 := mm_blend_epi16 m1 m0 0x0C
  let t1 := mm_srli_si128 m3 4
  let t2 := mm_blend_epi16 t0 t1 0x30
  let buf := mm_shuffle_epi32 t2 (MM_SHUFFLE 2 3 0 1)
  let v := g1 v buf
  let t0 := mm_unpacklo_epi64 m2 m1
  let t1 := mm_shuffle_epi32 m3 (MM_SHUFFLE 2 0 1 0)
  let t2 := mm_srli_si128 t0 4
  let buf := mm_blend_epi16 t1 t2 0x33
  let v := g2 v buf
  undiagonalize v

/-- Round 7 of `compress_block`. blake2s/src/sse41.rs 312-331. -/
def round7 (m0 m1 m2 m3 : M128) (v : Rows) : Rows :=
  let t0 := mm_slli_si128 m1 12
  let t1 := mm_blend_epi16 m0 m3 0x33
  let buf := mm_blend_epi16 t1 t0 0xC0
  let v := g1 v buf
  let t0 := mm_blend_epi16 m3 m2 0x30
  let t1 := mm_srli_si128 m1 4
  let t2 := mm_blend_epi16 t0 t1 0x03
  let buf := mm_shuffle_epi32 t2 (MM_SHUFFLE 2 1 3 0)
  let v := g2 v buf
  let v := diagonalize v
  let t0 := mm_unpacklo_epi64 m0 m2
  let t1 := mm_srli_si128 m1 4
  let buf := mm_shuffle_epi32 (mm_blend_epi16 t0 t1 0x0C) (MM_SHUFFLE 3 1 0 2)
  let v := g1 v buf
  let t0 := mm_unpackhi_epi32 m1 m2
  let t1 := mm_unpackhi_epi64 m0 t0
  let buf := mm_shuffle_epi32 t1 (MM_SHUFFLE 0 1 2 3)
  let v := g2 v buf
  undiagonalize v

/-- Round 8 of `compress_block`. blake2s/src/sse41.rs 333-354. -/
def round8 (m0 m1 m2 m3 : M128) (v : Rows) : Rows :=
  let t0 := mm_unpackhi_epi32 m0 m1
  let t1 := mm_blend_epi16 t0 m3 0x0F
  let buf := mm_shuffle_epi32 t1 (MM_SHUFFLE 2 0 3 1)
  let v := g1 v buf
  let t0 := mm_blend_epi16 m2 m3 0x30
  let t1 := mm_srli_si128 m0 4
  let t2 := mm_blend_epi16 t0 t1 0x03
  let buf := mm_shuffle_epi32 t2 (MM_SHUFFLE 1 0 2 3)
  let v := g2 v buf
  let v := diagonalize v
  let t0 := mm_unpackhi_epi64 m0 m3
  let t1 := mm_unpacklo_epi64 m1 m2
  let t2 := mm_blend_epi16 t0 t1 0x3C
  let buf := mm_shuffle_epi32 t2 (MM_SHUFFLE 2 3 1 0)
  let v := g1 v buf
  let t0 := mm_unpacklo_epi32 m0 m1
  let t1 := mm_unpackhi_epi32 m1 m2
  let t2 := mm_unpacklo_epi64 t0 t1
  let buf := mm_shuffle_epi32 t2 (MM_SHUFFLE 2 1 0 3)
  let v := g2 v buf
  undiagonalize v

/-- Round 9 of `compress_block`. blake2s/src/sse41.rs 356-375. -/
def round9 (m0 m1 m2 m3 : M128) (v : Rows) : Rows :=
  let t0 := mm_unpackhi_epi32 m1 m3
  let t1 := mm_unpacklo_epi64 t0 m0
  let t2 := mm_blend_epi16 t1 m2 0xC0
  let buf := mm_shufflehi_epi16 t2 (MM_SHUFFLE 1 0 3 2)
  let v := g1 v buf
  let t0 := mm_unpackhi_epi32 m0 m3
  let t1 := mm_blend_epi16 m2 t0 0xF0
  let buf := mm_shuffle_epi32 t1 (MM_SHUFFLE 0 2 1 3)
  let v := g2 v buf
  let v := diagonalize v
  let t0 := mm_unpacklo_epi64 m0 m3
  let t1 := mm_srli_si128 m2 8
  let t2 := mm_blend_epi16 t0 t1 0x03
  let buf := mm_shuffle_epi32 t2 (MM_SHUFFLE 1 3 2 0)
  let v := g1 v buf
  let t0 := mm_blend_epi16 m1 m0 0x30
  let buf := mm_shuffle_epi32 t0 (MM_SHUFFLE 0 3 2 1)
  let v := g2 v buf
  undiagonalize v

/-- Round 10 of `compress_block`. blake2s/src/sse41.rs 377-398. -/
def round10 (m0 m1 m2 m3 : M128) (v : Rows) : Rows :=
  let t0 := mm_blend_epi16 m0 m2 0x03
  let t1 := mm_blend_epi16 m1 m2 0x30
  let t2 := mm_blend_epi16 t1 t0 0x0F
  let buf := mm_shuffle_epi32 t2 (MM_SHUFFLE 1 3 0 2)
  let v := g1 v buf
  let t0 := mm_slli_si128 m0 4
  let t1 := mm_blend_epi16 m1 t0 0xC0
  let buf := mm_shuffle_epi32 t1 (MM_SHUFFLE 1 2 0 3)
  let v := g2 v buf
  let v := diagonalize v
  let t0 := mm_unpackhi_epi32 m0 m3
  let t1 := mm_unpacklo_epi32 m2 m3
  let t2 := mm_unpackhi_epi64 t0 t1
  let buf := mm_shuffle_epi32 t2 (MM_SHUFFLE 0 2 1 3)
  let v := g1 v buf
  let t0 := mm_blend_epi16 m3 m2 0xC0
  let t1 := mm_unpacklo_epi32 m0 m3
  let t2 := mm_blend_epi16 t0 t1 0x0F
  let buf := mm_shuffle_epi32 t2 (MM_SHUFFLE 1 2 3 0)
  let v := g2 v buf
  undiagonalize v

/-- The ten rounds of `compress_block`. blake2s/src/sse41.rs 174-397. -/
def rounds (m0 m1 m2 m3 : M128) (v : Rows) : Rows :=
  let v := round1 m0 m1 m2 m3 v
  let v := round2 m0 m1 m2 m3 v
  let v := round3 m0 m1 m2 m3 v
  let v := round4 m0 m1 m2 m3 v
  let v := round5 m0 m1 m2 m3 v
  let v := round6 m0 m1 m2 m3 v
  let v := round7 m0 m1 m2 m3 v
  let v := round8 m0 m1 m2 m3 v
  let v := round9 m0 m1 m2 m3 v
  round10 m0 m1 m2 m3 v

/-- `compress_block`. blake2s/src/sse41.rs 151-402. -/
def compressBlock : CompressBlock .s := fun block words count lastBlock lastNode =>
  let wordsLow : Vector (BitVec 32) 4 := #v[words[0], words[1], words[2], words[3]]
  let wordsHigh : Vector (BitVec 32) 4 := #v[words[4], words[5], words[6], words[7]]
  let row1 := loadu wordsLow
  let row2 := loadu wordsHigh
  let row3 := loadu #v[(IV .s)[0], (IV .s)[1], (IV .s)[2], (IV .s)[3]]
  let row4 := xor (loadu #v[(IV .s)[4], (IV .s)[5], (IV .s)[6], (IV .s)[7]])
    (setN #v[countLow .s count, countHigh .s count, lastBlock, lastNode])
  let v := rounds (loadBlock block 0) (loadBlock block 1) (loadBlock block 2) (loadBlock block 3) ⟨row1, row2, row3, row4⟩
  storeu (xor (loadu wordsLow) (xor v.row1 v.row3)) ++ storeu (xor (loadu wordsHigh) (xor v.row2 v.row4))

/-- `sse41::compress1_loop`. blake2s/src/sse41.rs 405-456. -/
def compress1Loop := Blake2.compress1Loop .s compressBlock rawRef

/-- `sse41::compress4_loop`. blake2s/src/sse41.rs 790-888. -/
def compress4Loop := NWay.compressLoop impl

end Blake2.SSse41
