import Verif.Model.NWay
/-!
# Model of `blake2b/src/avx2.rs`
-/
namespace Blake2.BAvx2
open X86

/-- `loadu` of `[Word; DEGREE]`. blake2b/src/avx2.rs 18-21. -/
def loadu (src : Vector (BitVec 64) 4) : M256 := ofLanes 64 256 src.toList
/-- `storeu` to `[Word; DEGREE]`. blake2b/src/avx2.rs 24-27. -/
def storeu (x : M256) : Vector (BitVec 64) 4 := #v[lane 64 x 0, lane 64 x 1, lane 64 x 2, lane 64 x 3]
/-- `loadu(block.add(k))` where `block: *const [Word; DEGREE]` points to a message block. blake2b/src/avx2.rs 746-780. -/
def loadBlock (block : List Byte) (k : Nat) : M256 :=
  mm256_loadu_si256 ((block.drop (32 * k)).take 32)
/-- `add`. blake2b/src/avx2.rs 35-37. -/
def add (a b : M256) : M256 := mm256_add_epi64 a b
/-- `eq`. blake2b/src/avx2.rs 40-42. -/
def eq (a b : M256) : M256 := mm256_cmpeq_epi64 a b
/-- `and`. blake2b/src/avx2.rs 45-47. -/
def and (a b : M256) : M256 := mm256_and_si256 a b
/-- `negate_and`. blake2b/src/avx2.rs 50-53. -/
def negateAnd (a b : M256) : M256 := mm256_andnot_si256 a b
/-- `xor`. blake2b/src/avx2.rs 56-58. -/
def xor (a b : M256) : M256 := mm256_xor_si256 a b
/-- `set1`. blake2b/src/avx2.rs 61-63. -/
def set1 (x : BitVec 64) : M256 := mm256_set1_epi64x x
/-- `set4`. blake2b/src/avx2.rs 66-68. The arguments are collected in a vector. -/
def setN (v : Vector (BitVec 64) 4) : M256 := mm256_setr_epi64x v[0] v[1] v[2] v[3]
/-- `rot32`. blake2b/src/avx2.rs 87-89. -/
def rot32 (x : M256) : M256 := mm256_or_si256 (mm256_srli_epi64 x 32) (mm256_slli_epi64 x (64 - 32))
/-- `rot24`. blake2b/src/avx2.rs 92-94. -/
def rot24 (x : M256) : M256 := mm256_or_si256 (mm256_srli_epi64 x 24) (mm256_slli_epi64 x (64 - 24))
/-- `rot16`. blake2b/src/avx2.rs 97-99. -/
def rot16 (x : M256) : M256 := mm256_or_si256 (mm256_srli_epi64 x 16) (mm256_slli_epi64 x (64 - 16))
/-- `rot63`. blake2b/src/avx2.rs 102-104. -/
def rot63 (x : M256) : M256 := mm256_or_si256 (mm256_srli_epi64 x 63) (mm256_slli_epi64 x (64 - 63))

/-- `interleave128`. blake2b/src/avx2.rs 668-673. -/
def interleave128 (a b : M256) : M256 × M256 :=
  (mm256_permute2x128_si256 a b 0x20, mm256_permute2x128_si256 a b 0x31)
/-- `transpose_vecs`. blake2b/src/avx2.rs 682-699. -/
def transposeVecs (vec_a vec_b vec_c vec_d : M256) : Vector M256 4 :=
  let ab_02 := mm256_unpacklo_epi64 vec_a vec_b
  let ab_13 := mm256_unpackhi_epi64 vec_a vec_b
  let cd_02 := mm256_unpacklo_epi64 vec_c vec_d
  let cd_13 := mm256_unpackhi_epi64 vec_c vec_d
  let (abcd_0, abcd_2) := interleave128 ab_02 cd_02
  let (abcd_1, abcd_3) := interleave128 ab_13 cd_13
  #v[abcd_0, abcd_1, abcd_2, abcd_3]
/-- `transpose_state_vecs`. blake2b/src/avx2.rs 702-723. -/
def transposeState (w : Vector (Vector (BitVec 64) 8) 4) : Vector M256 8 :=
  let t0 := transposeVecs (loadu #v[w[0][0], w[0][1], w[0][2], w[0][3]]) (loadu #v[w[1][0], w[1][1], w[1][2], w[1][3]]) (loadu #v[w[2][0], w[2][1], w[2][2], w[2][3]]) (loadu #v[w[3][0], w[3][1], w[3][2], w[3][3]])
  let t1 := transposeVecs (loadu #v[w[0][4], w[0][5], w[0][6], w[0][7]]) (loadu #v[w[1][4], w[1][5], w[1][6], w[1][7]]) (loadu #v[w[2][4], w[2][5], w[2][6], w[2][7]]) (loadu #v[w[3][4], w[3][5], w[3][6], w[3][7]])
  #v[t0[0], t0[1], t0[2], t0[3], t1[0], t1[1], t1[2], t1[3]]
/-- `untranspose_state_vecs`. blake2b/src/avx2.rs 726-743. -/
def untransposeState (h : Vector M256 8) : Vector (Vector (BitVec 64) 8) 4 :=
  let out0 := transposeVecs h[0] h[1] h[2] h[3]
  let out1 := transposeVecs h[4] h[5] h[6] h[7]
  #v[storeu out0[0] ++ storeu out1[0],
     storeu out0[1] ++ storeu out1[1],
     storeu out0[2] ++ storeu out1[2],
     storeu out0[3] ++ storeu out1[3]]
/-- `transpose_msg_vecs`. blake2b/src/avx2.rs 746-780. -/
def transposeMsg (blocks : Vector (List Byte) 4) : Vector M256 16 :=
  let t0 := transposeVecs (loadBlock blocks[0] 0) (loadBlock blocks[1] 0) (loadBlock blocks[2] 0) (loadBlock blocks[3] 0)
  let t1 := transposeVecs (loadBlock blocks[0] 1) (loadBlock blocks[1] 1) (loadBlock blocks[2] 1) (loadBlock blocks[3] 1)
  let t2 := transposeVecs (loadBlock blocks[0] 2) (loadBlock blocks[1] 2) (loadBlock blocks[2] 2) (loadBlock blocks[3] 2)
  let t3 := transposeVecs (loadBlock blocks[0] 3) (loadBlock blocks[1] 3) (loadBlock blocks[2] 3) (loadBlock blocks[3] 3)
  #v[t0[0], t0[1], t0[2], t0[3], t1[0], t1[1], t1[2], t1[3], t2[0], t2[1], t2[2], t2[3], t3[0], t3[1], t3[2], t3[3]]

/-- The wrappers of `blake2b/src/avx2.rs` as an N-way implementation, `DEGREE` = 4. -/
def impl : VImpl .b 4 M256 where
  add := add
  xor := xor
  eq := eq
  and := and
  negateAnd := negateAnd
  rotA := rot32
  rotB := rot24
  rotC := rot16
  rotD := rot63
  set1 := set1
  setN := setN
  toInts := storeu
  transposeState := transposeState
  untransposeState := untransposeState
  transposeMsg := transposeMsg

/-- The four rows `a`, `b`, `c`, `d` of the 4x4 state. -/
structure Rows where
  a : M256
  b : M256
  c : M256
  d : M256

/-- `g1`. blake2b/src/avx2.rs 107-115. -/
def g1 (v : Rows) (m : M256) : Rows :=
  let a := add v.a m
  let a := add a v.b
  let d := xor v.d a
  let d := rot32 d
  let c := add v.c d
  let b := xor v.b c
  let b := rot24 b
  ⟨a, b, c, d⟩
/-- `g2`. blake2b/src/avx2.rs 118-126. -/
def g2 (v : Rows) (m : M256) : Rows :=
  let a := add v.a m
  let a := add a v.b
  let d := xor v.d a
  let d := rot16 d
  let c := add v.c d
  let b := xor v.b c
  let b := rot63 b
  ⟨a, b, c, d⟩
/-- `diagonalize`. blake2b/src/avx2.rs 132-136. -/
def diagonalize (v : Rows) : Rows :=
  ⟨mm256_permute4x64_epi64 v.a (MM_SHUFFLE 2 1 0 3), v.b,
   mm256_permute4x64_epi64 v.c (MM_SHUFFLE 0 3 2 1), mm256_permute4x64_epi64 v.d (MM_SHUFFLE 1 0 3 2)⟩
/-- `undiagonalize`. blake2b/src/avx2.rs 139-143. -/
def undiagonalize (v : Rows) : Rows :=
  ⟨mm256_permute4x64_epi64 v.a (MM_SHUFFLE 0 3 2 1), v.b,
   mm256_permute4x64_epi64 v.c (MM_SHUFFLE 2 1 0 3), mm256_permute4x64_epi64 v.d (MM_SHUFFLE 1 0 3 2)⟩

/-- Round 1 of `compress_block`. blake2b/src/avx2.rs 177-195. -/
def round1 (m0 m1 m2 m3 m4 m5 m6 m7 : M256) (v : Rows) : Rows :=
  let t0 := mm256_unpacklo_epi64 m0 m1
  let t1 := mm256_unpacklo_epi64 m2 m3
  let b0 := mm256_blend_epi32 t0 t1 0xF0
  let v := g1 v b0
  let t0 := mm256_unpackhi_epi64 m0 m1
  let t1 := mm256_unpackhi_epi64 m2 m3
  let b0 := mm256_blend_epi32 t0 t1 0xF0
  let v := g2 v b0
  let v := diagonalize v
  let t0 := mm256_unpacklo_epi64 m7 m4
  let t1 := mm256_unpacklo_epi64 m5 m6
  let b0 := mm256_blend_epi32 t0 t1 0xF0
  let v := g1 v b0
  let t0 := mm256_unpackhi_epi64 m7 m4
  let t1 := mm256_unpackhi_epi64 m5 m6
  let b0 := mm256_blend_epi32 t0 t1 0xF0
  let v := g2 v b0
  undiagonalize v

/-- Round 2 of `compress_block`. blake2b/src/avx2.rs 197-215. -/
def round2 (m0 m1 m2 m3 m4 m5 m6 m7 : M256) (v : Rows) : Rows :=
  let t0 := mm256_unpacklo_epi64 m7 m2
  let t1 := mm256_unpackhi_epi64 m4 m6
  let b0 := mm256_blend_epi32 t0 t1 0xF0
  let v := g1 v b0
  let t0 := mm256_unpacklo_epi64 m5 m4
  let t1 := mm256_alignr_epi8 m3 m7 8
  let b0 := mm256_blend_epi32 t0 t1 0xF0
  let v := g2 v b0
  let v := diagonalize v
  let t0 := mm256_unpackhi_epi64 m2 m0
  let t1 := mm256_blend_epi32 m5 m0 0x33
  let b0 := mm256_blend_epi32 t0 t1 0xF0
  let v := g1 v b0
  let t0 := mm256_alignr_epi8 m6 m1 8
  let t1 := mm256_blend_epi32 m3 m1 0x33
  let b0 := mm256_blend_epi32 t0 t1 0xF0
  let v := g2 v b0
  undiagonalize v

/-- Round 3 of `compress_block`. blake2b/src/avx2.rs 217-235. -/
def round3 (m0 m1 m2 m3 m4 m5 m6 m7 : M256) (v : Rows) : Rows :=
  let t0 := mm256_alignr_epi8 m6 m5 8
  let t1 := mm256_unpackhi_epi64 m2 m7
  let b0 := mm256_blend_epi32 t0 t1 0xF0
  let v := g1 v b0
  let t0 := mm256_unpacklo_epi64 m4 m0
  let t1 := mm256_blend_epi32 m6 m1 0x33
  let b0 := mm256_blend_epi32 t0 t1 0xF0
  let v := g2 v b0
  let v := diagonalize v
  let t0 := mm256_alignr_epi8 m5 m4 8
  let t1 := mm256_unpackhi_epi64 m1 m3
  let b0 := mm256_blend_epi32 t0 t1 0xF0
  let v := g1 v b0
  let t0 := mm256_unpacklo_epi64 m2 m7
  let t1 := mm256_blend_epi32 m0 m3 0x33
  let b0 := mm256_blend_epi32 t0 t1 0xF0
  let v := g2 v b0
  undiagonalize v

/-- Round 4 of `compress_block`. blake2b/src/avx2.rs 237-255. -/
def round4 (m0 m1 m2 m3 m4 m5 m6 m7 : M256) (v : Rows) : Rows :=
  let t0 := mm256_unpackhi_epi64 m3 m1
  let t1 := mm256_unpackhi_epi64 m6 m5
  let b0 := mm256_blend_epi32 t0 t1 0xF0
  let v := g1 v b0
  let t0 := mm256_unpackhi_epi64 m4 m0
  let t1 := mm256_unpacklo_epi64 m6 m7
  let b0 := mm256_blend_epi32 t0 t1 0xF0
  let v := g2 v b0
  let v := diagonalize v
  let t0 := mm256_alignr_epi8 m1 m7 8
  let t1 := mm256_shuffle_epi32 m2 (MM_SHUFFLE 1 0 3 2)
  let b0 := mm256_blend_epi32 t0 t1 0xF0
  let v := g1 v b0
  let t0 := mm256_unpacklo_epi64 m4 m3
  let t1 := mm256_unpacklo_epi64 m5 m0
  let b0 := mm256_blend_epi32 t0 t1 0xF0
  let v := g2 v b0
  undiagonalize v

/-- Round 5 of `compress_block`. blake2b/src/avx2.rs 257-275. -/
def round5 (m0 m1 m2 m3 m4 m5 m6 m7 : M256) (v : Rows) : Rows :=
  let t0 := mm256_unpackhi_epi64 m4 m2
  let t1 := mm256_unpacklo_epi64 m1 m5
  let b0 := mm256_blend_epi32 t0 t1 0xF0
  let v := g1 v b0
  let t0 := mm256_blend_epi32 m3 m0 0x33
  let t1 := mm256_blend_epi32 m7 m2 0x33
  let b0 := mm256_blend_epi32 t0 t1 0xF0
  let v := g2 v b0
  let v := diagonalize v
  let t0 := mm256_alignr_epi8 m7 m1 8
  let t1 := mm256_alignr_epi8 m3 m5 8
  let b0 := mm256_blend_epi32 t0 t1 0xF0
  let v := g1 v b0
  let t0 := mm256_unpackhi_epi64 m6 m0
  let t1 := mm256_unpacklo_epi64 m6 m4
  let b0 := mm256_blend_epi32 t0 t1 0xF0
  let v := g2 v b0
  undiagonalize v

/-- Round 6 of `compress_block`. blake2b/src/avx2.rs 277-295. -/
def round6 (m0 m1 m2 m3 m4 m5 m6 m7 : M256) (v : Rows) : Rows :=
  let t0 := mm256_unpacklo_epi64 m1 m3
  let t1 := mm256_unpacklo_epi64 m0 m4
  let b0 := mm256_blend_epi32 t0 t1 0xF0
  let v := g1 v b0
  let t0 := mm256_unpacklo_epi64 m6 m5
  let t1 := mm256_unpackhi_epi64 m5 m1
  let b0 := mm256_blend_epi32 t0 t1 0xF0
  let v := g2 v b0
  let v := diagonalize v
  let t0 := mm256_alignr_epi8 m2 m0 8
  let t1 := mm256_unpackhi_epi64 m3 m7
  let b0 := mm256_blend_epi32 t0 t1 0xF0
  let v := g1 v b0
  let t0 := mm256_unpackhi_epi64 m4 m6
  let t1 := mm256_alignr_epi8 m7 m2 8
  let b0 := mm256_blend_epi32 t0 t1 0xF0
  let v := g2 v b0
  undiagonalize v

/-- Round 7 of `compress_block`. blake2b/src/avx2.rs 297-315. -/
def round7 (m0 m1 m2 m3 m4 m5 m6 m7 : M256) (v : Rows) : Rows :=
  let t0 := mm256_blend_epi32 m0 m6 0x33
  let t1 := mm256_unpacklo_epi64 m7 m2
  let b0 := mm256_blend_epi32 t0 t1 0xF0
  let v := g1 v b0
  let t0 := mm256_unpackhi_epi64 m2 m7
  let t1 := mm256_alignr_epi8 m5 m6 8
  let b0 := mm256_blend_epi32 t0 t1 0xF0
  let v := g2 v b0
  let v := diagonalize v
  let t0 := mm256_unpacklo_epi64 m4 m0
  let t1 := mm256_blend_epi32 m4 m3 0x33
  let b0 := mm256_blend_epi32 t0 t1 0xF0
  let v := g1 v b0
  let t0 := mm256_unpackhi_epi64 m5 m3
  let t1 := mm256_shuffle_epi32 m1 (MM_SHUFFLE 1 0 3 2)
  let b0 := mm256_blend_epi32 t0 t1 0xF0
  let v := g2 v b0
  undiagonalize v

/-- Round 8 of `compress_block`. blake2b/src/avx2.rs 317-335. -/
def round8 (m0 m1 m2 m3 m4 m5 m6 m7 : M256) (v : Rows) : Rows :=
  let t0 := mm256_unpackhi_epi64 m6 m3
  let t1 := mm256_blend_epi32 m1 m6 0x33
  let b0 := mm256_blend_epi32 t0 t1 0xF0
  let v := g1 v b0
  let t0 := mm256_alignr_epi8 m7 m5 8
  let t1 := mm256_unpackhi_epi64 m0 m4
  let b0 := mm256_blend_epi32 t0 t1 0xF0
  let v := g2 v b0
  let v := diagonalize v
  let t0 := mm256_blend_epi32 m2 m1 0x33
  let t1 := mm256_alignr_epi8 m4 m7 8
  let b0 := mm256_blend_epi32 t0 t1 0xF0
  let v := g1 v b0
  let t0 := mm256_unpacklo_epi64 m5 m0
  let t1 := mm256_unpacklo_epi64 m2 m3
  let b0 := mm256_blend_epi32 t0 t1 0xF0
  let v := g2 v b0
  undiagonalize v

/-- Round 9 of `compress_block`. blake2b/src/avx2.rs 337-355. -/
def round9 (m0 m1 m2 m3 m4 m5 m6 m7 : M256) (v : Rows) : Rows :=
  let t0 := mm256_unpacklo_epi64 m3 m7
  let t1 := mm256_alignr_epi8 m0 m5 8
  let b0 := mm256_blend_epi32 t0 t1 0xF0
  let v := g1 v b0
  let t0 := mm256_unpackhi_epi64 m7 m4
  let t1 := mm256_alignr_epi8 m4 m1 8
  let b0 := mm256_blend_epi32 t0 t1 0xF0
  let v := g2 v b0
  let v := diagonalize v
  let t0 := mm256_unpacklo_epi64 m5 m6
  let t1 := mm256_unpackhi_epi64 m6 m0
  let b0 := mm256_blend_epi32 t0 t1 0xF0
  let v := g1 v b0
  let t0 := mm256_alignr_epi8 m1 m2 8
  let t1 := mm256_alignr_epi8 m2 m3 8
  let b0 := mm256_blend_epi32 t0 t1 0xF0
  let v := g2 v b0
  undiagonalize v

/-- Round 10 of `compress_block`. blake2b/src/avx2.rs 357-375. -/
def round10 (m0 m1 m2 m3 m4 m5 m6 m7 : M256) (v : Rows) : Rows :=
  let t0 := mm256_unpacklo_epi64 m5 m4
  let t1 := mm256_unpackhi_epi64 m3 m0
  let b0 := mm256_blend_epi32 t0 t1 0xF0
  let v := g1 v b0
  let t0 := mm256_unpacklo_epi64 m1 m2
  let t1 := mm256_blend_epi32 m2 m3 0x33
  let b0 := mm256_blend_epi32 t0 t1 0xF0
  let v := g2 v b0
  let v := diagonalize v
  let t0 := mm256_unpackhi_epi64 m6 m7
  let t1 := mm256_unpackhi_epi64 m4 m1
  let b0 := mm256_blend_epi32 t0 t1 0xF0
  let v := g1 v b0
  let t0 := mm256_blend_epi32 m5 m0 0x33
  let t1 := mm256_unpacklo_epi64 m7 m6
  let b0 := mm256_blend_epi32 t0 t1 0xF0
  let v := g2 v b0
  undiagonalize v

/-- Round 11 of `compress_block`. blake2b/src/avx2.rs 377-395. -/
def round11 (m0 m1 m2 m3 m4 m5 m6 m7 : M256) (v : Rows) : Rows :=
  let t0 := mm256_unpacklo_epi64 m0 m1
  let t1 := mm256_unpacklo_epi64 m2 m3
  let b0 := mm256_blend_epi32 t0 t1 0xF0
  let v := g1 v b0
  let t0 := mm256_unpackhi_epi64 m0 m1
  let t1 := mm256_unpackhi_epi64 m2 m3
  let b0 := mm256_blend_epi32 t0 t1 0xF0
  let v := g2 v b0
  let v := diagonalize v
  let t0 := mm256_unpacklo_epi64 m7 m4
  let t1 := mm256_unpacklo_epi64 m5 m6
  let b0 := mm256_blend_epi32 t0 t1 0xF0
  let v := g1 v b0
  let t0 := mm256_unpackhi_epi64 m7 m4
  let t1 := mm256_unpackhi_epi64 m5 m6
  let b0 := mm256_blend_epi32 t0 t1 0xF0
  let v := g2 v b0
  undiagonalize v

/-- Round 12 of `compress_block`. blake2b/src/avx2.rs 397-415. -/
def round12 (m0 m1 m2 m3 m4 m5 m6 m7 : M256) (v : Rows) : Rows :=
  let t0 := mm256_unpacklo_epi64 m7 m2
  let t1 := mm256_unpackhi_epi64 m4 m6
  let b0 := mm256_blend_epi32 t0 t1 0xF0
  let v := g1 v b0
  let t0 := mm256_unpacklo_epi64 m5 m4
  let t1 := mm256_alignr_epi8 m3 m7 8
  let b0 := mm256_blend_epi32 t0 t1 0xF0
  let v := g2 v b0
  let v := diagonalize v
  let t0 := mm256_unpackhi_epi64 m2 m0
  let t1 := mm256_blend_epi32 m5 m0 0x33
  let b0 := mm256_blend_epi32 t0 t1 0xF0
  let v := g1 v b0
  let t0 := mm256_alignr_epi8 m6 m1 8
  let t1 := mm256_blend_epi32 m3 m1 0x33
  let b0 := mm256_blend_epi32 t0 t1 0xF0
  let v := g2 v b0
  undiagonalize v

/-- Message chunk `k`, broadcast to both halves: `_mm256_broadcastsi128_si256(loadu_128(msg_chunks.k))`.
blake2b/src/avx2.rs 29-32, 161-169. -/
def msgChunk (block : List Byte) (k : Nat) : M256 :=
  mm256_broadcastsi128_si256 (mm_loadu_si128 ((block.drop (16 * k)).take 16))

/-- The twelve rounds of `compress_block`. blake2b/src/avx2.rs 177-413. -/
def rounds (m0 m1 m2 m3 m4 m5 m6 m7 : M256) (v : Rows) : Rows :=
  let v := round1 m0 m1 m2 m3 m4 m5 m6 m7 v
  let v := round2 m0 m1 m2 m3 m4 m5 m6 m7 v
  let v := round3 m0 m1 m2 m3 m4 m5 m6 m7 v
  let v := round4 m0 m1 m2 m3 m4 m5 m6 m7 v
  let v := round5 m0 m1 m2 m3 m4 m5 m6 m7 v
  let v := round6 m0 m1 m2 m3 m4 m5 m6 m7 v
  let v := round7 m0 m1 m2 m3 m4 m5 m6 m7 v
  let v := round8 m0 m1 m2 m3 m4 m5 m6 m7 v
  let v := round9 m0 m1 m2 m3 m4 m5 m6 m7 v
  let v := round10 m0 m1 m2 m3 m4 m5 m6 m7 v
  let v := round11 m0 m1 m2 m3 m4 m5 m6 m7 v
  round12 m0 m1 m2 m3 m4 m5 m6 m7 v

/-- `compress_block`. blake2b/src/avx2.rs 146-424. -/
def compressBlock : CompressBlock .b := fun block words count lastBlock lastNode =>
  let a := loadu #v[words[0], words[1], words[2], words[3]]
  let b := loadu #v[words[4], words[5], words[6], words[7]]
  let c := loadu #v[(IV .b)[0], (IV .b)[1], (IV .b)[2], (IV .b)[3]]
  let flags := setN #v[countLow .b count, countHigh .b count, lastBlock, lastNode]
  let d := xor (loadu #v[(IV .b)[4], (IV .b)[5], (IV .b)[6], (IV .b)[7]]) flags
  let iv0 := a
  let iv1 := b
  let v := rounds (msgChunk block 0) (msgChunk block 1) (msgChunk block 2) (msgChunk block 3)
    (msgChunk block 4) (msgChunk block 5) (msgChunk block 6) (msgChunk block 7) ⟨a, b, c, d⟩
  let a := xor v.a v.c
  let b := xor v.b v.d
  let a := xor a iv0
  let b := xor b iv1
  storeu a ++ storeu b

/-- `avx2::compress1_loop`. blake2b/src/avx2.rs 427-478. -/
def compress1Loop := Blake2.compress1Loop .b compressBlock rawRef

/-- `avx2::compress4_loop`. blake2b/src/avx2.rs 831-929. -/
def compress4Loop := NWay.compressLoop impl

end Blake2.BAvx2
