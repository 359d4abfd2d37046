import Verif.Model.SnevesIntrinsics
import Verif.Model.SnevesRound
import Verif.Model.SSse41
/-!
# Model of benches/blake2-avx2-sneves/blake2-avx2/blake2sp.c

The function `blake2s` (lines 174-201) is commented out there.
-/
namespace Blake2.SnevesSp
open X86 Sneves
open SSse41 (Rows)
set_option linter.unusedVariables false

/-- `blake2s_IV`. benches/blake2-avx2-sneves/blake2-avx2/blake2sp.c 13-18. -/
def blake2s_IV : Vector (BitVec 32) 8 :=
  #v[0x6A09E667, 0xBB67AE85, 0x3C6EF372, 0xA54FF53A, 0x510E527F, 0x9B05688C, 0x1F83D9AB, 0x5BE0CD19]
/-- `LOAD128(&blake2s_IV[0])`. benches/blake2-avx2-sneves/blake2-avx2/blake2sp.c 162, 206. -/
def loadIV0 : M128 := ofLanes 32 128 [blake2s_IV[0], blake2s_IV[1], blake2s_IV[2], blake2s_IV[3]]
/-- `LOAD128(&blake2s_IV[4])`. benches/blake2-avx2-sneves/blake2-avx2/blake2sp.c 164, 207. -/
def loadIV4 : M128 := ofLanes 32 128 [blake2s_IV[4], blake2s_IV[5], blake2s_IV[6], blake2s_IV[7]]

/-- `ROTATE8128`. benches/blake2-avx2-sneves/blake2-avx2/blake2s-common.h 27. -/
def rotate8128 : M128 := mm_set_epi8 [12, 15, 14, 13, 8, 11, 10, 9, 4, 7, 6, 5, 0, 3, 2, 1]
/-- `ROTATE16128`. benches/blake2-avx2-sneves/blake2-avx2/blake2s-common.h 29. -/
def rotate16128 : M128 := mm_set_epi8 [13, 12, 15, 14, 9, 8, 11, 10, 5, 4, 7, 6, 1, 0, 3, 2]
/-- `ADD128`. benches/blake2-avx2-sneves/blake2-avx2/blake2s-common.h 32. -/
def add128 (a b : M128) : M128 := mm_add_epi32 a b
/-- `XOR128`. benches/blake2-avx2-sneves/blake2-avx2/blake2s-common.h 35. -/
def xor128 (a b : M128) : M128 := mm_xor_si128 a b
/-- `OR128`. benches/blake2-avx2-sneves/blake2-avx2/blake2s-common.h 37. -/
def or128 (a b : M128) : M128 := mm_or_si128 a b
/-- `ROT16128`. benches/blake2-avx2-sneves/blake2-avx2/blake2s-common.h 39. -/
def rot16128 (x : M128) : M128 := mm_shuffle_epi8 x rotate16128
/-- `ROT12128`. benches/blake2-avx2-sneves/blake2-avx2/blake2s-common.h 40. -/
def rot12128 (x : M128) : M128 := or128 (mm_srli_epi32 x 12) (mm_slli_epi32 x 20)
/-- `ROT8128`. benches/blake2-avx2-sneves/blake2-avx2/blake2s-common.h 41. -/
def rot8128 (x : M128) : M128 := mm_shuffle_epi8 x rotate8128
/-- `ROT7128`. benches/blake2-avx2-sneves/blake2-avx2/blake2s-common.h 42. -/
def rot7128 (x : M128) : M128 := or128 (mm_srli_epi32 x 7) (mm_slli_epi32 x 25)
/-- `ROTATE8`. benches/blake2-avx2-sneves/blake2-avx2/blake2s-common.h 50-51. -/
def rotate8 : M256 := mm256_set_epi8 [12, 15, 14, 13, 8, 11, 10, 9, 4, 7, 6, 5, 0, 3, 2, 1,
  12, 15, 14, 13, 8, 11, 10, 9, 4, 7, 6, 5, 0, 3, 2, 1]
/-- `ROTATE16`. benches/blake2-avx2-sneves/blake2-avx2/blake2s-common.h 53-54. -/
def rotate16 : M256 := mm256_set_epi8 [13, 12, 15, 14, 9, 8, 11, 10, 5, 4, 7, 6, 1, 0, 3, 2,
  13, 12, 15, 14, 9, 8, 11, 10, 5, 4, 7, 6, 1, 0, 3, 2]
/-- `ADD`. benches/blake2-avx2-sneves/blake2-avx2/blake2s-common.h 56. -/
def add (a b : M256) : M256 := mm256_add_epi32 a b
/-- `XOR`. benches/blake2-avx2-sneves/blake2-avx2/blake2s-common.h 59. -/
def xor (a b : M256) : M256 := mm256_xor_si256 a b
/-- `AND`. benches/blake2-avx2-sneves/blake2-avx2/blake2s-common.h 60. -/
def and (a b : M256) : M256 := mm256_and_si256 a b
/-- `ROT16`. benches/blake2-avx2-sneves/blake2-avx2/blake2s-common.h 63. -/
def rot16 (x : M256) : M256 := mm256_shuffle_epi8 x rotate16
/-- `ROT12`. benches/blake2-avx2-sneves/blake2-avx2/blake2s-common.h 64. -/
def rot12 (x : M256) : M256 := mm256_or_si256 (mm256_srli_epi32 x 12) (mm256_slli_epi32 x 20)
/-- `ROT8`. benches/blake2-avx2-sneves/blake2-avx2/blake2s-common.h 65. -/
def rot8 (x : M256) : M256 := mm256_shuffle_epi8 x rotate8
/-- `ROT7`. benches/blake2-avx2-sneves/blake2-avx2/blake2s-common.h 66. -/
def rot7 (x : M256) : M256 := mm256_or_si256 (mm256_srli_epi32 x 7) (mm256_slli_epi32 x 25)

/-- `BLAKE2S_G1_V1`. benches/blake2-avx2-sneves/blake2-avx2/blake2sp.c 33-37. -/
def g1 (v : Rows) (m : M128) : Rows :=
  let a := add128 v.row1 m
  let a := add128 a v.row2
  let d := xor128 v.row4 a
  let d := rot16128 d
  let c := add128 v.row3 d
  let b := xor128 v.row2 c
  let b := rot12128 b
  ⟨a, b, c, d⟩
/-- `BLAKE2S_G2_V1`. benches/blake2-avx2-sneves/blake2-avx2/blake2sp.c 39-43. -/
def g2 (v : Rows) (m : M128) : Rows :=
  let a := add128 v.row1 m
  let a := add128 a v.row2
  let d := xor128 v.row4 a
  let d := rot8128 d
  let c := add128 v.row3 d
  let b := xor128 v.row2 c
  let b := rot7128 b
  ⟨a, b, c, d⟩
/-- `BLAKE2S_DIAG_V1`. benches/blake2-avx2-sneves/blake2-avx2/blake2sp.c 45-49. -/
def diag (v : Rows) : Rows :=
  let d := mm_shuffle_epi32 v.row4 (MM_SHUFFLE 2 1 0 3)
  let c := mm_shuffle_epi32 v.row3 (MM_SHUFFLE 1 0 3 2)
  let b := mm_shuffle_epi32 v.row2 (MM_SHUFFLE 0 3 2 1)
  ⟨v.row1, b, c, d⟩
/-- `BLAKE2S_UNDIAG_V1`. benches/blake2-avx2-sneves/blake2-avx2/blake2sp.c 51-55. -/
def undiag (v : Rows) : Rows :=
  let d := mm_shuffle_epi32 v.row4 (MM_SHUFFLE 0 3 2 1)
  let c := mm_shuffle_epi32 v.row3 (MM_SHUFFLE 1 0 3 2)
  let b := mm_shuffle_epi32 v.row2 (MM_SHUFFLE 2 1 0 3)
  ⟨v.row1, b, c, d⟩

/-- `BLAKE2S_LOAD_MSG_0_1`. benches/blake2-avx2-sneves/blake2-avx2/blake2s-load-sse41.h 4-5. -/
def loadMsg_0_1 (m0 m1 m2 m3 : M128) : M128 :=
  mm_castps_si128 (mm_shuffle_ps (mm_castsi128_ps m0) (mm_castsi128_ps m1) (MM_SHUFFLE 2 0 2 0))

/-- `BLAKE2S_LOAD_MSG_0_2`. benches/blake2-avx2-sneves/blake2-avx2/blake2s-load-sse41.h 7-8. -/
def loadMsg_0_2 (m0 m1 m2 m3 : M128) : M128 :=
  mm_castps_si128 (mm_shuffle_ps (mm_castsi128_ps m0) (mm_castsi128_ps m1) (MM_SHUFFLE 3 1 3 1))

/-- `BLAKE2S_LOAD_MSG_0_3`. benches/blake2-avx2-sneves/blake2-avx2/blake2s-load-sse41.h 10-11. -/
def loadMsg_0_3 (m0 m1 m2 m3 : M128) : M128 :=
  mm_castps_si128 (mm_shuffle_ps (mm_castsi128_ps m2) (mm_castsi128_ps m3) (MM_SHUFFLE 2 0 2 0))

/-- `BLAKE2S_LOAD_MSG_0_4`. benches/blake2-avx2-sneves/blake2-avx2/blake2s-load-sse41.h 13-14. -/
def loadMsg_0_4 (m0 m1 m2 m3 : M128) : M128 :=
  mm_castps_si128 (mm_shuffle_ps (mm_castsi128_ps m2) (mm_castsi128_ps m3) (MM_SHUFFLE 3 1 3 1))

/-- `BLAKE2S_LOAD_MSG_1_1`. benches/blake2-avx2-sneves/blake2-avx2/blake2s-load-sse41.h 16-20. -/
def loadMsg_1_1 (m0 m1 m2 m3 : M128) : M128 :=
  let t0 := mm_blend_epi16 m1 m2 0x0C
  let t1 := mm_slli_si128 m3 4
  let t2 := mm_blend_epi16 t0 t1 0xF0
  mm_shuffle_epi32 t2 (MM_SHUFFLE 2 1 0 3)

/-- `BLAKE2S_LOAD_MSG_1_2`. benches/blake2-avx2-sneves/blake2-avx2/blake2s-load-sse41.h 22-26. -/
def loadMsg_1_2 (m0 m1 m2 m3 : M128) : M128 :=
  let t0 := mm_shuffle_epi32 m2 (MM_SHUFFLE 0 0 2 0)
  let t1 := mm_blend_epi16 m1 m3 0xC0
  let t2 := mm_blend_epi16 t0 t1 0xF0
  mm_shuffle_epi32 t2 (MM_SHUFFLE 2 3 0 1)

/-- `BLAKE2S_LOAD_MSG_1_3`. benches/blake2-avx2-sneves/blake2-avx2/blake2s-load-sse41.h 28-32. -/
def loadMsg_1_3 (m0 m1 m2 m3 : M128) : M128 :=
  let t0 := mm_slli_si128 m1 4
  let t1 := mm_blend_epi16 m2 t0 0x30
  let t2 := mm_blend_epi16 m0 t1 0xF0
  mm_shuffle_epi32 t2 (MM_SHUFFLE 2 3 0 1)

/-- `BLAKE2S_LOAD_MSG_1_4`. benches/blake2-avx2-sneves/blake2-avx2/blake2s-load-sse41.h 34-38. -/
def loadMsg_1_4 (m0 m1 m2 m3 : M128) : M128 :=
  let t0 := mm_unpackhi_epi32 m0 m1
  let t1 := mm_slli_si128 m3 4
  let t2 := mm_blend_epi16 t0 t1 0x0C
  mm_shuffle_epi32 t2 (MM_SHUFFLE 2 3 0 1)

/-- `BLAKE2S_LOAD_MSG_2_1`. benches/blake2-avx2-sneves/blake2-avx2/blake2s-load-sse41.h 40-44. -/
def loadMsg_2_1 (m0 m1 m2 m3 : M128) : M128 :=
  let t0 := mm_unpackhi_epi32 m2 m3
  let t1 := mm_blend_epi16 m3 m1 0x0C
  let t2 := mm_blend_epi16 t0 t1 0x0F
  mm_shuffle_epi32 t2 (MM_SHUFFLE 3 1 0 2)

/-- `BLAKE2S_LOAD_MSG_2_2`. benches/blake2-avx2-sneves/blake2-avx2/blake2s-load-sse41.h 46-50. -/
def loadMsg_2_2 (m0 m1 m2 m3 : M128) : M128 :=
  let t0 := mm_unpacklo_epi32 m2 m0
  let t1 := mm_blend_epi16 t0 m0 0xF0
  let t2 := mm_slli_si128 m3 8
  mm_blend_epi16 t1 t2 0xC0

/-- `BLAKE2S_LOAD_MSG_2_3`. benches/blake2-avx2-sneves/blake2-avx2/blake2s-load-sse41.h 52-56. -/
def loadMsg_2_3 (m0 m1 m2 m3 : M128) : M128 :=
  let t0 := mm_blend_epi16 m0 m2 0x3C
  let t1 := mm_srli_si128 m1 12
  let t2 := mm_blend_epi16 t0 t1 0x03
  mm_shuffle_epi32 t2 (MM_SHUFFLE 1 0 3 2)

/-- `BLAKE2S_LOAD_MSG_2_4`. benches/blake2-avx2-sneves/blake2-avx2/blake2s-load-sse41.h 58-62. -/
def loadMsg_2_4 (m0 m1 m2 m3 : M128) : M128 :=
  let t0 := mm_slli_si128 m3 4
  let t1 := mm_blend_epi16 m0 m1 0x33
  let t2 := mm_blend_epi16 t1 t0 0xC0
  mm_shuffle_epi32 t2 (MM_SHUFFLE 0 1 2 3)

/-- `BLAKE2S_LOAD_MSG_3_1`. benches/blake2-avx2-sneves/blake2-avx2/blake2s-load-sse41.h 64-68. -/
def loadMsg_3_1 (m0 m1 m2 m3 : M128) : M128 :=
  let t0 := mm_unpackhi_epi32 m0 m1
  let t1 := mm_unpackhi_epi32 t0 m2
  let t2 := mm_blend_epi16 t1 m3 0x0C
  mm_shuffle_epi32 t2 (MM_SHUFFLE 3 1 0 2)

/-- `BLAKE2S_LOAD_MSG_3_2`. benches/blake2-avx2-sneves/blake2-avx2/blake2s-load-sse41.h 70-74. -/
def loadMsg_3_2 (m0 m1 m2 m3 : M128) : M128 :=
  let t0 := mm_slli_si128 m2 8
  let t1 := mm_blend_epi16 m3 m0 0x0C
  let t2 := mm_blend_epi16 t1 t0 0xC0
  mm_shuffle_epi32 t2 (MM_SHUFFLE 2 0 1 3)

/-- `BLAKE2S_LOAD_MSG_3_3`. benches/blake2-avx2-sneves/blake2-avx2/blake2s-load-sse41.h 76-79. -/
def loadMsg_3_3 (m0 m1 m2 m3 : M128) : M128 :=
  let t0 := mm_blend_epi16 m0 m1 0x0F
  let t1 := mm_blend_epi16 t0 m3 0xC0
  mm_shuffle_epi32 t1 (MM_SHUFFLE 3 0 1 2)

/-- `BLAKE2S_LOAD_MSG_3_4`. benches/blake2-avx2-sneves/blake2-avx2/blake2s-load-sse41.h 81-84. -/
def loadMsg_3_4 (m0 m1 m2 m3 : M128) : M128 :=
  let t0 := mm_unpacklo_epi32 m0 m2
  let t1 := mm_unpackhi_epi32 m1 m2
  mm_unpacklo_epi64 t1 t0

/-- `BLAKE2S_LOAD_MSG_4_1`. benches/blake2-avx2-sneves/blake2-avx2/blake2s-load-sse41.h 86-90. -/
def loadMsg_4_1 (m0 m1 m2 m3 : M128) : M128 :=
  let t0 := mm_unpacklo_epi64 m1 m2
  let t1 := mm_unpackhi_epi64 m0 m2
  let t2 := mm_blend_epi16 t0 t1 0x33
  mm_shuffle_epi32 t2 (MM_SHUFFLE 2 0 1 3)

/-- `BLAKE2S_LOAD_MSG_4_2`. benches/blake2-avx2-sneves/blake2-avx2/blake2s-load-sse41.h 92-95. -/
def loadMsg_4_2 (m0 m1 m2 m3 : M128) : M128 :=
  let t0 := mm_unpackhi_epi64 m1 m3
  let t1 := mm_unpacklo_epi64 m0 m1
  mm_blend_epi16 t0 t1 0x33

/-- `BLAKE2S_LOAD_MSG_4_3`. benches/blake2-avx2-sneves/blake2-avx2/blake2s-load-sse41.h 97-100. -/
def loadMsg_4_3 (m0 m1 m2 m3 : M128) : M128 :=
  let t0 := mm_unpackhi_epi64 m3 m1
  let t1 := mm_unpackhi_epi64 m2 m0
  mm_blend_epi16 t1 t0 0x33

/-- `BLAKE2S_LOAD_MSG_4_4`. benches/blake2-avx2-sneves/blake2-avx2/blake2s-load-sse41.h 102-106. -/
def loadMsg_4_4 (m0 m1 m2 m3 : M128) : M128 :=
  let t0 := mm_blend_epi16 m0 m2 0x03
  let t1 := mm_slli_si128 t0 8
  let t2 := mm_blend_epi16 t1 m3 0x0F
  mm_shuffle_epi32 t2 (MM_SHUFFLE 1 2 0 3)

/-- `BLAKE2S_LOAD_MSG_5_1`. benches/blake2-avx2-sneves/blake2-avx2/blake2s-load-sse41.h 108-111. -/
def loadMsg_5_1 (m0 m1 m2 m3 : M128) : M128 :=
  let t0 := mm_unpackhi_epi32 m0 m1
  let t1 := mm_unpacklo_epi32 m0 m2
  mm_unpacklo_epi64 t0 t1

/-- `BLAKE2S_LOAD_MSG_5_2`. benches/blake2-avx2-sneves/blake2-avx2/blake2s-load-sse41.h 113-116. -/
def loadMsg_5_2 (m0 m1 m2 m3 : M128) : M128 :=
  let t0 := mm_srli_si128 m2 4
  let t1 := mm_blend_epi16 m0 m3 0x03
  mm_blend_epi16 t1 t0 0x3C

/-- `BLAKE2S_LOAD_MSG_5_3`. benches/blake2-avx2-sneves/blake2-avx2/blake2s-load-sse41.h 118-122. -/
def loadMsg_5_3 (m0 m1 m2 m3 : M128) : M128 :=
  let t0 := mm_blend_epi16 m1 m0 0x0C
  let t1 := mm_srli_si128 m3 4
  let t2 := mm_blend_epi16 t0 t1 0x30
  mm_shuffle_epi32 t2 (MM_SHUFFLE 1 2 3 0)

/-- `BLAKE2S_LOAD_MSG_5_4`. benches/blake2-avx2-sneves/blake2-avx2/blake2s-load-sse41.h 124-127. -/
def loadMsg_5_4 (m0 m1 m2 m3 : M128) : M128 :=
  let t0 := mm_unpacklo_epi64 m1 m2
  let t1 := mm_shuffle_epi32 m3 (MM_SHUFFLE 0 2 0 1)
  mm_blend_epi16 t0 t1 0x33

/-- `BLAKE2S_LOAD_MSG_6_1`. benches/blake2-avx2-sneves/blake2-avx2/blake2s-load-sse41.h 129-132. -/
def loadMsg_6_1 (m0 m1 m2 m3 : M128) : M128 :=
  let t0 := mm_slli_si128 m1 12
  let t1 := mm_blend_epi16 m0 m3 0x33
  mm_blend_epi16 t1 t0 0xC0

/-- `BLAKE2S_LOAD_MSG_6_2`. benches/blake2-avx2-sneves/blake2-avx2/blake2s-load-sse41.h 134-138. -/
def loadMsg_6_2 (m0 m1 m2 m3 : M128) : M128 :=
  let t0 := mm_blend_epi16 m3 m2 0x30
  let t1 := mm_srli_si128 m1 4
  let t2 := mm_blend_epi16 t0 t1 0x03
  mm_shuffle_epi32 t2 (MM_SHUFFLE 2 1 3 0)

/-- `BLAKE2S_LOAD_MSG_6_3`. benches/blake2-avx2-sneves/blake2-avx2/blake2s-load-sse41.h 140-143. -/
def loadMsg_6_3 (m0 m1 m2 m3 : M128) : M128 :=
  let t0 := mm_unpacklo_epi64 m0 m2
  let t1 := mm_srli_si128 m1 4
  mm_shuffle_epi32 (mm_blend_epi16 t0 t1 0x0C) (MM_SHUFFLE 2 3 1 0)

/-- `BLAKE2S_LOAD_MSG_6_4`. benches/blake2-avx2-sneves/blake2-avx2/blake2s-load-sse41.h 145-148. -/
def loadMsg_6_4 (m0 m1 m2 m3 : M128) : M128 :=
  let t0 := mm_unpackhi_epi32 m1 m2
  let t1 := mm_unpackhi_epi64 m0 t0
  mm_shuffle_epi32 t1 (MM_SHUFFLE 3 0 1 2)

/-- `BLAKE2S_LOAD_MSG_7_1`. benches/blake2-avx2-sneves/blake2-avx2/blake2s-load-sse41.h 150-153. -/
def loadMsg_7_1 (m0 m1 m2 m3 : M128) : M128 :=
  let t0 := mm_unpackhi_epi32 m0 m1
  let t1 := mm_blend_epi16 t0 m3 0x0F
  mm_shuffle_epi32 t1 (MM_SHUFFLE 2 0 3 1)

/-- `BLAKE2S_LOAD_MSG_7_2`. benches/blake2-avx2-sneves/blake2-avx2/blake2s-load-sse41.h 155-159. -/
def loadMsg_7_2 (m0 m1 m2 m3 : M128) : M128 :=
  let t0 := mm_blend_epi16 m2 m3 0x30
  let t1 := mm_srli_si128 m0 4
  let t2 := mm_blend_epi16 t0 t1 0x03
  mm_shuffle_epi32 t2 (MM_SHUFFLE 1 0 2 3)

/-- `BLAKE2S_LOAD_MSG_7_3`. benches/blake2-avx2-sneves/blake2-avx2/blake2s-load-sse41.h 161-165. -/
def loadMsg_7_3 (m0 m1 m2 m3 : M128) : M128 :=
  let t0 := mm_unpackhi_epi64 m0 m3
  let t1 := mm_unpacklo_epi64 m1 m2
  let t2 := mm_blend_epi16 t0 t1 0x3C
  mm_shuffle_epi32 t2 (MM_SHUFFLE 0 2 3 1)

/-- `BLAKE2S_LOAD_MSG_7_4`. benches/blake2-avx2-sneves/blake2-avx2/blake2s-load-sse41.h 167-170. -/
def loadMsg_7_4 (m0 m1 m2 m3 : M128) : M128 :=
  let t0 := mm_unpacklo_epi32 m0 m1
  let t1 := mm_unpackhi_epi32 m1 m2
  mm_unpacklo_epi64 t0 t1

/-- `BLAKE2S_LOAD_MSG_8_1`. benches/blake2-avx2-sneves/blake2-avx2/blake2s-load-sse41.h 172-176. -/
def loadMsg_8_1 (m0 m1 m2 m3 : M128) : M128 :=
  let t0 := mm_unpackhi_epi32 m1 m3
  let t1 := mm_unpacklo_epi64 t0 m0
  let t2 := mm_blend_epi16 t1 m2 0xC0
  mm_shufflehi_epi16 t2 (MM_SHUFFLE 1 0 3 2)

/-- `BLAKE2S_LOAD_MSG_8_2`. benches/blake2-avx2-sneves/blake2-avx2/blake2s-load-sse41.h 178-181. -/
def loadMsg_8_2 (m0 m1 m2 m3 : M128) : M128 :=
  let t0 := mm_unpackhi_epi32 m0 m3
  let t1 := mm_blend_epi16 m2 t0 0xF0
  mm_shuffle_epi32 t1 (MM_SHUFFLE 0 2 1 3)

/-- `BLAKE2S_LOAD_MSG_8_3`. benches/blake2-avx2-sneves/blake2-avx2/blake2s-load-sse41.h 183-186. -/
def loadMsg_8_3 (m0 m1 m2 m3 : M128) : M128 :=
  let t0 := mm_blend_epi16 m2 m0 0x0C
  let t1 := mm_slli_si128 t0 4
  mm_blend_epi16 t1 m3 0x0F

/-- `BLAKE2S_LOAD_MSG_8_4`. benches/blake2-avx2-sneves/blake2-avx2/blake2s-load-sse41.h 188-190. -/
def loadMsg_8_4 (m0 m1 m2 m3 : M128) : M128 :=
  let t0 := mm_blend_epi16 m1 m0 0x30
  mm_shuffle_epi32 t0 (MM_SHUFFLE 1 0 3 2)

/-- `BLAKE2S_LOAD_MSG_9_1`. benches/blake2-avx2-sneves/blake2-avx2/blake2s-load-sse41.h 192-196. -/
def loadMsg_9_1 (m0 m1 m2 m3 : M128) : M128 :=
  let t0 := mm_blend_epi16 m0 m2 0x03
  let t1 := mm_blend_epi16 m1 m2 0x30
  let t2 := mm_blend_epi16 t1 t0 0x0F
  mm_shuffle_epi32 t2 (MM_SHUFFLE 1 3 0 2)

/-- `BLAKE2S_LOAD_MSG_9_2`. benches/blake2-avx2-sneves/blake2-avx2/blake2s-load-sse41.h 198-201. -/
def loadMsg_9_2 (m0 m1 m2 m3 : M128) : M128 :=
  let t0 := mm_slli_si128 m0 4
  let t1 := mm_blend_epi16 m1 t0 0xC0
  mm_shuffle_epi32 t1 (MM_SHUFFLE 1 2 0 3)

/-- `BLAKE2S_LOAD_MSG_9_3`. benches/blake2-avx2-sneves/blake2-avx2/blake2s-load-sse41.h 203-207. -/
def loadMsg_9_3 (m0 m1 m2 m3 : M128) : M128 :=
  let t0 := mm_unpackhi_epi32 m0 m3
  let t1 := mm_unpacklo_epi32 m2 m3
  let t2 := mm_unpackhi_epi64 t0 t1
  mm_shuffle_epi32 t2 (MM_SHUFFLE 3 0 2 1)

/-- `BLAKE2S_LOAD_MSG_9_4`. benches/blake2-avx2-sneves/blake2-avx2/blake2s-load-sse41.h 209-213. -/
def loadMsg_9_4 (m0 m1 m2 m3 : M128) : M128 :=
  let t0 := mm_blend_epi16 m3 m2 0xC0
  let t1 := mm_unpacklo_epi32 m0 m3
  let t2 := mm_blend_epi16 t0 t1 0x0F
  mm_shuffle_epi32 t2 (MM_SHUFFLE 0 1 2 3)

/-- `BLAKE2S_ROUND_V1`, with the four message vectors it loads as arguments. benches/blake2-avx2-sneves/blake2-avx2/blake2sp.c 101-113. -/
def roundV1 (b1 b2 b3 b4 : M128) (v : Rows) : Rows :=
  let v := g1 v b1
  let v := g2 v b2
  let v := diag v
  let v := g1 v b3
  let v := g2 v b4
  undiag v
/-- `BLAKE2S_ROUNDS_V1`. benches/blake2-avx2-sneves/blake2-avx2/blake2sp.c 115-126. -/
def roundsV1 (m0 m1 m2 m3 : M128) (v : Rows) : Rows :=
  let v := roundV1 (loadMsg_0_1 m0 m1 m2 m3) (loadMsg_0_2 m0 m1 m2 m3) (loadMsg_0_3 m0 m1 m2 m3) (loadMsg_0_4 m0 m1 m2 m3) v
  let v := roundV1 (loadMsg_1_1 m0 m1 m2 m3) (loadMsg_1_2 m0 m1 m2 m3) (loadMsg_1_3 m0 m1 m2 m3) (loadMsg_1_4 m0 m1 m2 m3) v
  let v := roundV1 (loadMsg_2_1 m0 m1 m2 m3) (loadMsg_2_2 m0 m1 m2 m3) (loadMsg_2_3 m0 m1 m2 m3) (loadMsg_2_4 m0 m1 m2 m3) v
  let v := roundV1 (loadMsg_3_1 m0 m1 m2 m3) (loadMsg_3_2 m0 m1 m2 m3) (loadMsg_3_3 m0 m1 m2 m3) (loadMsg_3_4 m0 m1 m2 m3) v
  let v := roundV1 (loadMsg_4_1 m0 m1 m2 m3) (loadMsg_4_2 m0 m1 m2 m3) (loadMsg_4_3 m0 m1 m2 m3) (loadMsg_4_4 m0 m1 m2 m3) v
  let v := roundV1 (loadMsg_5_1 m0 m1 m2 m3) (loadMsg_5_2 m0 m1 m2 m3) (loadMsg_5_3 m0 m1 m2 m3) (loadMsg_5_4 m0 m1 m2 m3) v
  let v := roundV1 (loadMsg_6_1 m0 m1 m2 m3) (loadMsg_6_2 m0 m1 m2 m3) (loadMsg_6_3 m0 m1 m2 m3) (loadMsg_6_4 m0 m1 m2 m3) v
  let v := roundV1 (loadMsg_7_1 m0 m1 m2 m3) (loadMsg_7_2 m0 m1 m2 m3) (loadMsg_7_3 m0 m1 m2 m3) (loadMsg_7_4 m0 m1 m2 m3) v
  let v := roundV1 (loadMsg_8_1 m0 m1 m2 m3) (loadMsg_8_2 m0 m1 m2 m3) (loadMsg_8_3 m0 m1 m2 m3) (loadMsg_8_4 m0 m1 m2 m3) v
  roundV1 (loadMsg_9_1 m0 m1 m2 m3) (loadMsg_9_2 m0 m1 m2 m3) (loadMsg_9_3 m0 m1 m2 m3) (loadMsg_9_4 m0 m1 m2 m3) v

/-- `indices`. benches/blake2-avx2-sneves/blake2-avx2/blake2sp.c 65-78. -/
def indices : Vector (Vector (BitVec 32) 16) 12 :=
  #v[#v[0, 2, 4, 6, 1, 3, 5, 7, 8, 10, 12, 14, 9, 11, 13, 15],
    #v[14, 4, 9, 13, 10, 8, 15, 6, 1, 0, 11, 5, 12, 2, 7, 3],
    #v[11, 12, 5, 15, 8, 0, 2, 13, 10, 3, 7, 9, 14, 6, 1, 4],
    #v[7, 3, 13, 11, 9, 1, 12, 14, 2, 5, 4, 15, 6, 10, 0, 8],
    #v[9, 5, 2, 10, 0, 7, 4, 15, 14, 11, 6, 3, 1, 12, 8, 13],
    #v[2, 6, 0, 8, 12, 10, 11, 3, 4, 7, 15, 1, 13, 5, 14, 9],
    #v[12, 1, 14, 4, 5, 15, 13, 10, 0, 6, 9, 8, 7, 3, 2, 11],
    #v[13, 7, 12, 3, 11, 14, 1, 9, 5, 15, 8, 2, 0, 4, 6, 10],
    #v[6, 14, 11, 0, 15, 9, 3, 8, 12, 13, 1, 10, 2, 7, 4, 5],
    #v[10, 8, 7, 1, 2, 4, 6, 5, 15, 9, 3, 13, 11, 14, 12, 0],
    #v[0, 2, 4, 6, 1, 3, 5, 7, 8, 10, 12, 14, 9, 11, 13, 15],
    #v[14, 4, 9, 13, 10, 8, 15, 6, 1, 0, 11, 5, 12, 2, 7, 3]]
/-- `LOAD128(&indices[r][k])`, for `k` a multiple of four: the row as four vectors. benches/blake2-avx2-sneves/blake2-avx2/blake2sp.c 82, 84, 87, 89. -/
def indexVec (row : Vector (BitVec 32) 16) (k : Fin 4) : M128 :=
  ofLanes 32 128 [row[4 * k.val], row[4 * k.val + 1], row[4 * k.val + 2], row[4 * k.val + 3]]
/-- `BLAKE2S_ROUND_V1` under `PERMUTE_WITH_GATHER`, with the row `indices[r]` as an argument. benches/blake2-avx2-sneves/blake2-avx2/blake2sp.c 80-92. -/
def roundGather (m : List Byte) (v : Rows) (row : Vector (BitVec 32) 16) : Res Rows := do
  let b0 ← mm_i32gather_epi32 m 0 (indexVec row 0) 4
  let v := g1 v b0
  let b0 ← mm_i32gather_epi32 m 0 (indexVec row 1) 4
  let v := g2 v b0
  let v := diag v
  let b0 ← mm_i32gather_epi32 m 0 (indexVec row 2) 4
  let v := g1 v b0
  let b0 ← mm_i32gather_epi32 m 0 (indexVec row 3) 4
  let v := g2 v b0
  .ok (undiag v)

/-- `BLAKE2S_LOAD_MSG_r_i` of the simple loads: in place `[r][i - 1]` the numbers of the words `_mm_set_epi32` is given, in their order.
benches/blake2-avx2-sneves/blake2-avx2/blake2s-load-sse2.h 4-43. -/
def simpleMsg : Vector (Vector (Vector (Fin 16) 4) 4) 10 :=
  #v[#v[#v[6, 4, 2, 0], #v[7, 5, 3, 1], #v[14, 12, 10, 8], #v[15, 13, 11, 9]],
    #v[#v[13, 9, 4, 14], #v[6, 15, 8, 10], #v[5, 11, 0, 1], #v[3, 7, 2, 12]],
    #v[#v[15, 5, 12, 11], #v[13, 2, 0, 8], #v[9, 7, 3, 10], #v[4, 1, 6, 14]],
    #v[#v[11, 13, 3, 7], #v[14, 12, 1, 9], #v[15, 4, 5, 2], #v[8, 0, 10, 6]],
    #v[#v[10, 2, 5, 9], #v[15, 4, 7, 0], #v[3, 6, 11, 14], #v[13, 8, 12, 1]],
    #v[#v[8, 0, 6, 2], #v[3, 11, 10, 12], #v[1, 15, 7, 4], #v[9, 14, 5, 13]],
    #v[#v[4, 14, 1, 12], #v[10, 13, 15, 5], #v[8, 9, 6, 0], #v[11, 2, 3, 7]],
    #v[#v[3, 12, 7, 13], #v[9, 1, 14, 11], #v[2, 8, 15, 5], #v[10, 6, 4, 0]],
    #v[#v[0, 11, 14, 6], #v[8, 3, 9, 15], #v[10, 1, 13, 12], #v[5, 4, 7, 2]],
    #v[#v[1, 7, 8, 10], #v[5, 6, 4, 2], #v[13, 3, 9, 15], #v[0, 12, 14, 11]]]
/-- The macros of `simpleMsg`. benches/blake2-avx2-sneves/blake2-avx2/blake2s-load-sse2.h 4-43. -/
def loadSimple (w : Vector (BitVec 32) 16) (e : Vector (Fin 16) 4) : M128 := mm_set_epi32 w[e[0]] w[e[1]] w[e[2]] w[e[3]]
/-- `DECLARE_MESSAGE_WORDS` with the simple loads: the variables `m0` to `m15`. benches/blake2-avx2-sneves/blake2-avx2/blake2sp.c 139-155. -/
def messageWords (m : List Byte) : Res (Vector (BitVec 32) 16) := do
  let m0 ← loadu32At m 0
  let m1 ← loadu32At m 4
  let m2 ← loadu32At m 8
  let m3 ← loadu32At m 12
  let m4 ← loadu32At m 16
  let m5 ← loadu32At m 20
  let m6 ← loadu32At m 24
  let m7 ← loadu32At m 28
  let m8 ← loadu32At m 32
  let m9 ← loadu32At m 36
  let m10 ← loadu32At m 40
  let m11 ← loadu32At m 44
  let m12 ← loadu32At m 48
  let m13 ← loadu32At m 52
  let m14 ← loadu32At m 56
  let m15 ← loadu32At m 60
  .ok #v[m0, m1, m2, m3, m4, m5, m6, m7, m8, m9, m10, m11, m12, m13, m14, m15]

/-- `DECLARE_MESSAGE_WORDS` and `BLAKE2S_ROUNDS_V1`. With the gather the loop takes the first ten rows of `indices`, which has twelve.
benches/blake2-avx2-sneves/blake2-avx2/blake2sp.c 94-99, 115-126, 129-156. -/
def messageRounds (p : Permute) (m : List Byte) (v : Rows) : Res Rows :=
  match p with
  | .shuffles => do
    let m0 ← loadu128At m 0
    let m1 ← loadu128At m 16
    let m2 ← loadu128At m 32
    let m3 ← loadu128At m 48
    .ok (roundsV1 m0 m1 m2 m3 v)
  | .gather => (indices.toList.take 10).foldlM (roundGather m) v
  | .none => do
    let w ← messageWords m
    .ok (simpleMsg.toList.foldl
      (fun v e => roundV1 (loadSimple w e[0]) (loadSimple w e[1]) (loadSimple w e[2]) (loadSimple w e[3]) v) v)

/-- `BLAKE2S_COMPRESS_V1`. benches/blake2-avx2-sneves/blake2-avx2/blake2sp.c 158-172. -/
def compressV1 (p : Permute) (a b : M128) (m : List Byte) (t0 t1 f0 f1 : BitVec 32) : Res (M128 × M128) := do
  let iv0 := a
  let iv1 := b
  let c := loadIV0
  let d := xor128 loadIV4 (mm_set_epi32 f1 f0 t1 t0)
  let v ← messageRounds p m ⟨a, b, c, d⟩
  let a := xor128 v.row1 v.row3
  let b := xor128 v.row2 v.row4
  let a := xor128 a iv0
  let b := xor128 b iv1
  .ok (a, b)

/-- The loop of `blake2s_root`; `counter` is a `uint64_t`, `flag` a `uint32_t`. benches/blake2-avx2-sneves/blake2-avx2/blake2sp.c 209-214. -/
def blake2sRootLoop (p : Permute) : List Nat → List Byte → M128 → M128 → Res (M128 × M128)
  | [], _, a, b => .ok (a, b)
  | i :: is, in_, a, b => do
    let counter : BitVec 64 := BitVec.ofNat 64 (64 * (i + 1))
    let flag : BitVec 32 := if i = 3 then BitVec.allOnes 32 else 0
    let (a, b) ← compressV1 p a b in_ ((counter &&& 0xFFFFFFFF).setWidth 32) ((counter >>> 32).setWidth 32) flag flag
    blake2sRootLoop p is (in_.drop 64) a b

/-- `blake2s_root`: the bytes at `out` afterwards. benches/blake2-avx2-sneves/blake2-avx2/blake2sp.c 204-218. -/
def blake2sRoot (p : Permute) (out in_ : List Byte) : Res (List Byte) := do
  let parameterBlock := mm_set_epi32 0x20010000 0 0 0x02080020
  let a := xor128 loadIV0 parameterBlock
  let b := loadIV4
  let (a, b) ← blake2sRootLoop p [0, 1, 2, 3] in_ a b
  let out ← storeu128At out 0 a
  storeu128At out 16 b

/-- `blake2s_sigma`: byte offsets. benches/blake2-avx2-sneves/blake2-avx2/blake2sp.c 20-31. -/
def blake2s_sigma : Vector (Vector Nat 16) 10 :=
  #v[#v[0, 32, 64, 96, 128, 160, 192, 224, 256, 288, 320, 352, 384, 416, 448, 480],
    #v[448, 320, 128, 256, 288, 480, 416, 192, 32, 384, 0, 64, 352, 224, 160, 96],
    #v[352, 256, 384, 0, 160, 64, 480, 416, 320, 448, 96, 192, 224, 32, 288, 128],
    #v[224, 288, 96, 32, 416, 384, 352, 448, 64, 192, 160, 320, 128, 0, 480, 256],
    #v[288, 0, 160, 224, 64, 128, 320, 480, 448, 32, 352, 384, 192, 256, 96, 416],
    #v[64, 384, 192, 320, 0, 352, 256, 96, 128, 416, 224, 160, 480, 448, 32, 288],
    #v[384, 160, 32, 480, 448, 416, 128, 320, 0, 224, 192, 96, 288, 64, 256, 352],
    #v[416, 352, 224, 448, 384, 32, 96, 288, 160, 0, 480, 128, 256, 192, 64, 320],
    #v[192, 480, 448, 288, 352, 96, 0, 256, 384, 64, 416, 224, 32, 128, 320, 160],
    #v[320, 64, 256, 128, 224, 192, 32, 160, 480, 352, 288, 448, 96, 384, 416, 0]]

/-- The macros of the round. benches/blake2-avx2-sneves/blake2-avx2/blake2s-common.h 56, 59, 63-66. -/
def ops : VOps M256 where
  add := add
  xor := xor
  rotA := rot16
  rotB := rot12
  rotC := rot8
  rotD := rot7

/-- `BLAKE2S_PACK_MSG_V8`. benches/blake2-avx2-sneves/blake2-avx2/blake2sp.c 371-432. -/
def packMsgV8 (m : Vector M256 16) : Vector M256 16 :=
  let t0 := mm256_unpacklo_epi32 m[0] m[2]
  let t1 := mm256_unpackhi_epi32 m[0] m[2]
  let t2 := mm256_unpacklo_epi32 m[4] m[6]
  let t3 := mm256_unpackhi_epi32 m[4] m[6]
  let t4 := mm256_unpacklo_epi32 m[8] m[10]
  let t5 := mm256_unpackhi_epi32 m[8] m[10]
  let t6 := mm256_unpacklo_epi32 m[12] m[14]
  let t7 := mm256_unpackhi_epi32 m[12] m[14]
  let s0 := mm256_unpacklo_epi64 t0 t2
  let s1 := mm256_unpackhi_epi64 t0 t2
  let s2 := mm256_unpacklo_epi64 t4 t6
  let s3 := mm256_unpackhi_epi64 t4 t6
  let w0 := mm256_permute2x128_si256 s0 s2 0x20
  let w4 := mm256_permute2x128_si256 s0 s2 0x31
  let w1 := mm256_permute2x128_si256 s1 s3 0x20
  let w5 := mm256_permute2x128_si256 s1 s3 0x31
  let s0 := mm256_unpacklo_epi64 t1 t3
  let s1 := mm256_unpackhi_epi64 t1 t3
  let s2 := mm256_unpacklo_epi64 t5 t7
  let s3 := mm256_unpackhi_epi64 t5 t7
  let w2 := mm256_permute2x128_si256 s0 s2 0x20
  let w6 := mm256_permute2x128_si256 s0 s2 0x31
  let w3 := mm256_permute2x128_si256 s1 s3 0x20
  let w7 := mm256_permute2x128_si256 s1 s3 0x31
  let t0 := mm256_unpacklo_epi32 m[1] m[3]
  let t1 := mm256_unpackhi_epi32 m[1] m[3]
  let t2 := mm256_unpacklo_epi32 m[5] m[7]
  let t3 := mm256_unpackhi_epi32 m[5] m[7]
  let t4 := mm256_unpacklo_epi32 m[9] m[11]
  let t5 := mm256_unpackhi_epi32 m[9] m[11]
  let t6 := mm256_unpacklo_epi32 m[13] m[15]
  let t7 := mm256_unpackhi_epi32 m[13] m[15]
  let s0 := mm256_unpacklo_epi64 t0 t2
  let s1 := mm256_unpackhi_epi64 t0 t2
  let s2 := mm256_unpacklo_epi64 t4 t6
  let s3 := mm256_unpackhi_epi64 t4 t6
  let w8 := mm256_permute2x128_si256 s0 s2 0x20
  let w12 := mm256_permute2x128_si256 s0 s2 0x31
  let w9 := mm256_permute2x128_si256 s1 s3 0x20
  let w13 := mm256_permute2x128_si256 s1 s3 0x31
  let s0 := mm256_unpacklo_epi64 t1 t3
  let s1 := mm256_unpackhi_epi64 t1 t3
  let s2 := mm256_unpacklo_epi64 t5 t7
  let s3 := mm256_unpackhi_epi64 t5 t7
  let w10 := mm256_permute2x128_si256 s0 s2 0x20
  let w14 := mm256_permute2x128_si256 s0 s2 0x31
  let w11 := mm256_permute2x128_si256 s1 s3 0x20
  let w15 := mm256_permute2x128_si256 s1 s3 0x31
  #v[w0, w1, w2, w3, w4, w5, w6, w7, w8, w9, w10, w11, w12, w13, w14, w15]

/-- `BLAKE2S_UNPACK_STATE_V8`. benches/blake2-avx2-sneves/blake2-avx2/blake2sp.c 444-473. -/
def unpackStateV8 (v : Vector M256 8) : Vector M256 8 :=
  let t0 := mm256_unpacklo_epi32 v[0] v[1]
  let t1 := mm256_unpackhi_epi32 v[0] v[1]
  let t2 := mm256_unpacklo_epi32 v[2] v[3]
  let t3 := mm256_unpackhi_epi32 v[2] v[3]
  let t4 := mm256_unpacklo_epi32 v[4] v[5]
  let t5 := mm256_unpackhi_epi32 v[4] v[5]
  let t6 := mm256_unpacklo_epi32 v[6] v[7]
  let t7 := mm256_unpackhi_epi32 v[6] v[7]
  let s0 := mm256_unpacklo_epi64 t0 t2
  let s1 := mm256_unpackhi_epi64 t0 t2
  let s2 := mm256_unpacklo_epi64 t1 t3
  let s3 := mm256_unpackhi_epi64 t1 t3
  let s4 := mm256_unpacklo_epi64 t4 t6
  let s5 := mm256_unpackhi_epi64 t4 t6
  let s6 := mm256_unpacklo_epi64 t5 t7
  let s7 := mm256_unpackhi_epi64 t5 t7
  let u0 := mm256_permute2x128_si256 s0 s4 0x20
  let u1 := mm256_permute2x128_si256 s1 s5 0x20
  let u2 := mm256_permute2x128_si256 s2 s6 0x20
  let u3 := mm256_permute2x128_si256 s3 s7 0x20
  let u4 := mm256_permute2x128_si256 s0 s4 0x31
  let u5 := mm256_permute2x128_si256 s1 s5 0x31
  let u6 := mm256_permute2x128_si256 s2 s6 0x31
  let u7 := mm256_permute2x128_si256 s3 s7 0x31
  #v[u0, u1, u2, u3, u4, u5, u6, u7]

/-- `BLAKE2S_LOADMSG_V8` under `PERMUTE_WITH_GATHER`. The offset `i * sizeof(uint32_t)` is written out.
benches/blake2-avx2-sneves/blake2-avx2/blake2sp.c 359-368. -/
def gatherMsgV8 (m : List Byte) : Res (Vector M256 16) := do
  let w0 ← mm256_i32gather_epi32 m 0 (mm256_set_epi32 112 96 80 64 48 32 16 0) 4
  let w1 ← mm256_i32gather_epi32 m 4 (mm256_set_epi32 112 96 80 64 48 32 16 0) 4
  let w2 ← mm256_i32gather_epi32 m 8 (mm256_set_epi32 112 96 80 64 48 32 16 0) 4
  let w3 ← mm256_i32gather_epi32 m 12 (mm256_set_epi32 112 96 80 64 48 32 16 0) 4
  let w4 ← mm256_i32gather_epi32 m 16 (mm256_set_epi32 112 96 80 64 48 32 16 0) 4
  let w5 ← mm256_i32gather_epi32 m 20 (mm256_set_epi32 112 96 80 64 48 32 16 0) 4
  let w6 ← mm256_i32gather_epi32 m 24 (mm256_set_epi32 112 96 80 64 48 32 16 0) 4
  let w7 ← mm256_i32gather_epi32 m 28 (mm256_set_epi32 112 96 80 64 48 32 16 0) 4
  let w8 ← mm256_i32gather_epi32 m 32 (mm256_set_epi32 112 96 80 64 48 32 16 0) 4
  let w9 ← mm256_i32gather_epi32 m 36 (mm256_set_epi32 112 96 80 64 48 32 16 0) 4
  let w10 ← mm256_i32gather_epi32 m 40 (mm256_set_epi32 112 96 80 64 48 32 16 0) 4
  let w11 ← mm256_i32gather_epi32 m 44 (mm256_set_epi32 112 96 80 64 48 32 16 0) 4
  let w12 ← mm256_i32gather_epi32 m 48 (mm256_set_epi32 112 96 80 64 48 32 16 0) 4
  let w13 ← mm256_i32gather_epi32 m 52 (mm256_set_epi32 112 96 80 64 48 32 16 0) 4
  let w14 ← mm256_i32gather_epi32 m 56 (mm256_set_epi32 112 96 80 64 48 32 16 0) 4
  let w15 ← mm256_i32gather_epi32 m 60 (mm256_set_epi32 112 96 80 64 48 32 16 0) 4
  .ok #v[w0, w1, w2, w3, w4, w5, w6, w7, w8, w9, w10, w11, w12, w13, w14, w15]

/-- `BLAKE2S_LOADMSG_V8`. benches/blake2-avx2-sneves/blake2-avx2/blake2sp.c 358-442. -/
def loadMsgV8 (p : Permute) (m : List Byte) : Res (Vector M256 16) :=
  match p with
  | .gather => gatherMsgV8 m
  | _ => do
    let t ← loadMessage m
    .ok (packMsgV8 t)

/-- `BLAKE2S_COMPRESS_V8`: the first eight elements of `v` afterwards; the other eight are set at the start
of each use. benches/blake2-avx2-sneves/blake2-avx2/blake2sp.c 475-497. -/
def compressV8 (p : Permute) (v : Vector M256 8) (m : List Byte) (t0 t1 f0 : M256) : Res (Vector M256 8) := do
  let flagMask := mm256_set_epi32 (BitVec.allOnes 32) 0 0 0 0 0 0 0
  let iv := v
  let v : Vector M256 16 :=
    #v[v[0], v[1], v[2], v[3], v[4], v[5], v[6], v[7],
      mm256_set1_epi32 blake2s_IV[0],
      mm256_set1_epi32 blake2s_IV[1],
      mm256_set1_epi32 blake2s_IV[2],
      mm256_set1_epi32 blake2s_IV[3],
      xor (mm256_set1_epi32 blake2s_IV[4]) t0,
      xor (mm256_set1_epi32 blake2s_IV[5]) t1,
      xor (mm256_set1_epi32 blake2s_IV[6]) f0,
      xor (mm256_set1_epi32 blake2s_IV[7]) (and f0 flagMask)]
  let w ← loadMsgV8 p m
  let v ← blake2s_sigma.toList.foldlM (roundV ops w) v
  .ok (Vector.ofFn fun i : Fin 8 => xor (xor v[i.val] v[i.val + 8]) iv[i.val])

/-- `_mm256_not_si256`. benches/blake2-avx2-sneves/blake2-avx2/blake2sp.c 534. -/
def not256 (x : M256) : M256 := mm256_xor_si256 x (mm256_set1_epi32 (BitVec.allOnes 32))
/-- `_mm256_cmpge_epu32`. benches/blake2-avx2-sneves/blake2-avx2/blake2sp.c 535. -/
def cmpge (x y : M256) : M256 := mm256_cmpeq_epi32 x (mm256_max_epu32 x y)
/-- `_mm256_cmple_epu32`. benches/blake2-avx2-sneves/blake2-avx2/blake2sp.c 536. -/
def cmple (x y : M256) : M256 := cmpge y x
/-- `_mm256_cmpgt_epu32`. benches/blake2-avx2-sneves/blake2-avx2/blake2sp.c 537. -/
def cmpgt (x y : M256) : M256 := not256 (cmple x y)
/-- `_mm256_cmplt_epu32`. benches/blake2-avx2-sneves/blake2-avx2/blake2sp.c 538. -/
def cmplt (x y : M256) : M256 := cmpgt y x

/-- The first loop of `blake2sp`: the state, the counters, and where `in` and `inlen` are afterwards.
benches/blake2-avx2-sneves/blake2-avx2/blake2sp.c 519-564. -/
def blake2spLoop (p : Permute) : Nat → List Byte → Nat → M256 → M256 → Vector M256 8 →
    Res (Vector M256 8 × M256 × M256 × List Byte × Nat)
  | 0, _, _, _, _, _ => .error .diverge
  | fuel + 1, in_, inlen, counterl, counterh, v => do
    let (ptr, blockSize) ← (if inlen < 8 * 64 then do
        let buffer ← copyPadded in_ inlen (8 * 64)
        .ok (buffer, inlen)
      else .ok (in_, 8 * 64) : Res (List Byte × Nat))
    let x0 := mm256_set1_epi32 (BitVec.ofNat 32 (inlen &&& 0xFFFFFFFF))
    let x1 := mm256_set1_epi32 (BitVec.ofNat 32 (inlen / (1 <<< 32)))
    let x2 := mm256_cmpeq_epi32 x1 mm256_setzero_si256
    let x3 := cmpge x0 (mm256_set_epi32 (448+1) (384+1) (320+1) (256+1) (192+1) (128+1) (64+1) (0+1))
    let x4 := mm256_and_si256 x3 (mm256_sub_epi32 x0 (mm256_set_epi32 448 384 320 256 192 128 64 0))
    let x5 := mm256_xor_si256 (mm256_and_si256 x2 (mm256_min_epu32 x4 (mm256_set1_epi32 64)))
      (mm256_andnot_si256 x2 (mm256_set1_epi32 64))
    let f0 := cmpge (mm256_set_epi32 (512+448) (512+384) (512+320) (512+256) (512+192) (512+128) (512+64) (512+0)) x0
    let f0 := mm256_and_si256 f0 x2
    let counterl := mm256_add_epi32 counterl x5
    let counterh := mm256_sub_epi32 counterh (cmplt counterl x5)
    let v ← compressV8 p v ptr counterl counterh f0
    let in_ := in_.drop blockSize
    let inlen := inlen - blockSize
    if inlen ≥ 8 * 64 then blake2spLoop p fuel in_ inlen counterl counterh v else .ok (v, counterl, counterh, in_, inlen)

/-- The second loop of `blake2sp`, over the lanes given. `lanes.s[lane*2+0]` and `lanes.s[lane*2+1]` are the halves of the state of a
lane; they are kept as pairs. `counterl.w[lane]` and `counterh.w[lane]` are lanes of the vectors: each lane is used in one turn only,
so the vectors are not written back. The sum `counterl.w[lane] + block_size` wraps to 32 bits and is then compared as a `size_t`.
benches/blake2-avx2-sneves/blake2-avx2/blake2sp.c 568-584. -/
def blake2spTail (p : Permute) (counterl counterh : M256) : List (Fin 8) → List Byte → Nat → Vector (M128 × M128) 8 →
    Res (Vector (M128 × M128) 8)
  | [], _, _, s => .ok s
  | l :: ls, in_, inlen, s => do
    if inlen = 0 then .ok s else do
    let (ptr, blockSize) ← (if inlen < 64 then do
        let buffer ← copyPadded in_ inlen 64
        .ok (buffer, inlen)
      else .ok (in_, 64) : Res (List Byte × Nat))
    let tl := lane 32 counterl l.val + BitVec.ofNat 32 blockSize
    let th := lane 32 counterh l.val + (if tl.toNat < blockSize then 1 else 0)
    let r ← compressV1 p s[l].1 s[l].2 ptr tl th (BitVec.allOnes 32) (if l.val = 7 then BitVec.allOnes 32 else 0)
    blake2spTail p counterl counterh ls (in_.drop blockSize) (inlen - blockSize) (s.set l r)

/-- `blake2sp`: the bytes at `out` afterwards. The union `lanes` holds each vector `lanes.t[i]` as `lanes.s[2*i]`, its low half, and
`lanes.s[2*i+1]`, its high half. benches/blake2-avx2-sneves/blake2-avx2/blake2sp.c 500-586. -/
def blake2sp (p : Permute) (out in_ : List Byte) (inlen : Nat) : Res (List Byte) := do
  let v := blake2s_IV.map mm256_set1_epi32
  let v := v.set 0 (xor v[0] (mm256_set1_epi32 0x02080020))
  let v := v.set 2 (xor v[2] (mm256_set_epi32 7 6 5 4 3 2 1 0))
  let v := v.set 3 (xor v[3] (mm256_set1_epi32 0x20000000))
  let (v, counterl, counterh, in_, inlen) ← blake2spLoop p (inlen + 1) in_ inlen 0 0 v
  let t := unpackStateV8 v
  let s ← blake2spTail p counterl counterh [0, 1, 2, 3, 4, 5, 6, 7] in_ inlen (t.map fun x => (lane 128 x 0, lane 128 x 1))
  blake2sRoot p out (s.toList.flatMap fun p => leBytes 16 p.1.toNat ++ leBytes 16 p.2.toNat)

end Blake2.SnevesSp
