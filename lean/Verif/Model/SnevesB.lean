import Verif.Model.SnevesIntrinsics
import Verif.Model.BAvx2
/-!
# Model of benches/blake2-avx2-sneves/blake2-avx2/blake2b.c

All three ways to load the message are modelled; the build script chooses the first (benches/blake2-avx2-sneves/build.rs 11-15).
The macros with the suffix `_V1` are repeated in blake2bp.c, with the same text; they are modelled once, here.
-/
namespace Blake2.SnevesB
open X86
open Sneves (Permute)
open BAvx2 (Rows)
set_option linter.unusedVariables false

/-- `blake2b_IV`. benches/blake2-avx2-sneves/blake2-avx2/blake2b.c 10-15, benches/blake2-avx2-sneves/blake2-avx2/blake2bp.c 10-15. -/
def blake2b_IV : Vector (BitVec 64) 8 :=
  #v[0x6A09E667F3BCC908, 0xBB67AE8584CAA73B, 0x3C6EF372FE94F82B, 0xA54FF53A5F1D36F1,
    0x510E527FADE682D1, 0x9B05688C2B3E6C1F, 0x1F83D9ABFB41BD6B, 0x5BE0CD19137E2179]
/-- `LOAD(&blake2b_IV[0])`. benches/blake2-avx2-sneves/blake2-avx2/blake2b.c 152, 167. -/
def loadIV0 : M256 := ofLanes 64 256 [blake2b_IV[0], blake2b_IV[1], blake2b_IV[2], blake2b_IV[3]]
/-- `LOAD(&blake2b_IV[4])`. benches/blake2-avx2-sneves/blake2-avx2/blake2b.c 154, 168. -/
def loadIV4 : M256 := ofLanes 64 256 [blake2b_IV[4], blake2b_IV[5], blake2b_IV[6], blake2b_IV[7]]

/-- `ROTATE16`. benches/blake2-avx2-sneves/blake2-avx2/blake2b-common.h 30-31. -/
def rotate16 : M256 := mm256_setr_epi8 [2, 3, 4, 5, 6, 7, 0, 1, 10, 11, 12, 13, 14, 15, 8, 9,
  2, 3, 4, 5, 6, 7, 0, 1, 10, 11, 12, 13, 14, 15, 8, 9]
/-- `ROTATE24`. benches/blake2-avx2-sneves/blake2-avx2/blake2b-common.h 33-34. -/
def rotate24 : M256 := mm256_setr_epi8 [3, 4, 5, 6, 7, 0, 1, 2, 11, 12, 13, 14, 15, 8, 9, 10,
  3, 4, 5, 6, 7, 0, 1, 2, 11, 12, 13, 14, 15, 8, 9, 10]
/-- `ADD`. benches/blake2-avx2-sneves/blake2-avx2/blake2b-common.h 36. -/
def add (a b : M256) : M256 := mm256_add_epi64 a b
/-- `XOR`. benches/blake2-avx2-sneves/blake2-avx2/blake2b-common.h 39. -/
def xor (a b : M256) : M256 := mm256_xor_si256 a b
/-- `AND`. benches/blake2-avx2-sneves/blake2-avx2/blake2b-common.h 40. -/
def and (a b : M256) : M256 := mm256_and_si256 a b
/-- `ROT32`. benches/blake2-avx2-sneves/blake2-avx2/blake2b-common.h 43. -/
def rot32 (x : M256) : M256 := mm256_shuffle_epi32 x (MM_SHUFFLE 2 3 0 1)
/-- `ROT24`. benches/blake2-avx2-sneves/blake2-avx2/blake2b-common.h 44. -/
def rot24 (x : M256) : M256 := mm256_shuffle_epi8 x rotate24
/-- `ROT16`. benches/blake2-avx2-sneves/blake2-avx2/blake2b-common.h 45. -/
def rot16 (x : M256) : M256 := mm256_shuffle_epi8 x rotate16
/-- `ROT63`. benches/blake2-avx2-sneves/blake2-avx2/blake2b-common.h 46. -/
def rot63 (x : M256) : M256 := mm256_or_si256 (mm256_srli_epi64 x 63) (add x x)

/-- `BLAKE2B_G1_V1`. benches/blake2-avx2-sneves/blake2-avx2/blake2b.c 17-21. -/
def g1 (v : Rows) (m : M256) : Rows :=
  let a := add v.a m
  let a := add a v.b
  let d := xor v.d a
  let d := rot32 d
  let c := add v.c d
  let b := xor v.b c
  let b := rot24 b
  ⟨a, b, c, d⟩
/-- `BLAKE2B_G2_V1`. benches/blake2-avx2-sneves/blake2-avx2/blake2b.c 23-27. -/
def g2 (v : Rows) (m : M256) : Rows :=
  let a := add v.a m
  let a := add a v.b
  let d := xor v.d a
  let d := rot16 d
  let c := add v.c d
  let b := xor v.b c
  let b := rot63 b
  ⟨a, b, c, d⟩
/-- `BLAKE2B_DIAG_V1`. benches/blake2-avx2-sneves/blake2-avx2/blake2b.c 29-33. -/
def diag (v : Rows) : Rows :=
  let a := mm256_permute4x64_epi64 v.a (MM_SHUFFLE 2 1 0 3)
  let d := mm256_permute4x64_epi64 v.d (MM_SHUFFLE 1 0 3 2)
  let c := mm256_permute4x64_epi64 v.c (MM_SHUFFLE 0 3 2 1)
  ⟨a, v.b, c, d⟩
/-- `BLAKE2B_UNDIAG_V1`. benches/blake2-avx2-sneves/blake2-avx2/blake2b.c 35-39. -/
def undiag (v : Rows) : Rows :=
  let a := mm256_permute4x64_epi64 v.a (MM_SHUFFLE 0 3 2 1)
  let d := mm256_permute4x64_epi64 v.d (MM_SHUFFLE 1 0 3 2)
  let c := mm256_permute4x64_epi64 v.c (MM_SHUFFLE 2 1 0 3)
  ⟨a, v.b, c, d⟩

/-- `BLAKE2B_LOAD_MSG_0_1`. benches/blake2-avx2-sneves/blake2-avx2/blake2b-load-avx2.h 4-8. -/
def loadMsg_0_1 (m0 m1 m2 m3 m4 m5 m6 m7 : M256) : M256 :=
  let t0 := mm256_unpacklo_epi64 m0 m1
  let t1 := mm256_unpacklo_epi64 m2 m3
  mm256_blend_epi32 t0 t1 0xF0

/-- `BLAKE2B_LOAD_MSG_0_2`. benches/blake2-avx2-sneves/blake2-avx2/blake2b-load-avx2.h 10-15. -/
def loadMsg_0_2 (m0 m1 m2 m3 m4 m5 m6 m7 : M256) : M256 :=
  let t0 := mm256_unpackhi_epi64 m0 m1
  let t1 := mm256_unpackhi_epi64 m2 m3
  mm256_blend_epi32 t0 t1 0xF0

/-- `BLAKE2B_LOAD_MSG_0_3`. benches/blake2-avx2-sneves/blake2-avx2/blake2b-load-avx2.h 17-22. -/
def loadMsg_0_3 (m0 m1 m2 m3 m4 m5 m6 m7 : M256) : M256 :=
  let t0 := mm256_unpacklo_epi64 m7 m4
  let t1 := mm256_unpacklo_epi64 m5 m6
  mm256_blend_epi32 t0 t1 0xF0

/-- `BLAKE2B_LOAD_MSG_0_4`. benches/blake2-avx2-sneves/blake2-avx2/blake2b-load-avx2.h 24-29. -/
def loadMsg_0_4 (m0 m1 m2 m3 m4 m5 m6 m7 : M256) : M256 :=
  let t0 := mm256_unpackhi_epi64 m7 m4
  let t1 := mm256_unpackhi_epi64 m5 m6
  mm256_blend_epi32 t0 t1 0xF0

/-- `BLAKE2B_LOAD_MSG_1_1`. benches/blake2-avx2-sneves/blake2-avx2/blake2b-load-avx2.h 31-36. -/
def loadMsg_1_1 (m0 m1 m2 m3 m4 m5 m6 m7 : M256) : M256 :=
  let t0 := mm256_unpacklo_epi64 m7 m2
  let t1 := mm256_unpackhi_epi64 m4 m6
  mm256_blend_epi32 t0 t1 0xF0

/-- `BLAKE2B_LOAD_MSG_1_2`. benches/blake2-avx2-sneves/blake2-avx2/blake2b-load-avx2.h 38-43. -/
def loadMsg_1_2 (m0 m1 m2 m3 m4 m5 m6 m7 : M256) : M256 :=
  let t0 := mm256_unpacklo_epi64 m5 m4
  let t1 := mm256_alignr_epi8 m3 m7 8
  mm256_blend_epi32 t0 t1 0xF0

/-- `BLAKE2B_LOAD_MSG_1_3`. benches/blake2-avx2-sneves/blake2-avx2/blake2b-load-avx2.h 45-50. -/
def loadMsg_1_3 (m0 m1 m2 m3 m4 m5 m6 m7 : M256) : M256 :=
  let t0 := mm256_unpackhi_epi64 m2 m0
  let t1 := mm256_blend_epi32 m5 m0 0x33
  mm256_blend_epi32 t0 t1 0xF0

/-- `BLAKE2B_LOAD_MSG_1_4`. benches/blake2-avx2-sneves/blake2-avx2/blake2b-load-avx2.h 52-57. -/
def loadMsg_1_4 (m0 m1 m2 m3 m4 m5 m6 m7 : M256) : M256 :=
  let t0 := mm256_alignr_epi8 m6 m1 8
  let t1 := mm256_blend_epi32 m3 m1 0x33
  mm256_blend_epi32 t0 t1 0xF0

/-- `BLAKE2B_LOAD_MSG_2_1`. benches/blake2-avx2-sneves/blake2-avx2/blake2b-load-avx2.h 59-64. -/
def loadMsg_2_1 (m0 m1 m2 m3 m4 m5 m6 m7 : M256) : M256 :=
  let t0 := mm256_alignr_epi8 m6 m5 8
  let t1 := mm256_unpackhi_epi64 m2 m7
  mm256_blend_epi32 t0 t1 0xF0

/-- `BLAKE2B_LOAD_MSG_2_2`. benches/blake2-avx2-sneves/blake2-avx2/blake2b-load-avx2.h 66-71. -/
def loadMsg_2_2 (m0 m1 m2 m3 m4 m5 m6 m7 : M256) : M256 :=
  let t0 := mm256_unpacklo_epi64 m4 m0
  let t1 := mm256_blend_epi32 m6 m1 0x33
  mm256_blend_epi32 t0 t1 0xF0

/-- `BLAKE2B_LOAD_MSG_2_3`. benches/blake2-avx2-sneves/blake2-avx2/blake2b-load-avx2.h 73-78. -/
def loadMsg_2_3 (m0 m1 m2 m3 m4 m5 m6 m7 : M256) : M256 :=
  let t0 := mm256_alignr_epi8 m5 m4 8
  let t1 := mm256_unpackhi_epi64 m1 m3
  mm256_blend_epi32 t0 t1 0xF0

/-- `BLAKE2B_LOAD_MSG_2_4`. benches/blake2-avx2-sneves/blake2-avx2/blake2b-load-avx2.h 80-85. -/
def loadMsg_2_4 (m0 m1 m2 m3 m4 m5 m6 m7 : M256) : M256 :=
  let t0 := mm256_unpacklo_epi64 m2 m7
  let t1 := mm256_blend_epi32 m0 m3 0x33
  mm256_blend_epi32 t0 t1 0xF0

/-- `BLAKE2B_LOAD_MSG_3_1`. benches/blake2-avx2-sneves/blake2-avx2/blake2b-load-avx2.h 87-92. -/
def loadMsg_3_1 (m0 m1 m2 m3 m4 m5 m6 m7 : M256) : M256 :=
  let t0 := mm256_unpackhi_epi64 m3 m1
  let t1 := mm256_unpackhi_epi64 m6 m5
  mm256_blend_epi32 t0 t1 0xF0

/-- `BLAKE2B_LOAD_MSG_3_2`. benches/blake2-avx2-sneves/blake2-avx2/blake2b-load-avx2.h 94-99. -/
def loadMsg_3_2 (m0 m1 m2 m3 m4 m5 m6 m7 : M256) : M256 :=
  let t0 := mm256_unpackhi_epi64 m4 m0
  let t1 := mm256_unpacklo_epi64 m6 m7
  mm256_blend_epi32 t0 t1 0xF0

/-- `BLAKE2B_LOAD_MSG_3_3`. benches/blake2-avx2-sneves/blake2-avx2/blake2b-load-avx2.h 101-106. -/
def loadMsg_3_3 (m0 m1 m2 m3 m4 m5 m6 m7 : M256) : M256 :=
  let t0 := mm256_alignr_epi8 m1 m7 8
  let t1 := mm256_shuffle_epi32 m2 (MM_SHUFFLE 1 0 3 2)
  mm256_blend_epi32 t0 t1 0xF0

/-- `BLAKE2B_LOAD_MSG_3_4`. benches/blake2-avx2-sneves/blake2-avx2/blake2b-load-avx2.h 108-113. -/
def loadMsg_3_4 (m0 m1 m2 m3 m4 m5 m6 m7 : M256) : M256 :=
  let t0 := mm256_unpacklo_epi64 m4 m3
  let t1 := mm256_unpacklo_epi64 m5 m0
  mm256_blend_epi32 t0 t1 0xF0

/-- `BLAKE2B_LOAD_MSG_4_1`. benches/blake2-avx2-sneves/blake2-avx2/blake2b-load-avx2.h 115-120. -/
def loadMsg_4_1 (m0 m1 m2 m3 m4 m5 m6 m7 : M256) : M256 :=
  let t0 := mm256_unpackhi_epi64 m4 m2
  let t1 := mm256_unpacklo_epi64 m1 m5
  mm256_blend_epi32 t0 t1 0xF0

/-- `BLAKE2B_LOAD_MSG_4_2`. benches/blake2-avx2-sneves/blake2-avx2/blake2b-load-avx2.h 122-127. -/
def loadMsg_4_2 (m0 m1 m2 m3 m4 m5 m6 m7 : M256) : M256 :=
  let t0 := mm256_blend_epi32 m3 m0 0x33
  let t1 := mm256_blend_epi32 m7 m2 0x33
  mm256_blend_epi32 t0 t1 0xF0

/-- `BLAKE2B_LOAD_MSG_4_3`. benches/blake2-avx2-sneves/blake2-avx2/blake2b-load-avx2.h 129-134. -/
def loadMsg_4_3 (m0 m1 m2 m3 m4 m5 m6 m7 : M256) : M256 :=
  let t0 := mm256_alignr_epi8 m7 m1 8
  let t1 := mm256_alignr_epi8 m3 m5 8
  mm256_blend_epi32 t0 t1 0xF0

/-- `BLAKE2B_LOAD_MSG_4_4`. benches/blake2-avx2-sneves/blake2-avx2/blake2b-load-avx2.h 136-141. -/
def loadMsg_4_4 (m0 m1 m2 m3 m4 m5 m6 m7 : M256) : M256 :=
  let t0 := mm256_unpackhi_epi64 m6 m0
  let t1 := mm256_unpacklo_epi64 m6 m4
  mm256_blend_epi32 t0 t1 0xF0

/-- `BLAKE2B_LOAD_MSG_5_1`. benches/blake2-avx2-sneves/blake2-avx2/blake2b-load-avx2.h 143-148. -/
def loadMsg_5_1 (m0 m1 m2 m3 m4 m5 m6 m7 : M256) : M256 :=
  let t0 := mm256_unpacklo_epi64 m1 m3
  let t1 := mm256_unpacklo_epi64 m0 m4
  mm256_blend_epi32 t0 t1 0xF0

/-- `BLAKE2B_LOAD_MSG_5_2`. benches/blake2-avx2-sneves/blake2-avx2/blake2b-load-avx2.h 150-155. -/
def loadMsg_5_2 (m0 m1 m2 m3 m4 m5 m6 m7 : M256) : M256 :=
  let t0 := mm256_unpacklo_epi64 m6 m5
  let t1 := mm256_unpackhi_epi64 m5 m1
  mm256_blend_epi32 t0 t1 0xF0

/-- `BLAKE2B_LOAD_MSG_5_3`. benches/blake2-avx2-sneves/blake2-avx2/blake2b-load-avx2.h 157-162. -/
def loadMsg_5_3 (m0 m1 m2 m3 m4 m5 m6 m7 : M256) : M256 :=
  let t0 := mm256_alignr_epi8 m2 m0 8
  let t1 := mm256_unpackhi_epi64 m3 m7
  mm256_blend_epi32 t0 t1 0xF0

/-- `BLAKE2B_LOAD_MSG_5_4`. benches/blake2-avx2-sneves/blake2-avx2/blake2b-load-avx2.h 164-169. -/
def loadMsg_5_4 (m0 m1 m2 m3 m4 m5 m6 m7 : M256) : M256 :=
  let t0 := mm256_unpackhi_epi64 m4 m6
  let t1 := mm256_alignr_epi8 m7 m2 8
  mm256_blend_epi32 t0 t1 0xF0

/-- `BLAKE2B_LOAD_MSG_6_1`. benches/blake2-avx2-sneves/blake2-avx2/blake2b-load-avx2.h 171-176. -/
def loadMsg_6_1 (m0 m1 m2 m3 m4 m5 m6 m7 : M256) : M256 :=
  let t0 := mm256_blend_epi32 m0 m6 0x33
  let t1 := mm256_unpacklo_epi64 m7 m2
  mm256_blend_epi32 t0 t1 0xF0

/-- `BLAKE2B_LOAD_MSG_6_2`. benches/blake2-avx2-sneves/blake2-avx2/blake2b-load-avx2.h 178-183. -/
def loadMsg_6_2 (m0 m1 m2 m3 m4 m5 m6 m7 : M256) : M256 :=
  let t0 := mm256_unpackhi_epi64 m2 m7
  let t1 := mm256_alignr_epi8 m5 m6 8
  mm256_blend_epi32 t0 t1 0xF0

/-- `BLAKE2B_LOAD_MSG_6_3`. benches/blake2-avx2-sneves/blake2-avx2/blake2b-load-avx2.h 185-190. -/
def loadMsg_6_3 (m0 m1 m2 m3 m4 m5 m6 m7 : M256) : M256 :=
  let t0 := mm256_unpacklo_epi64 m4 m0
  let t1 := mm256_blend_epi32 m4 m3 0x33
  mm256_blend_epi32 t0 t1 0xF0

/-- `BLAKE2B_LOAD_MSG_6_4`. benches/blake2-avx2-sneves/blake2-avx2/blake2b-load-avx2.h 192-197. -/
def loadMsg_6_4 (m0 m1 m2 m3 m4 m5 m6 m7 : M256) : M256 :=
  let t0 := mm256_unpackhi_epi64 m5 m3
  let t1 := mm256_shuffle_epi32 m1 (MM_SHUFFLE 1 0 3 2)
  mm256_blend_epi32 t0 t1 0xF0

/-- `BLAKE2B_LOAD_MSG_7_1`. benches/blake2-avx2-sneves/blake2-avx2/blake2b-load-avx2.h 199-204. -/
def loadMsg_7_1 (m0 m1 m2 m3 m4 m5 m6 m7 : M256) : M256 :=
  let t0 := mm256_unpackhi_epi64 m6 m3
  let t1 := mm256_blend_epi32 m1 m6 0x33
  mm256_blend_epi32 t0 t1 0xF0

/-- `BLAKE2B_LOAD_MSG_7_2`. benches/blake2-avx2-sneves/blake2-avx2/blake2b-load-avx2.h 206-211. -/
def loadMsg_7_2 (m0 m1 m2 m3 m4 m5 m6 m7 : M256) : M256 :=
  let t0 := mm256_alignr_epi8 m7 m5 8
  let t1 := mm256_unpackhi_epi64 m0 m4
  mm256_blend_epi32 t0 t1 0xF0

/-- `BLAKE2B_LOAD_MSG_7_3`. benches/blake2-avx2-sneves/blake2-avx2/blake2b-load-avx2.h 213-218. -/
def loadMsg_7_3 (m0 m1 m2 m3 m4 m5 m6 m7 : M256) : M256 :=
  let t0 := mm256_blend_epi32 m2 m1 0x33
  let t1 := mm256_alignr_epi8 m4 m7 8
  mm256_blend_epi32 t0 t1 0xF0

/-- `BLAKE2B_LOAD_MSG_7_4`. benches/blake2-avx2-sneves/blake2-avx2/blake2b-load-avx2.h 220-225. -/
def loadMsg_7_4 (m0 m1 m2 m3 m4 m5 m6 m7 : M256) : M256 :=
  let t0 := mm256_unpacklo_epi64 m5 m0
  let t1 := mm256_unpacklo_epi64 m2 m3
  mm256_blend_epi32 t0 t1 0xF0

/-- `BLAKE2B_LOAD_MSG_8_1`. benches/blake2-avx2-sneves/blake2-avx2/blake2b-load-avx2.h 227-232. -/
def loadMsg_8_1 (m0 m1 m2 m3 m4 m5 m6 m7 : M256) : M256 :=
  let t0 := mm256_unpacklo_epi64 m3 m7
  let t1 := mm256_alignr_epi8 m0 m5 8
  mm256_blend_epi32 t0 t1 0xF0

/-- `BLAKE2B_LOAD_MSG_8_2`. benches/blake2-avx2-sneves/blake2-avx2/blake2b-load-avx2.h 234-239. -/
def loadMsg_8_2 (m0 m1 m2 m3 m4 m5 m6 m7 : M256) : M256 :=
  let t0 := mm256_unpackhi_epi64 m7 m4
  let t1 := mm256_alignr_epi8 m4 m1 8
  mm256_blend_epi32 t0 t1 0xF0

/-- `BLAKE2B_LOAD_MSG_8_3`. benches/blake2-avx2-sneves/blake2-avx2/blake2b-load-avx2.h 241-246. -/
def loadMsg_8_3 (m0 m1 m2 m3 m4 m5 m6 m7 : M256) : M256 :=
  let t0 := mm256_unpacklo_epi64 m5 m6
  let t1 := mm256_unpackhi_epi64 m6 m0
  mm256_blend_epi32 t0 t1 0xF0

/-- `BLAKE2B_LOAD_MSG_8_4`. benches/blake2-avx2-sneves/blake2-avx2/blake2b-load-avx2.h 248-253. -/
def loadMsg_8_4 (m0 m1 m2 m3 m4 m5 m6 m7 : M256) : M256 :=
  let t0 := mm256_alignr_epi8 m1 m2 8
  let t1 := mm256_alignr_epi8 m2 m3 8
  mm256_blend_epi32 t0 t1 0xF0

/-- `BLAKE2B_LOAD_MSG_9_1`. benches/blake2-avx2-sneves/blake2-avx2/blake2b-load-avx2.h 255-260. -/
def loadMsg_9_1 (m0 m1 m2 m3 m4 m5 m6 m7 : M256) : M256 :=
  let t0 := mm256_unpacklo_epi64 m5 m4
  let t1 := mm256_unpackhi_epi64 m3 m0
  mm256_blend_epi32 t0 t1 0xF0

/-- `BLAKE2B_LOAD_MSG_9_2`. benches/blake2-avx2-sneves/blake2-avx2/blake2b-load-avx2.h 262-267. -/
def loadMsg_9_2 (m0 m1 m2 m3 m4 m5 m6 m7 : M256) : M256 :=
  let t0 := mm256_unpacklo_epi64 m1 m2
  let t1 := mm256_blend_epi32 m2 m3 0x33
  mm256_blend_epi32 t0 t1 0xF0

/-- `BLAKE2B_LOAD_MSG_9_3`. benches/blake2-avx2-sneves/blake2-avx2/blake2b-load-avx2.h 269-274. -/
def loadMsg_9_3 (m0 m1 m2 m3 m4 m5 m6 m7 : M256) : M256 :=
  let t0 := mm256_unpackhi_epi64 m6 m7
  let t1 := mm256_unpackhi_epi64 m4 m1
  mm256_blend_epi32 t0 t1 0xF0

/-- `BLAKE2B_LOAD_MSG_9_4`. benches/blake2-avx2-sneves/blake2-avx2/blake2b-load-avx2.h 276-281. -/
def loadMsg_9_4 (m0 m1 m2 m3 m4 m5 m6 m7 : M256) : M256 :=
  let t0 := mm256_blend_epi32 m5 m0 0x33
  let t1 := mm256_unpacklo_epi64 m7 m6
  mm256_blend_epi32 t0 t1 0xF0

/-- `BLAKE2B_LOAD_MSG_10_1`. benches/blake2-avx2-sneves/blake2-avx2/blake2b-load-avx2.h 283-288. -/
def loadMsg_10_1 (m0 m1 m2 m3 m4 m5 m6 m7 : M256) : M256 :=
  let t0 := mm256_unpacklo_epi64 m0 m1
  let t1 := mm256_unpacklo_epi64 m2 m3
  mm256_blend_epi32 t0 t1 0xF0

/-- `BLAKE2B_LOAD_MSG_10_2`. benches/blake2-avx2-sneves/blake2-avx2/blake2b-load-avx2.h 290-295. -/
def loadMsg_10_2 (m0 m1 m2 m3 m4 m5 m6 m7 : M256) : M256 :=
  let t0 := mm256_unpackhi_epi64 m0 m1
  let t1 := mm256_unpackhi_epi64 m2 m3
  mm256_blend_epi32 t0 t1 0xF0

/-- `BLAKE2B_LOAD_MSG_10_3`. benches/blake2-avx2-sneves/blake2-avx2/blake2b-load-avx2.h 297-302. -/
def loadMsg_10_3 (m0 m1 m2 m3 m4 m5 m6 m7 : M256) : M256 :=
  let t0 := mm256_unpacklo_epi64 m7 m4
  let t1 := mm256_unpacklo_epi64 m5 m6
  mm256_blend_epi32 t0 t1 0xF0

/-- `BLAKE2B_LOAD_MSG_10_4`. benches/blake2-avx2-sneves/blake2-avx2/blake2b-load-avx2.h 304-309. -/
def loadMsg_10_4 (m0 m1 m2 m3 m4 m5 m6 m7 : M256) : M256 :=
  let t0 := mm256_unpackhi_epi64 m7 m4
  let t1 := mm256_unpackhi_epi64 m5 m6
  mm256_blend_epi32 t0 t1 0xF0

/-- `BLAKE2B_LOAD_MSG_11_1`. benches/blake2-avx2-sneves/blake2-avx2/blake2b-load-avx2.h 311-316. -/
def loadMsg_11_1 (m0 m1 m2 m3 m4 m5 m6 m7 : M256) : M256 :=
  let t0 := mm256_unpacklo_epi64 m7 m2
  let t1 := mm256_unpackhi_epi64 m4 m6
  mm256_blend_epi32 t0 t1 0xF0

/-- `BLAKE2B_LOAD_MSG_11_2`. benches/blake2-avx2-sneves/blake2-avx2/blake2b-load-avx2.h 318-323. -/
def loadMsg_11_2 (m0 m1 m2 m3 m4 m5 m6 m7 : M256) : M256 :=
  let t0 := mm256_unpacklo_epi64 m5 m4
  let t1 := mm256_alignr_epi8 m3 m7 8
  mm256_blend_epi32 t0 t1 0xF0

/-- `BLAKE2B_LOAD_MSG_11_3`. benches/blake2-avx2-sneves/blake2-avx2/blake2b-load-avx2.h 325-330. -/
def loadMsg_11_3 (m0 m1 m2 m3 m4 m5 m6 m7 : M256) : M256 :=
  let t0 := mm256_unpackhi_epi64 m2 m0
  let t1 := mm256_blend_epi32 m5 m0 0x33
  mm256_blend_epi32 t0 t1 0xF0

/-- `BLAKE2B_LOAD_MSG_11_4`. benches/blake2-avx2-sneves/blake2-avx2/blake2b-load-avx2.h 332-337. -/
def loadMsg_11_4 (m0 m1 m2 m3 m4 m5 m6 m7 : M256) : M256 :=
  let t0 := mm256_alignr_epi8 m6 m1 8
  let t1 := mm256_blend_epi32 m3 m1 0x33
  mm256_blend_epi32 t0 t1 0xF0

/-- `BLAKE2B_ROUND_V1`, with the four message vectors it loads as arguments. benches/blake2-avx2-sneves/blake2-avx2/blake2b.c 85-97. -/
def roundV1 (b1 b2 b3 b4 : M256) (v : Rows) : Rows :=
  let v := g1 v b1
  let v := g2 v b2
  let v := diag v
  let v := g1 v b3
  let v := g2 v b4
  undiag v
/-- `BLAKE2B_ROUNDS_V1`. benches/blake2-avx2-sneves/blake2-avx2/blake2b.c 99-112. -/
def roundsV1 (m0 m1 m2 m3 m4 m5 m6 m7 : M256) (v : Rows) : Rows :=
  let v := roundV1 (loadMsg_0_1 m0 m1 m2 m3 m4 m5 m6 m7) (loadMsg_0_2 m0 m1 m2 m3 m4 m5 m6 m7)
    (loadMsg_0_3 m0 m1 m2 m3 m4 m5 m6 m7) (loadMsg_0_4 m0 m1 m2 m3 m4 m5 m6 m7) v
  let v := roundV1 (loadMsg_1_1 m0 m1 m2 m3 m4 m5 m6 m7) (loadMsg_1_2 m0 m1 m2 m3 m4 m5 m6 m7)
    (loadMsg_1_3 m0 m1 m2 m3 m4 m5 m6 m7) (loadMsg_1_4 m0 m1 m2 m3 m4 m5 m6 m7) v
  let v := roundV1 (loadMsg_2_1 m0 m1 m2 m3 m4 m5 m6 m7) (loadMsg_2_2 m0 m1 m2 m3 m4 m5 m6 m7)
    (loadMsg_2_3 m0 m1 m2 m3 m4 m5 m6 m7) (loadMsg_2_4 m0 m1 m2 m3 m4 m5 m6 m7) v
  let v := roundV1 (loadMsg_3_1 m0 m1 m2 m3 m4 m5 m6 m7) (loadMsg_3_2 m0 m1 m2 m3 m4 m5 m6 m7)
    (loadMsg_3_3 m0 m1 m2 m3 m4 m5 m6 m7) (loadMsg_3_4 m0 m1 m2 m3 m4 m5 m6 m7) v
  let v := roundV1 (loadMsg_4_1 m0 m1 m2 m3 m4 m5 m6 m7) (loadMsg_4_2 m0 m1 m2 m3 m4 m5 m6 m7)
    (loadMsg_4_3 m0 m1 m2 m3 m4 m5 m6 m7) (loadMsg_4_4 m0 m1 m2 m3 m4 m5 m6 m7) v
  let v := roundV1 (loadMsg_5_1 m0 m1 m2 m3 m4 m5 m6 m7) (loadMsg_5_2 m0 m1 m2 m3 m4 m5 m6 m7)
    (loadMsg_5_3 m0 m1 m2 m3 m4 m5 m6 m7) (loadMsg_5_4 m0 m1 m2 m3 m4 m5 m6 m7) v
  let v := roundV1 (loadMsg_6_1 m0 m1 m2 m3 m4 m5 m6 m7) (loadMsg_6_2 m0 m1 m2 m3 m4 m5 m6 m7)
    (loadMsg_6_3 m0 m1 m2 m3 m4 m5 m6 m7) (loadMsg_6_4 m0 m1 m2 m3 m4 m5 m6 m7) v
  let v := roundV1 (loadMsg_7_1 m0 m1 m2 m3 m4 m5 m6 m7) (loadMsg_7_2 m0 m1 m2 m3 m4 m5 m6 m7)
    (loadMsg_7_3 m0 m1 m2 m3 m4 m5 m6 m7) (loadMsg_7_4 m0 m1 m2 m3 m4 m5 m6 m7) v
  let v := roundV1 (loadMsg_8_1 m0 m1 m2 m3 m4 m5 m6 m7) (loadMsg_8_2 m0 m1 m2 m3 m4 m5 m6 m7)
    (loadMsg_8_3 m0 m1 m2 m3 m4 m5 m6 m7) (loadMsg_8_4 m0 m1 m2 m3 m4 m5 m6 m7) v
  let v := roundV1 (loadMsg_9_1 m0 m1 m2 m3 m4 m5 m6 m7) (loadMsg_9_2 m0 m1 m2 m3 m4 m5 m6 m7)
    (loadMsg_9_3 m0 m1 m2 m3 m4 m5 m6 m7) (loadMsg_9_4 m0 m1 m2 m3 m4 m5 m6 m7) v
  let v := roundV1 (loadMsg_10_1 m0 m1 m2 m3 m4 m5 m6 m7) (loadMsg_10_2 m0 m1 m2 m3 m4 m5 m6 m7)
    (loadMsg_10_3 m0 m1 m2 m3 m4 m5 m6 m7) (loadMsg_10_4 m0 m1 m2 m3 m4 m5 m6 m7) v
  roundV1 (loadMsg_11_1 m0 m1 m2 m3 m4 m5 m6 m7) (loadMsg_11_2 m0 m1 m2 m3 m4 m5 m6 m7)
    (loadMsg_11_3 m0 m1 m2 m3 m4 m5 m6 m7) (loadMsg_11_4 m0 m1 m2 m3 m4 m5 m6 m7) v

/-- `_mm256_broadcastsi128_si256(LOADU128(m + off))`. benches/blake2-avx2-sneves/blake2-avx2/blake2b.c 119-126. -/
def loadBroadcast (m : List Byte) (off : Nat) : Res M256 := do
  let x ← loadu128At m off
  .ok (mm256_broadcastsi128_si256 x)

/-- `indices`. benches/blake2-avx2-sneves/blake2-avx2/blake2b.c 49-62, benches/blake2-avx2-sneves/blake2-avx2/blake2bp.c 64-77. -/
def indices : Vector (Vector (BitVec 32) 16) 12 :=
  #v[#v[0, 2, 4, 6, 1, 3, 5, 7, 14, 8, 10, 12, 15, 9, 11, 13],
    #v[14, 4, 9, 13, 10, 8, 15, 6, 5, 1, 0, 11, 3, 12, 2, 7],
    #v[11, 12, 5, 15, 8, 0, 2, 13, 9, 10, 3, 7, 4, 14, 6, 1],
    #v[7, 3, 13, 11, 9, 1, 12, 14, 15, 2, 5, 4, 8, 6, 10, 0],
    #v[9, 5, 2, 10, 0, 7, 4, 15, 3, 14, 11, 6, 13, 1, 12, 8],
    #v[2, 6, 0, 8, 12, 10, 11, 3, 1, 4, 7, 15, 9, 13, 5, 14],
    #v[12, 1, 14, 4, 5, 15, 13, 10, 8, 0, 6, 9, 11, 7, 3, 2],
    #v[13, 7, 12, 3, 11, 14, 1, 9, 2, 5, 15, 8, 10, 0, 4, 6],
    #v[6, 14, 11, 0, 15, 9, 3, 8, 10, 12, 13, 1, 5, 2, 7, 4],
    #v[10, 8, 7, 1, 2, 4, 6, 5, 13, 15, 9, 3, 0, 11, 14, 12],
    #v[0, 2, 4, 6, 1, 3, 5, 7, 14, 8, 10, 12, 15, 9, 11, 13],
    #v[14, 4, 9, 13, 10, 8, 15, 6, 5, 1, 0, 11, 3, 12, 2, 7]]
/-- `LOAD128(&indices[r][k])`, for `k` a multiple of four: the row as four vectors. benches/blake2-avx2-sneves/blake2-avx2/blake2b.c 66, 68, 71, 73. -/
def indexVec (row : Vector (BitVec 32) 16) (k : Fin 4) : M128 :=
  ofLanes 32 128 [row[4 * k.val], row[4 * k.val + 1], row[4 * k.val + 2], row[4 * k.val + 3]]
/-- `BLAKE2B_ROUND_V1` under `PERMUTE_WITH_GATHER`, with the row `indices[r]` as an argument. benches/blake2-avx2-sneves/blake2-avx2/blake2b.c 64-76. -/
def roundGather (m : List Byte) (v : Rows) (row : Vector (BitVec 32) 16) : Res Rows := do
  let b0 ← mm256_i32gather_epi64 m 0 (indexVec row 0) 8
  let v := g1 v b0
  let b0 ← mm256_i32gather_epi64 m 0 (indexVec row 1) 8
  let v := g2 v b0
  let v := diag v
  let b0 ← mm256_i32gather_epi64 m 0 (indexVec row 2) 8
  let v := g1 v b0
  let b0 ← mm256_i32gather_epi64 m 0 (indexVec row 3) 8
  let v := g2 v b0
  .ok (undiag v)

/-- `BLAKE2B_LOAD_MSG_r_i` of the simple loads: in place `[r][i - 1]` the numbers of the words `_mm256_set_epi64x` is given, in their order.
benches/blake2-avx2-sneves/blake2-avx2/blake2b-load-avx2-simple.h 4-51. -/
def simpleMsg : Vector (Vector (Vector (Fin 16) 4) 4) 12 :=
  #v[#v[#v[6, 4, 2, 0], #v[7, 5, 3, 1], #v[12, 10, 8, 14], #v[13, 11, 9, 15]],
    #v[#v[13, 9, 4, 14], #v[6, 15, 8, 10], #v[11, 0, 1, 5], #v[7, 2, 12, 3]],
    #v[#v[15, 5, 12, 11], #v[13, 2, 0, 8], #v[7, 3, 10, 9], #v[1, 6, 14, 4]],
    #v[#v[11, 13, 3, 7], #v[14, 12, 1, 9], #v[4, 5, 2, 15], #v[0, 10, 6, 8]],
    #v[#v[10, 2, 5, 9], #v[15, 4, 7, 0], #v[6, 11, 14, 3], #v[8, 12, 1, 13]],
    #v[#v[8, 0, 6, 2], #v[3, 11, 10, 12], #v[15, 7, 4, 1], #v[14, 5, 13, 9]],
    #v[#v[4, 14, 1, 12], #v[10, 13, 15, 5], #v[9, 6, 0, 8], #v[2, 3, 7, 11]],
    #v[#v[3, 12, 7, 13], #v[9, 1, 14, 11], #v[8, 15, 5, 2], #v[6, 4, 0, 10]],
    #v[#v[0, 11, 14, 6], #v[8, 3, 9, 15], #v[1, 13, 12, 10], #v[4, 7, 2, 5]],
    #v[#v[1, 7, 8, 10], #v[5, 6, 4, 2], #v[3, 9, 15, 13], #v[12, 14, 11, 0]],
    #v[#v[6, 4, 2, 0], #v[7, 5, 3, 1], #v[12, 10, 8, 14], #v[13, 11, 9, 15]],
    #v[#v[13, 9, 4, 14], #v[6, 15, 8, 10], #v[11, 0, 1, 5], #v[7, 2, 12, 3]]]
/-- The macros of `simpleMsg`. benches/blake2-avx2-sneves/blake2-avx2/blake2b-load-avx2-simple.h 4-51. -/
def loadSimple (w : Vector (BitVec 64) 16) (e : Vector (Fin 16) 4) : M256 := mm256_set_epi64x w[e[0]] w[e[1]] w[e[2]] w[e[3]]
/-- `DECLARE_MESSAGE_WORDS` with the simple loads: the variables `m0` to `m15`. benches/blake2-avx2-sneves/blake2-avx2/blake2b.c 129-145. -/
def messageWords (m : List Byte) : Res (Vector (BitVec 64) 16) := do
  let m0 ← loadu64At m 0
  let m1 ← loadu64At m 8
  let m2 ← loadu64At m 16
  let m3 ← loadu64At m 24
  let m4 ← loadu64At m 32
  let m5 ← loadu64At m 40
  let m6 ← loadu64At m 48
  let m7 ← loadu64At m 56
  let m8 ← loadu64At m 64
  let m9 ← loadu64At m 72
  let m10 ← loadu64At m 80
  let m11 ← loadu64At m 88
  let m12 ← loadu64At m 96
  let m13 ← loadu64At m 104
  let m14 ← loadu64At m 112
  let m15 ← loadu64At m 120
  .ok #v[m0, m1, m2, m3, m4, m5, m6, m7, m8, m9, m10, m11, m12, m13, m14, m15]

/-- `DECLARE_MESSAGE_WORDS` and `BLAKE2B_ROUNDS_V1`. benches/blake2-avx2-sneves/blake2-avx2/blake2b.c 78-83, 99-112, 115-146. -/
def messageRounds (p : Permute) (m : List Byte) (v : Rows) : Res Rows :=
  match p with
  | .shuffles => do
    let m0 ← loadBroadcast m 0
    let m1 ← loadBroadcast m 16
    let m2 ← loadBroadcast m 32
    let m3 ← loadBroadcast m 48
    let m4 ← loadBroadcast m 64
    let m5 ← loadBroadcast m 80
    let m6 ← loadBroadcast m 96
    let m7 ← loadBroadcast m 112
    .ok (roundsV1 m0 m1 m2 m3 m4 m5 m6 m7 v)
  | .gather => indices.toList.foldlM (roundGather m) v
  | .none => do
    let w ← messageWords m
    .ok (simpleMsg.toList.foldl
      (fun v e => roundV1 (loadSimple w e[0]) (loadSimple w e[1]) (loadSimple w e[2]) (loadSimple w e[3]) v) v)

/-- `BLAKE2B_COMPRESS_V1`. benches/blake2-avx2-sneves/blake2-avx2/blake2b.c 148-162. -/
def compressV1 (p : Permute) (a b : M256) (m : List Byte) (t0 t1 f0 f1 : BitVec 64) : Res (M256 × M256) := do
  let iv0 := a
  let iv1 := b
  let c := loadIV0
  let d := xor loadIV4 (mm256_set_epi64x f1 f0 t1 t0)
  let v ← messageRounds p m ⟨a, b, c, d⟩
  let a := xor v.a v.c
  let b := xor v.b v.d
  let a := xor a iv0
  let b := xor b iv1
  .ok (a, b)

/-- The loop of `blake2b`. `size_t` values are natural numbers; `counter` is a `uint64_t`. The pointer `in` is the list of the bytes
from it to the end of its object. The first argument bounds the number of turns; reaching it is `diverge`.
benches/blake2-avx2-sneves/blake2-avx2/blake2b.c 170-183. -/
def blake2bLoop (p : Permute) : Nat → List Byte → Nat → BitVec 64 → M256 → M256 → Res (M256 × M256)
  | 0, _, _, _, _, _ => .error .diverge
  | fuel + 1, in_, inlen, counter, a, b => do
    let flag : BitVec 64 := if inlen ≤ 128 then BitVec.allOnes 64 else 0
    let (in_, blockSize) ← (if inlen < 128 then do
        let buffer ← copyPadded in_ inlen 128
        .ok (buffer, inlen)
      else .ok (in_, 128) : Res (List Byte × Nat))
    let counter := counter + BitVec.ofNat 64 blockSize
    let (a, b) ← compressV1 p a b in_ counter 0 flag 0
    let inlen := inlen - blockSize
    let in_ := in_.drop blockSize
    if inlen > 0 then blake2bLoop p fuel in_ inlen counter a b else .ok (a, b)

/-- `blake2b`: the bytes at `out` afterwards. The returned `int`, which is 0, is dropped, as by its callers.
benches/blake2-avx2-sneves/blake2-avx2/blake2b.c 164-188. -/
def blake2b (p : Permute) (out in_ : List Byte) (inlen : Nat) : Res (List Byte) := do
  let parameterBlock := mm256_set_epi64x 0 0 0 0x01010040
  let a := xor loadIV0 parameterBlock
  let b := loadIV4
  let (a, b) ← blake2bLoop p (inlen + 1) in_ inlen 0 a b
  let out ← storeu256At out 0 a
  storeu256At out 32 b

end Blake2.SnevesB
