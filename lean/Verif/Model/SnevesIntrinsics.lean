import Verif.Model.Intrinsics
import Verif.Model.Base
/-!
# The x86 intrinsics used only by the C code in benches/blake2-avx2-sneves

Like those of `Model/Intrinsics.lean` they follow Intel's Intrinsics Guide and belong to the trusted base. Loads and stores here are
checked: reading or writing outside an object is undefined behaviour.
-/
namespace Blake2.Sneves

/-- The three ways to load a message, between which the build of the C code chooses: `PERMUTE_WITH_SHUFFLES`, `PERMUTE_WITH_GATHER`, and neither,
which is written `PERMUTE_WITH_NONE` or `PERMUTE_WITH_NOTHING`. benches/blake2-avx2-sneves/build.rs 11-15,
benches/blake2-avx2-sneves/blake2-avx2/blake2b.c 41-46, benches/blake2-avx2-sneves/blake2-avx2/blake2bp.c 56-61,
benches/blake2-avx2-sneves/blake2-avx2/blake2sp.c 57-62, benches/blake2-avx2-sneves/blake2-avx2/Makefile 11, 15, 19. -/
inductive Permute | shuffles | gather | none
  deriving DecidableEq, Repr

end Blake2.Sneves

namespace Blake2.X86

/-- `_mm_loadu_si128` at an offset of an object, within it. benches/blake2-avx2-sneves/blake2-avx2/blake2b-common.h 15,
benches/blake2-avx2-sneves/blake2-avx2/blake2s-common.h 15. -/
def loadu128At (p : List Byte) (off : Nat) : Res M128 := do
  let bytes ← rawRef p off 16
  .ok (mm_loadu_si128 bytes)
/-- `_mm256_loadu_si256` at an offset of an object, within it. benches/blake2-avx2-sneves/blake2-avx2/blake2b-common.h 21,
benches/blake2-avx2-sneves/blake2-avx2/blake2s-common.h 47. -/
def loadu256At (p : List Byte) (off : Nat) : Res M256 := do
  let bytes ← rawRef p off 32
  .ok (mm256_loadu_si256 bytes)
/-- `_mm_storeu_si128` at an offset of an object, within it: the object afterwards.
benches/blake2-avx2-sneves/blake2-avx2/blake2s-common.h 16. -/
def storeu128At (p : List Byte) (off : Nat) (x : M128) : Res (List Byte) :=
  if off + 16 ≤ p.length then .ok (p.take off ++ leBytes 16 x.toNat ++ p.drop (off + 16)) else .error .ub
/-- `_mm256_storeu_si256` at an offset of an object, within it: the object afterwards.
benches/blake2-avx2-sneves/blake2-avx2/blake2b-common.h 22. -/
def storeu256At (p : List Byte) (off : Nat) (x : M256) : Res (List Byte) :=
  if off + 32 ≤ p.length then .ok (p.take off ++ leBytes 32 x.toNat ++ p.drop (off + 32)) else .error .ub
/-- `LOADU64`. benches/blake2-avx2-sneves/blake2-avx2/blake2b-common.h 24-28. -/
def loadu64At (p : List Byte) (off : Nat) : Res (BitVec 64) := do
  let bytes ← rawRef p off 8
  .ok (fromLE 64 bytes)
/-- `LOADU32`. benches/blake2-avx2-sneves/blake2-avx2/blake2s-common.h 18-22. -/
def loadu32At (p : List Byte) (off : Nat) : Res (BitVec 32) := do
  let bytes ← rawRef p off 4
  .ok (fromLE 32 bytes)
/-- The offset of one element of a gather: the index is signed, and must not lead before the object.
benches/blake2-avx2-sneves/blake2-avx2/blake2b.c 66, benches/blake2-avx2-sneves/blake2-avx2/blake2sp.c 82. -/
def gatherAt (off : Nat) (index : BitVec 32) (scale : Nat) : Res Nat :=
  let a : Int := off + index.toInt * scale
  if 0 ≤ a then .ok a.toNat else .error .ub
/-- `_mm256_i32gather_epi64(p + off, vindex, scale)`: four 64-bit loads, each within the object.
benches/blake2-avx2-sneves/blake2-avx2/blake2b.c 66, 68, 71, 73, benches/blake2-avx2-sneves/blake2-avx2/blake2bp.c 335-339. -/
def mm256_i32gather_epi64 (p : List Byte) (off : Nat) (vindex : M128) (scale : Nat) : Res M256 := do
  let x ← [0, 1, 2, 3].mapM fun i => gatherAt off (lane 32 vindex i) scale >>= loadu64At p
  .ok (ofLanes 64 256 x)
/-- `_mm_i32gather_epi32(p + off, vindex, scale)`: four 32-bit loads, each within the object.
benches/blake2-avx2-sneves/blake2-avx2/blake2sp.c 82, 84, 87, 89. -/
def mm_i32gather_epi32 (p : List Byte) (off : Nat) (vindex : M128) (scale : Nat) : Res M128 := do
  let x ← [0, 1, 2, 3].mapM fun i => gatherAt off (lane 32 vindex i) scale >>= loadu32At p
  .ok (ofLanes 32 128 x)
/-- `_mm256_i32gather_epi32(p + off, vindex, scale)`: eight 32-bit loads, each within the object.
benches/blake2-avx2-sneves/blake2-avx2/blake2sp.c 362-366. -/
def mm256_i32gather_epi32 (p : List Byte) (off : Nat) (vindex : M256) (scale : Nat) : Res M256 := do
  let x ← [0, 1, 2, 3, 4, 5, 6, 7].mapM fun i => gatherAt off (lane 32 vindex i) scale >>= loadu32At p
  .ok (ofLanes 32 256 x)
/-- `memcpy(buffer, p, n)` and `memset(buffer + n, 0, size - n)`, for a buffer of `size` bytes.
benches/blake2-avx2-sneves/blake2-avx2/blake2b.c 174-175, benches/blake2-avx2-sneves/blake2-avx2/blake2bp.c 461-462, 489-490,
benches/blake2-avx2-sneves/blake2-avx2/blake2sp.c 527-528, 573-574. -/
def copyPadded (p : List Byte) (n size : Nat) : Res (List Byte) := do
  let bytes ← rawRef p 0 n
  if n ≤ size then .ok (bytes ++ List.replicate (size - n) 0) else .error .ub

/-- `_mm256_setr_epi8`: lane 0 first; the arguments are collected in a list.
benches/blake2-avx2-sneves/blake2-avx2/blake2b-common.h 30, 33. -/
def mm256_setr_epi8 (l : List (BitVec 8)) : M256 := ofLanes 8 256 l
/-- `_mm256_set_epi8`: most significant first; the arguments are collected in a list.
benches/blake2-avx2-sneves/blake2-avx2/blake2s-common.h 50, 53. -/
def mm256_set_epi8 (l : List (BitVec 8)) : M256 := ofLanes 8 256 l.reverse
/-- `_mm_set_epi8`: most significant first; the arguments are collected in a list.
benches/blake2-avx2-sneves/blake2-avx2/blake2s-common.h 27, 29. -/
def mm_set_epi8 (l : List (BitVec 8)) : M128 := ofLanes 8 128 l.reverse
/-- `_mm_shuffle_epi8`: each byte of the mask names, by its four low bits, the byte of `x` to put in its place, or zero if its high
bit is set. benches/blake2-avx2-sneves/blake2-avx2/blake2s-common.h 39, 41. -/
def mm_shuffle_epi8 (x mask : M128) : M128 :=
  ofLanes 8 128 ((List.range 16).map fun i => if (lane 8 mask i).msb then 0 else lane 8 x ((lane 8 mask i).toNat % 16))
/-- `_mm256_shuffle_epi8`: the same in each half. benches/blake2-avx2-sneves/blake2-avx2/blake2b-common.h 44-45,
benches/blake2-avx2-sneves/blake2-avx2/blake2s-common.h 63, 65. -/
def mm256_shuffle_epi8 (x mask : M256) : M256 := perHalf mm_shuffle_epi8 x mask
/-- The arguments of `_mm256_set_epi64x` come most significant first. benches/blake2-avx2-sneves/blake2-avx2/blake2b.c 155, 165,
benches/blake2-avx2-sneves/blake2-avx2/blake2bp.c 170, 181, 410, 448, 457-458. -/
def mm256_set_epi64x (e3 e2 e1 e0 : BitVec 64) : M256 := ofLanes 64 256 [e0, e1, e2, e3]
/-- The arguments of `_mm_set_epi32` come most significant first. benches/blake2-avx2-sneves/blake2-avx2/blake2sp.c 165, 205. -/
def mm_set_epi32 (e3 e2 e1 e0 : BitVec 32) : M128 := ofLanes 32 128 [e0, e1, e2, e3]
/-- The arguments of `_mm256_set_epi32` come most significant first. benches/blake2-avx2-sneves/blake2-avx2/blake2sp.c 476, 516,
545, 548, 556. -/
def mm256_set_epi32 (e7 e6 e5 e4 e3 e2 e1 e0 : BitVec 32) : M256 := ofLanes 32 256 [e0, e1, e2, e3, e4, e5, e6, e7]
/-- `_mm256_setzero_si256`. benches/blake2-avx2-sneves/blake2-avx2/blake2bp.c 450, 459, benches/blake2-avx2-sneves/blake2-avx2/blake2sp.c 543. -/
def mm256_setzero_si256 : M256 := 0
/-- `_mm256_cmpgt_epi64`: signed comparison of 64-bit lanes. benches/blake2-avx2-sneves/blake2-avx2/blake2bp.c 469, 471, 473. -/
def mm256_cmpgt_epi64 (a b : M256) : M256 := zipLanes 64 (fun x y => if y.slt x then BitVec.allOnes 64 else 0) a b
/-- `_mm256_blendv_epi8`: bytes of `b` where the high bit of the byte of the mask is set, else of `a`.
benches/blake2-avx2-sneves/blake2-avx2/blake2bp.c 470, 472. -/
def mm256_blendv_epi8 (a b mask : M256) : M256 :=
  ofLanes 8 256 ((List.range 32).map fun i => if (lane 8 mask i).msb then lane 8 b i else lane 8 a i)
/-- `_mm256_sub_epi64`: wrapping difference of 64-bit lanes. benches/blake2-avx2-sneves/blake2-avx2/blake2bp.c 470. -/
def mm256_sub_epi64 (a b : M256) : M256 := zipLanes 64 (· - ·) a b
/-- `_mm256_sub_epi32`: wrapping difference of 32-bit lanes. benches/blake2-avx2-sneves/blake2-avx2/blake2sp.c 548, 560. -/
def mm256_sub_epi32 (a b : M256) : M256 := zipLanes 32 (· - ·) a b
/-- `_mm256_max_epu32`: unsigned maximum of 32-bit lanes. benches/blake2-avx2-sneves/blake2-avx2/blake2sp.c 535. -/
def mm256_max_epu32 (a b : M256) : M256 := zipLanes 32 (fun x y => if x.ult y then y else x) a b
/-- `_mm256_min_epu32`: unsigned minimum of 32-bit lanes. benches/blake2-avx2-sneves/blake2-avx2/blake2sp.c 551. -/
def mm256_min_epu32 (a b : M256) : M256 := zipLanes 32 (fun x y => if x.ult y then x else y) a b

end Blake2.X86
