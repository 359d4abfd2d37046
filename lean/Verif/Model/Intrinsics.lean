import Verif.Basic
/-!
# Model of the x86 intrinsics used by `avx2.rs` and `sse41.rs`

The source of these definitions is Intel's Intrinsics Guide pseudo-code (`core::arch::x86_64` documents the same
operations). They are part of the trusted base: nothing in `/repo` defines them. A vector register is a `BitVec`,
lane 0 in the low-order bits, so that a load from memory on a little-endian machine is `leNat`.
-/
namespace Blake2.X86

/-- `__m128i`. Imported in blake2b/src/avx2.rs 1-4, blake2b/src/sse41.rs 1-4, blake2s/src/avx2.rs 1-4, blake2s/src/sse41.rs 1-4. -/
abbrev M128 := BitVec 128
/-- `__m256i`. Imported in blake2b/src/avx2.rs 1-4, blake2s/src/avx2.rs 1-4. -/
abbrev M256 := BitVec 256

/-- Lane number `i` of width `n` (lane 0 is the least significant). -/
def lane (n : Nat) {m : Nat} (x : BitVec m) (i : Nat) : BitVec n := x.extractLsb' (n * i) n

/-- The number whose base-`2^n` digits are the given lanes, least significant first. -/
def lanesNat {n : Nat} : List (BitVec n) → Nat
  | [] => 0
  | x :: xs => x.toNat + 2 ^ n * lanesNat xs

/-- The register with the given lanes, lane 0 first. -/
def ofLanes (n m : Nat) (l : List (BitVec n)) : BitVec m := BitVec.ofNat m (lanesNat l)

/-- Lane-wise unary operation. Not in /repo by itself; see the intrinsics below for the lines. -/
def mapLanes (n : Nat) {m : Nat} (f : BitVec n → BitVec n) (x : BitVec m) : BitVec m :=
  ofLanes n m ((List.range (m / n)).map fun i => f (lane n x i))

/-- Lane-wise binary operation. Not in /repo by itself; see the intrinsics below for the lines. -/
def zipLanes (n : Nat) {m : Nat} (f : BitVec n → BitVec n → BitVec n) (x y : BitVec m) : BitVec m :=
  ofLanes n m ((List.range (m / n)).map fun i => f (lane n x i) (lane n y i))

/-- `_MM_SHUFFLE!(z, y, x, w)`. blake2b/src/avx2.rs 71-75, blake2b/src/sse41.rs 67-71, blake2s/src/sse41.rs 127-131. -/
def MM_SHUFFLE (z y x w : Nat) : Nat := (z <<< 6) ||| (y <<< 4) ||| (x <<< 2) ||| w

/-! ## Loads and stores -/

/-- `_mm_loadu_si128` from 16 bytes of memory. Used in blake2b/src/avx2.rs 31; blake2b/src/sse41.rs 20; blake2s/src/sse41.rs
20. -/
def mm_loadu_si128 (bytes : List Byte) : M128 := BitVec.ofNat 128 (leNat bytes)
/-- `_mm256_loadu_si256` from 32 bytes of memory. Used in blake2b/src/avx2.rs 20; blake2s/src/avx2.rs 19. -/
def mm256_loadu_si256 (bytes : List Byte) : M256 := BitVec.ofNat 256 (leNat bytes)

/-! ## Bitwise -/

/-- `_mm_and_si128`: bitwise and. Used in blake2b/src/sse41.rs 41; blake2s/src/sse41.rs 41. -/
def mm_and_si128 (a b : M128) : M128 := a &&& b
/-- `_mm_andnot_si128`: bitwise and of the complement of `a` with `b`. Used in blake2b/src/sse41.rs 47; blake2s/src/sse41.rs
47. -/
def mm_andnot_si128 (a b : M128) : M128 := ~~~a &&& b
/-- `_mm_or_si128`: bitwise or. Used in blake2b/src/sse41.rs 84, 89, 94, 99; blake2s/src/sse41.rs 76, 81, 86, 91. -/
def mm_or_si128 (a b : M128) : M128 := a ||| b
/-- `_mm_xor_si128`: bitwise exclusive or. Used in blake2b/src/sse41.rs 52; blake2s/src/sse41.rs 52. -/
def mm_xor_si128 (a b : M128) : M128 := a ^^^ b
/-- `_mm256_and_si256`: bitwise and. Used in blake2b/src/avx2.rs 46; blake2s/src/avx2.rs 40. -/
def mm256_and_si256 (a b : M256) : M256 := a &&& b
/-- `_mm256_andnot_si256`: bitwise and of the complement of `a` with `b`. Used in blake2b/src/avx2.rs 52; blake2s/src/avx2.rs
46. -/
def mm256_andnot_si256 (a b : M256) : M256 := ~~~a &&& b
/-- `_mm256_or_si256`: bitwise or. Used in blake2b/src/avx2.rs 88, 93, 98, 103; blake2s/src/avx2.rs 77, 82, 87, 92. -/
def mm256_or_si256 (a b : M256) : M256 := a ||| b
/-- `_mm256_xor_si256`: bitwise exclusive or. Used in blake2b/src/avx2.rs 57; blake2s/src/avx2.rs 51. -/
def mm256_xor_si256 (a b : M256) : M256 := a ^^^ b

/-! ## Lane-wise arithmetic -/

/-- `_mm_add_epi32`: wrapping sum of 32-bit lanes. Used in blake2s/src/sse41.rs 31. -/
def mm_add_epi32 (a b : M128) : M128 := zipLanes 32 (· + ·) a b
/-- `_mm_add_epi64`: wrapping sum of 64-bit lanes. Used in blake2b/src/sse41.rs 31. -/
def mm_add_epi64 (a b : M128) : M128 := zipLanes 64 (· + ·) a b
/-- `_mm256_add_epi32`: wrapping sum of 32-bit lanes. Used in blake2s/src/avx2.rs 30. -/
def mm256_add_epi32 (a b : M256) : M256 := zipLanes 32 (· + ·) a b
/-- `_mm256_add_epi64`: wrapping sum of 64-bit lanes. Used in blake2b/src/avx2.rs 36. -/
def mm256_add_epi64 (a b : M256) : M256 := zipLanes 64 (· + ·) a b
/-- `_mm_srli_epi32`: logical right shift of 32-bit lanes. Used in blake2s/src/sse41.rs 76, 81, 86, 91. -/
def mm_srli_epi32 (a : M128) (n : Nat) : M128 := mapLanes 32 (· >>> n) a
/-- `_mm_slli_epi32`: left shift of 32-bit lanes. Used in blake2s/src/sse41.rs 76, 81, 86, 91. -/
def mm_slli_epi32 (a : M128) (n : Nat) : M128 := mapLanes 32 (· <<< n) a
/-- `_mm_srli_epi64`: logical right shift of 64-bit lanes. Used in blake2b/src/sse41.rs 84, 89, 94, 99. -/
def mm_srli_epi64 (a : M128) (n : Nat) : M128 := mapLanes 64 (· >>> n) a
/-- `_mm_slli_epi64`: left shift of 64-bit lanes. Used in blake2b/src/sse41.rs 84, 89, 94, 99. -/
def mm_slli_epi64 (a : M128) (n : Nat) : M128 := mapLanes 64 (· <<< n) a
/-- `_mm256_srli_epi32`: logical right shift of 32-bit lanes. Used in blake2s/src/avx2.rs 77, 82, 87, 92. -/
def mm256_srli_epi32 (a : M256) (n : Nat) : M256 := mapLanes 32 (· >>> n) a
/-- `_mm256_slli_epi32`: left shift of 32-bit lanes. Used in blake2s/src/avx2.rs 77, 82, 87, 92. -/
def mm256_slli_epi32 (a : M256) (n : Nat) : M256 := mapLanes 32 (· <<< n) a
/-- `_mm256_srli_epi64`: logical right shift of 64-bit lanes. Used in blake2b/src/avx2.rs 88, 93, 98, 103. -/
def mm256_srli_epi64 (a : M256) (n : Nat) : M256 := mapLanes 64 (· >>> n) a
/-- `_mm256_slli_epi64`: left shift of 64-bit lanes. Used in blake2b/src/avx2.rs 88, 93, 98, 103. -/
def mm256_slli_epi64 (a : M256) (n : Nat) : M256 := mapLanes 64 (· <<< n) a
/-- all ones where equal, zero elsewhere. Not in /repo by itself; see `_mm_cmpeq_epi32` below for the lines. -/
def cmpeq {n : Nat} (x y : BitVec n) : BitVec n := if x = y then BitVec.allOnes n else 0
/-- `_mm_cmpeq_epi32`: comparison of 32-bit lanes. Used in blake2s/src/sse41.rs 36. -/
def mm_cmpeq_epi32 (a b : M128) : M128 := zipLanes 32 cmpeq a b
/-- `_mm_cmpeq_epi64`: comparison of 64-bit lanes. Used in blake2b/src/sse41.rs 36. -/
def mm_cmpeq_epi64 (a b : M128) : M128 := zipLanes 64 cmpeq a b
/-- `_mm256_cmpeq_epi32`: comparison of 32-bit lanes. Used in blake2s/src/avx2.rs 35. -/
def mm256_cmpeq_epi32 (a b : M256) : M256 := zipLanes 32 cmpeq a b
/-- `_mm256_cmpeq_epi64`: comparison of 64-bit lanes. Used in blake2b/src/avx2.rs 41. -/
def mm256_cmpeq_epi64 (a b : M256) : M256 := zipLanes 64 cmpeq a b

/-! ## Set -/

/-- `_mm_set1_epi32`: the same 32-bit word in all lanes. Used in blake2s/src/sse41.rs 57. -/
def mm_set1_epi32 (x : BitVec 32) : M128 := ofLanes 32 128 [x, x, x, x]
/-- `_mm_set1_epi64x`: the same 64-bit word in all lanes. Used in blake2b/src/sse41.rs 57. -/
def mm_set1_epi64x (x : BitVec 64) : M128 := ofLanes 64 128 [x, x]
/-- `_mm256_set1_epi32`: the same 32-bit word in all lanes. Used in blake2s/src/avx2.rs 56. -/
def mm256_set1_epi32 (x : BitVec 32) : M256 := ofLanes 32 256 [x, x, x, x, x, x, x, x]
/-- `_mm256_set1_epi64x`: the same 64-bit word in all lanes. Used in blake2b/src/avx2.rs 62. -/
def mm256_set1_epi64x (x : BitVec 64) : M256 := ofLanes 64 256 [x, x, x, x]
/-- `_mm_setr_epi32`: 32-bit lanes, lane 0 first. Used in blake2s/src/sse41.rs 62. -/
def mm_setr_epi32 (a b c d : BitVec 32) : M128 := ofLanes 32 128 [a, b, c, d]
/-- The arguments of `_mm_set_epi64x` come most significant first. Used in blake2b/src/sse41.rs 63. -/
def mm_set_epi64x (e1 e0 : BitVec 64) : M128 := ofLanes 64 128 [e0, e1]
/-- `_mm256_setr_epi64x`: 64-bit lanes, lane 0 first. Used in blake2b/src/avx2.rs 67. -/
def mm256_setr_epi64x (a b c d : BitVec 64) : M256 := ofLanes 64 256 [a, b, c, d]
/-- `_mm256_setr_epi32`: 32-bit lanes, lane 0 first. Used in blake2s/src/avx2.rs 61. -/
def mm256_setr_epi32 (a b c d e f g h : BitVec 32) : M256 := ofLanes 32 256 [a, b, c, d, e, f, g, h]

/-! ## Permutations within 128 bits -/

/-- `_mm_unpacklo_epi32`: interleave the low 32-bit lanes. Used in blake2s/src/sse41.rs 228, 292, 349, 389, …. -/
def mm_unpacklo_epi32 (a b : M128) : M128 := ofLanes 32 128 [lane 32 a 0, lane 32 b 0, lane 32 a 1, lane 32 b 1]
/-- `_mm_unpackhi_epi32`: interleave the high 32-bit lanes. Used in blake2s/src/sse41.rs 215, 223, 247, 248, …. -/
def mm_unpackhi_epi32 (a b : M128) : M128 := ofLanes 32 128 [lane 32 a 2, lane 32 b 2, lane 32 a 3, lane 32 b 3]
/-- `_mm_unpacklo_epi64`: interleave the low 64-bit lanes. Used in blake2s/src/sse41.rs 268, 274, 293, 305, …. -/
def mm_unpacklo_epi64 (a b : M128) : M128 := ofLanes 64 128 [lane 64 a 0, lane 64 b 0]
/-- `_mm_unpackhi_epi64`: interleave the high 64-bit lanes. Used in blake2s/src/sse41.rs 269, 273, 278, 279, …. -/
def mm_unpackhi_epi64 (a b : M128) : M128 := ofLanes 64 128 [lane 64 a 1, lane 64 b 1]
/-- `_mm_shuffle_epi32`: 32-bit lanes chosen by two bits of `imm` each. Used in blake2s/src/sse41.rs 138, 139, 140, 145, ….
-/
def mm_shuffle_epi32 (a : M128) (imm : Nat) : M128 :=
  ofLanes 32 128 [lane 32 a (imm % 4), lane 32 a (imm / 4 % 4), lane 32 a (imm / 16 % 4), lane 32 a (imm / 64 % 4)]
/-- `_mm_shuffle_ps`; the casts between `__m128` and `__m128i` do nothing. Used in blake2s/src/sse41.rs 176, 182. -/
def mm_shuffle_ps (a b : M128) (imm : Nat) : M128 :=
  ofLanes 32 128 [lane 32 a (imm % 4), lane 32 a (imm / 4 % 4), lane 32 b (imm / 16 % 4), lane 32 b (imm / 64 % 4)]
/-- `_mm_castps_si128`: reinterpretation, no operation. Used in blake2s/src/sse41.rs 176, 182. -/
def mm_castps_si128 (a : M128) : M128 := a
/-- `_mm_castsi128_ps`: reinterpretation, no operation. Used in blake2s/src/sse41.rs 177, 178, 183, 184. -/
def mm_castsi128_ps (a : M128) : M128 := a
/-- `_mm_blend_epi16`: 16-bit lanes of `b` where the bit of `imm` is set, else of `a`. Used in blake2s/src/sse41.rs 191, 193,
199, 201, …. -/
def mm_blend_epi16 (a b : M128) (imm : Nat) : M128 :=
  ofLanes 16 128 ((List.range 8).map fun i => if imm.testBit i then lane 16 b i else lane 16 a i)
/-- The low four words are copied, the high four are chosen by `imm` among the high four. Used in blake2s/src/sse41.rs 360.
-/
def mm_shufflehi_epi16 (a : M128) (imm : Nat) : M128 :=
  ofLanes 16 128 [lane 16 a 0, lane 16 a 1, lane 16 a 2, lane 16 a 3,
    lane 16 a (4 + imm % 4), lane 16 a (4 + imm / 4 % 4), lane 16 a (4 + imm / 16 % 4), lane 16 a (4 + imm / 64 % 4)]
/-- `_mm_slli_si128`: left shift by bytes. Used in blake2s/src/sse41.rs 200, 210, 216, 230, …. -/
def mm_slli_si128 (a : M128) (imm : Nat) : M128 := a <<< (8 * imm)
/-- `_mm_srli_si128`: right shift by bytes. Used in blake2s/src/sse41.rs 235, 295, 301, 307, …. -/
def mm_srli_si128 (a : M128) (imm : Nat) : M128 := a >>> (8 * imm)
/-- Concatenate `a:b`, shift right by `imm` bytes, keep the low 16 bytes. Used in blake2s/src/sse41.rs 262. -/
def mm_alignr_epi8 (a b : M128) (imm : Nat) : M128 := (a ++ b).extractLsb' (8 * imm) 128

/-! ## 256-bit permutations; most act on the two 128-bit halves separately -/

/-- The 256-bit version of a 128-bit operation that acts on the halves separately (Intel's "for j in 0..1" pseudo code). Not in /repo by
itself; see the intrinsics below for the lines. -/
def perHalf (f : M128 → M128 → M128) (a b : M256) : M256 :=
  ofLanes 128 256 [f (lane 128 a 0) (lane 128 b 0), f (lane 128 a 1) (lane 128 b 1)]
/-- `_mm256_unpacklo_epi32`: interleave the low 32-bit lanes of each half. Used in blake2s/src/avx2.rs 299, 301, 303, 305. -/
def mm256_unpacklo_epi32 (a b : M256) : M256 := perHalf mm_unpacklo_epi32 a b
/-- `_mm256_unpackhi_epi32`: interleave the high 32-bit lanes of each half. Used in blake2s/src/avx2.rs 300, 302, 304, 306.
-/
def mm256_unpackhi_epi32 (a b : M256) : M256 := perHalf mm_unpackhi_epi32 a b
/-- `_mm256_unpacklo_epi64`: interleave the low 64-bit lanes of each half. Used in blake2b/src/avx2.rs 178, 179, 187, 188, …;
blake2s/src/avx2.rs 309, 311, 313, 315. -/
def mm256_unpacklo_epi64 (a b : M256) : M256 := perHalf mm_unpacklo_epi64 a b
/-- `_mm256_unpackhi_epi64`: interleave the high 64-bit lanes of each half. Used in blake2b/src/avx2.rs 182, 183, 191, 192,
…; blake2s/src/avx2.rs 310, 312, 314, 316. -/
def mm256_unpackhi_epi64 (a b : M256) : M256 := perHalf mm_unpackhi_epi64 a b
/-- `_mm256_alignr_epi8`: `_mm_alignr_epi8` in each half. Used in blake2b/src/avx2.rs 203, 211, 218, 227, …. -/
def mm256_alignr_epi8 (a b : M256) (imm : Nat) : M256 := perHalf (fun x y => mm_alignr_epi8 x y imm) a b
/-- `_mm256_shuffle_epi32`: 32-bit lanes chosen by two bits of `imm` each, in each half. Used in blake2b/src/avx2.rs 248,
312. -/
def mm256_shuffle_epi32 (a : M256) (imm : Nat) : M256 := perHalf (fun x _ => mm_shuffle_epi32 x imm) a a
/-- `_mm256_blend_epi32`: 32-bit lanes of `b` where the bit of `imm` is set, else of `a`. Used in blake2b/src/avx2.rs 180,
184, 189, 193, …. -/
def mm256_blend_epi32 (a b : M256) (imm : Nat) : M256 :=
  ofLanes 32 256 ((List.range 8).map fun i => if imm.testBit i then lane 32 b i else lane 32 a i)
/-- `_mm256_permute4x64_epi64`: 64-bit lanes chosen by two bits of `imm` each. Used in blake2b/src/avx2.rs 133, 134, 135,
140, …. -/
def mm256_permute4x64_epi64 (a : M256) (imm : Nat) : M256 :=
  ofLanes 64 256 [lane 64 a (imm % 4), lane 64 a (imm / 4 % 4), lane 64 a (imm / 16 % 4), lane 64 a (imm / 64 % 4)]
/-- `_mm256_broadcastsi128_si256`: the same 128 bits in both halves. Used in blake2b/src/avx2.rs 162, 163, 164, 165, …. -/
def mm256_broadcastsi128_si256 (a : M128) : M256 := ofLanes 128 256 [a, a]
/-- One 128-bit half of `_mm256_permute2x128_si256`: selected by four control bits, zero if bit 3 is set. -/
def select4 (a b : M256) (control : Nat) : M128 :=
  if control.testBit 3 then 0
  else match control % 4 with
    | 0 => lane 128 a 0
    | 1 => lane 128 a 1
    | 2 => lane 128 b 0
    | _ => lane 128 b 1
/-- `_mm256_permute2x128_si256`: each half chosen among the four halves, see `select4`. Used in blake2b/src/avx2.rs 670, 671;
blake2s/src/avx2.rs 276, 277. -/
def mm256_permute2x128_si256 (a b : M256) (imm : Nat) : M256 :=
  ofLanes 128 256 [select4 a b (imm % 16), select4 a b (imm / 16 % 16)]

end Blake2.X86
