import Verif.Model.SnevesB
import Verif.Model.SnevesRound
/-!
# Model of benches/blake2-avx2-sneves/blake2-avx2/blake2bp.c
-/
namespace Blake2.SnevesBp
open X86 SnevesB Sneves

/-- `blake2b_root`: the bytes at `out` afterwards. benches/blake2-avx2-sneves/blake2-avx2/blake2bp.c 180-191. -/
def blake2bRoot (p : Permute) (out in_ : List Byte) : Res (List Byte) := do
  let parameterBlock := mm256_set_epi64x 0 0x00004001 0 0x02040040
  let a := xor loadIV0 parameterBlock
  let b := loadIV4
  let (a, b) ← compressV1 p a b (in_.drop 0) 128 0 0 0
  let (a, b) ← compressV1 p a b (in_.drop 128) 256 0 (BitVec.allOnes 64) (BitVec.allOnes 64)
  let out ← storeu256At out 0 a
  storeu256At out 32 b

/-- `blake2b_sigma`: byte offsets. benches/blake2-avx2-sneves/blake2-avx2/blake2bp.c 17-30. -/
def blake2b_sigma : Vector (Vector Nat 16) 12 :=
  #v[#v[0, 32, 64, 96, 128, 160, 192, 224, 256, 288, 320, 352, 384, 416, 448, 480],
    #v[448, 320, 128, 256, 288, 480, 416, 192, 32, 384, 0, 64, 352, 224, 160, 96],
    #v[352, 256, 384, 0, 160, 64, 480, 416, 320, 448, 96, 192, 224, 32, 288, 128],
    #v[224, 288, 96, 32, 416, 384, 352, 448, 64, 192, 160, 320, 128, 0, 480, 256],
    #v[288, 0, 160, 224, 64, 128, 320, 480, 448, 32, 352, 384, 192, 256, 96, 416],
    #v[64, 384, 192, 320, 0, 352, 256, 96, 128, 416, 224, 160, 480, 448, 32, 288],
    #v[384, 160, 32, 480, 448, 416, 128, 320, 0, 224, 192, 96, 288, 64, 256, 352],
    #v[416, 352, 224, 448, 384, 32, 96, 288, 160, 0, 480, 128, 256, 192, 64, 320],
    #v[192, 480, 448, 288, 352, 96, 0, 256, 384, 64, 416, 224, 32, 128, 320, 160],
    #v[320, 64, 256, 128, 224, 192, 32, 160, 480, 352, 288, 448, 96, 384, 416, 0],
    #v[0, 32, 64, 96, 128, 160, 192, 224, 256, 288, 320, 352, 384, 416, 448, 480],
    #v[448, 320, 128, 256, 288, 480, 416, 192, 32, 384, 0, 64, 352, 224, 160, 96]]

/-- The macros of the round. benches/blake2-avx2-sneves/blake2-avx2/blake2b-common.h 36, 39, 43-46. -/
def ops : VOps M256 where
  add := add
  xor := xor
  rotA := rot32
  rotB := rot24
  rotC := rot16
  rotD := rot63

/-- `BLAKE2B_PACK_MSG_V4`. benches/blake2-avx2-sneves/blake2-avx2/blake2bp.c 343-377. -/
def packMsgV4 (m : Vector M256 16) : Vector M256 16 :=
  let t0 := mm256_unpacklo_epi64 m[0] m[4]
  let t1 := mm256_unpackhi_epi64 m[0] m[4]
  let t2 := mm256_unpacklo_epi64 m[8] m[12]
  let t3 := mm256_unpackhi_epi64 m[8] m[12]
  let w0 := mm256_permute2x128_si256 t0 t2 0x20
  let w2 := mm256_permute2x128_si256 t0 t2 0x31
  let w1 := mm256_permute2x128_si256 t1 t3 0x20
  let w3 := mm256_permute2x128_si256 t1 t3 0x31
  let t0 := mm256_unpacklo_epi64 m[1] m[5]
  let t1 := mm256_unpackhi_epi64 m[1] m[5]
  let t2 := mm256_unpacklo_epi64 m[9] m[13]
  let t3 := mm256_unpackhi_epi64 m[9] m[13]
  let w4 := mm256_permute2x128_si256 t0 t2 0x20
  let w6 := mm256_permute2x128_si256 t0 t2 0x31
  let w5 := mm256_permute2x128_si256 t1 t3 0x20
  let w7 := mm256_permute2x128_si256 t1 t3 0x31
  let t0 := mm256_unpacklo_epi64 m[2] m[6]
  let t1 := mm256_unpackhi_epi64 m[2] m[6]
  let t2 := mm256_unpacklo_epi64 m[10] m[14]
  let t3 := mm256_unpackhi_epi64 m[10] m[14]
  let w8 := mm256_permute2x128_si256 t0 t2 0x20
  let w10 := mm256_permute2x128_si256 t0 t2 0x31
  let w9 := mm256_permute2x128_si256 t1 t3 0x20
  let w11 := mm256_permute2x128_si256 t1 t3 0x31
  let t0 := mm256_unpacklo_epi64 m[3] m[7]
  let t1 := mm256_unpackhi_epi64 m[3] m[7]
  let t2 := mm256_unpacklo_epi64 m[11] m[15]
  let t3 := mm256_unpackhi_epi64 m[11] m[15]
  let w12 := mm256_permute2x128_si256 t0 t2 0x20
  let w14 := mm256_permute2x128_si256 t0 t2 0x31
  let w13 := mm256_permute2x128_si256 t1 t3 0x20
  let w15 := mm256_permute2x128_si256 t1 t3 0x31
  #v[w0, w1, w2, w3, w4, w5, w6, w7, w8, w9, w10, w11, w12, w13, w14, w15]

/-- `BLAKE2B_UNPACK_STATE_V4`. benches/blake2-avx2-sneves/blake2-avx2/blake2bp.c 389-407. -/
def unpackStateV4 (v : Vector M256 8) : Vector M256 8 :=
  let t0 := mm256_unpacklo_epi64 v[0] v[1]
  let t1 := mm256_unpackhi_epi64 v[0] v[1]
  let t2 := mm256_unpacklo_epi64 v[2] v[3]
  let t3 := mm256_unpackhi_epi64 v[2] v[3]
  let u0 := mm256_permute2x128_si256 t0 t2 0x20
  let u2 := mm256_permute2x128_si256 t1 t3 0x20
  let u4 := mm256_permute2x128_si256 t0 t2 0x31
  let u6 := mm256_permute2x128_si256 t1 t3 0x31
  let t0 := mm256_unpacklo_epi64 v[4] v[5]
  let t1 := mm256_unpackhi_epi64 v[4] v[5]
  let t2 := mm256_unpacklo_epi64 v[6] v[7]
  let t3 := mm256_unpackhi_epi64 v[6] v[7]
  let u1 := mm256_permute2x128_si256 t0 t2 0x20
  let u3 := mm256_permute2x128_si256 t1 t3 0x20
  let u5 := mm256_permute2x128_si256 t0 t2 0x31
  let u7 := mm256_permute2x128_si256 t1 t3 0x31
  #v[u0, u1, u2, u3, u4, u5, u6, u7]

/-- `BLAKE2B_LOADMSG_V4` under `PERMUTE_WITH_GATHER`. The offset `i * sizeof(uint64_t)` is written out.
benches/blake2-avx2-sneves/blake2-avx2/blake2bp.c 332-341. -/
def gatherMsgV4 (m : List Byte) : Res (Vector M256 16) := do
  let w0 ← mm256_i32gather_epi64 m 0 (mm_set_epi32 48 32 16 0) 8
  let w1 ← mm256_i32gather_epi64 m 8 (mm_set_epi32 48 32 16 0) 8
  let w2 ← mm256_i32gather_epi64 m 16 (mm_set_epi32 48 32 16 0) 8
  let w3 ← mm256_i32gather_epi64 m 24 (mm_set_epi32 48 32 16 0) 8
  let w4 ← mm256_i32gather_epi64 m 32 (mm_set_epi32 48 32 16 0) 8
  let w5 ← mm256_i32gather_epi64 m 40 (mm_set_epi32 48 32 16 0) 8
  let w6 ← mm256_i32gather_epi64 m 48 (mm_set_epi32 48 32 16 0) 8
  let w7 ← mm256_i32gather_epi64 m 56 (mm_set_epi32 48 32 16 0) 8
  let w8 ← mm256_i32gather_epi64 m 64 (mm_set_epi32 48 32 16 0) 8
  let w9 ← mm256_i32gather_epi64 m 72 (mm_set_epi32 48 32 16 0) 8
  let w10 ← mm256_i32gather_epi64 m 80 (mm_set_epi32 48 32 16 0) 8
  let w11 ← mm256_i32gather_epi64 m 88 (mm_set_epi32 48 32 16 0) 8
  let w12 ← mm256_i32gather_epi64 m 96 (mm_set_epi32 48 32 16 0) 8
  let w13 ← mm256_i32gather_epi64 m 104 (mm_set_epi32 48 32 16 0) 8
  let w14 ← mm256_i32gather_epi64 m 112 (mm_set_epi32 48 32 16 0) 8
  let w15 ← mm256_i32gather_epi64 m 120 (mm_set_epi32 48 32 16 0) 8
  .ok #v[w0, w1, w2, w3, w4, w5, w6, w7, w8, w9, w10, w11, w12, w13, w14, w15]

/-- `BLAKE2B_LOADMSG_V4`. benches/blake2-avx2-sneves/blake2-avx2/blake2bp.c 331-387. -/
def loadMsgV4 (p : Permute) (m : List Byte) : Res (Vector M256 16) :=
  match p with
  | .gather => gatherMsgV4 m
  | _ => do
    let t ← loadMessage m
    .ok (packMsgV4 t)

/-- `BLAKE2B_COMPRESS_V4`: the first eight elements of `v` afterwards; the other eight are set at the start
of each use. benches/blake2-avx2-sneves/blake2-avx2/blake2bp.c 409-431. -/
def compressV4 (p : Permute) (v : Vector M256 8) (m : List Byte) (counter flag : M256) : Res (Vector M256 8) := do
  let flagMask := mm256_set_epi64x (BitVec.allOnes 64) 0 0 0
  let iv := v
  let v : Vector M256 16 :=
    #v[v[0], v[1], v[2], v[3], v[4], v[5], v[6], v[7],
      mm256_set1_epi64x blake2b_IV[0],
      mm256_set1_epi64x blake2b_IV[1],
      mm256_set1_epi64x blake2b_IV[2],
      mm256_set1_epi64x blake2b_IV[3],
      xor (mm256_set1_epi64x blake2b_IV[4]) counter,
      mm256_set1_epi64x blake2b_IV[5],
      xor (mm256_set1_epi64x blake2b_IV[6]) flag,
      xor (mm256_set1_epi64x blake2b_IV[7]) (and flag flagMask)]
  let w ← loadMsgV4 p m
  let v ← blake2b_sigma.toList.foldlM (roundV ops w) v
  .ok (Vector.ofFn fun i : Fin 8 => xor (xor v[i.val] v[i.val + 8]) iv[i.val])

/-- The first loop of `blake2bp`: the state, the counters, and where `in` and `inlen` are afterwards.
benches/blake2-avx2-sneves/blake2-avx2/blake2bp.c 451-480. -/
def blake2bpLoop (p : Permute) : Nat → List Byte → Nat → M256 → Vector M256 8 → Res (Vector M256 8 × M256 × List Byte × Nat)
  | 0, _, _, _, _ => .error .diverge
  | fuel + 1, in_, inlen, counter, v => do
    let c0 := mm256_set_epi64x 384 256 128 0
    let c1 := mm256_set_epi64x (512+384+1) (512+256+1) (512+128+1) (512+1)
    let c2 := mm256_setzero_si256
    let c3 := mm256_set1_epi64x 128
    let (ptr, blockSize) ← (if inlen < 4 * 128 then do
        let buffer ← copyPadded in_ inlen (4 * 128)
        .ok (buffer, inlen)
      else .ok (in_, 4 * 128) : Res (List Byte × Nat))
    let x0 := mm256_set1_epi64x (BitVec.ofNat 64 inlen)
    let x1 := mm256_cmpgt_epi64 x0 c0
    let x2 := mm256_blendv_epi8 c2 (mm256_sub_epi64 x0 c0) x1
    let x3 := mm256_cmpgt_epi64 x2 c3
    let x4 := mm256_blendv_epi8 x2 c3 x3
    let f0 := mm256_cmpgt_epi64 c1 x0
    let counter := mm256_add_epi64 counter x4
    let v ← compressV4 p v ptr counter f0
    let in_ := in_.drop blockSize
    let inlen := inlen - blockSize
    if inlen ≥ 4 * 128 then blake2bpLoop p fuel in_ inlen counter v else .ok (v, counter, in_, inlen)

/-- The second loop of `blake2bp`, over the lanes given. `s[lane*2+0]` and `s[lane*2+1]` are the halves of the state of a lane; they are
kept as pairs. `counter.w[lane]` is lane `lane` of the vector: each lane is used in one turn only, so the vector is not written back.
benches/blake2-avx2-sneves/blake2-avx2/blake2bp.c 484-499. -/
def blake2bpTail (p : Permute) (counter : M256) : List (Fin 4) → List Byte → Nat → Vector (M256 × M256) 4 → Res (Vector (M256 × M256) 4)
  | [], _, _, s => .ok s
  | l :: ls, in_, inlen, s => do
    if inlen = 0 then .ok s else do
    let (ptr, blockSize) ← (if inlen < 128 then do
        let buffer ← copyPadded in_ inlen 128
        .ok (buffer, inlen)
      else .ok (in_, 128) : Res (List Byte × Nat))
    let t := lane 64 counter l.val + BitVec.ofNat 64 blockSize
    let r ← compressV1 p s[l].1 s[l].2 ptr t 0 (BitVec.allOnes 64) (if l.val = 3 then BitVec.allOnes 64 else 0)
    blake2bpTail p counter ls (in_.drop blockSize) (inlen - blockSize) (s.set l r)

/-- `blake2bp`: the bytes at `out` afterwards. benches/blake2-avx2-sneves/blake2-avx2/blake2bp.c 434-501. -/
def blake2bp (p : Permute) (out in_ : List Byte) (inlen : Nat) : Res (List Byte) := do
  let v := blake2b_IV.map mm256_set1_epi64x
  let v := v.set 0 (xor v[0] (mm256_set1_epi64x 0x02040040))
  let v := v.set 1 (xor v[1] (mm256_set_epi64x 3 2 1 0))
  let v := v.set 2 (xor v[2] (mm256_set1_epi64x 0x00004000))
  let counter := mm256_setzero_si256
  let (v, counter, in_, inlen) ← blake2bpLoop p (inlen + 1) in_ inlen counter v
  let u := unpackStateV4 v
  let s ← blake2bpTail p counter [0, 1, 2, 3] in_ inlen #v[(u[0], u[1]), (u[2], u[3]), (u[4], u[5]), (u[6], u[7])]
  blake2bRoot p out (s.toList.flatMap fun p => leBytes 32 p.1.toNat ++ leBytes 32 p.2.toNat)

end Blake2.SnevesBp
