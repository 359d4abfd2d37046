import Verif.Model.SnevesIntrinsics
/-!
# The transposed round shared by blake2bp.c and blake2sp.c

`BLAKE2B_ROUND_V4` and `BLAKE2S_ROUND_V8` have the same text, up to the rotations and the table of offsets. It is modelled once, over the
operations that differ.
-/
namespace Blake2.Sneves
open X86

/-- The macros a transposed round uses. benches/blake2-avx2-sneves/blake2-avx2/blake2b-common.h 36, 39, 43-46,
benches/blake2-avx2-sneves/blake2-avx2/blake2s-common.h 56, 59, 63-66. -/
structure VOps (R : Type) where
  /-- `ADD` -/
  add : R → R → R
  /-- `XOR` -/
  xor : R → R → R
  /-- `ROT32` (BLAKE2b) / `ROT16` (BLAKE2s) -/
  rotA : R → R
  /-- `ROT24` / `ROT12` -/
  rotB : R → R
  /-- `ROT16` / `ROT8` -/
  rotC : R → R
  /-- `ROT63` / `ROT7` -/
  rotD : R → R

/-- `LOAD((uint8_t const *)(m) + off)`, an aligned load from the array of sixteen vectors.
benches/blake2-avx2-sneves/blake2-avx2/blake2bp.c 215, benches/blake2-avx2-sneves/blake2-avx2/blake2sp.c 242. -/
def loadAt {R : Type} (m : Vector R 16) (off : Nat) : Res R :=
  if h : off % 32 = 0 ∧ off / 32 < 16 then .ok (m[off / 32]'h.2) else .error .ub

/-- The sixteen loads of a round, done first: they have no other effect.
benches/blake2-avx2-sneves/blake2-avx2/blake2bp.c 215-218, 243-246, 272-275, 300-303,
benches/blake2-avx2-sneves/blake2-avx2/blake2sp.c 242-245, 270-273, 299-302, 327-330. -/
def loadRow {R : Type} (m : Vector R 16) (row : Vector Nat 16) : Res (Vector R 16) := do
  let m0 ← loadAt m row[0]
  let m1 ← loadAt m row[1]
  let m2 ← loadAt m row[2]
  let m3 ← loadAt m row[3]
  let m4 ← loadAt m row[4]
  let m5 ← loadAt m row[5]
  let m6 ← loadAt m row[6]
  let m7 ← loadAt m row[7]
  let m8 ← loadAt m row[8]
  let m9 ← loadAt m row[9]
  let m10 ← loadAt m row[10]
  let m11 ← loadAt m row[11]
  let m12 ← loadAt m row[12]
  let m13 ← loadAt m row[13]
  let m14 ← loadAt m row[14]
  let m15 ← loadAt m row[15]
  .ok #v[m0, m1, m2, m3, m4, m5, m6, m7, m8, m9, m10, m11, m12, m13, m14, m15]

/-- First half of a round; `m` holds the vectors loaded. The elements of the array `v` are held in sixteen locals.
benches/blake2-avx2-sneves/blake2-avx2/blake2bp.c 215-270, benches/blake2-avx2-sneves/blake2-avx2/blake2sp.c 242-297. -/
def roundColumns {R : Type} (o : VOps R) (m v : Vector R 16) : Vector R 16 :=
  let v0 := v[0]
  let v1 := v[1]
  let v2 := v[2]
  let v3 := v[3]
  let v4 := v[4]
  let v5 := v[5]
  let v6 := v[6]
  let v7 := v[7]
  let v8 := v[8]
  let v9 := v[9]
  let v10 := v[10]
  let v11 := v[11]
  let v12 := v[12]
  let v13 := v[13]
  let v14 := v[14]
  let v15 := v[15]
  let v0 := o.add v0 m[0]
  let v1 := o.add v1 m[2]
  let v2 := o.add v2 m[4]
  let v3 := o.add v3 m[6]
  let v0 := o.add v0 v4
  let v1 := o.add v1 v5
  let v2 := o.add v2 v6
  let v3 := o.add v3 v7
  let v12 := o.xor v12 v0
  let v13 := o.xor v13 v1
  let v14 := o.xor v14 v2
  let v15 := o.xor v15 v3
  let v12 := o.rotA v12
  let v13 := o.rotA v13
  let v14 := o.rotA v14
  let v15 := o.rotA v15
  let v8 := o.add v8 v12
  let v9 := o.add v9 v13
  let v10 := o.add v10 v14
  let v11 := o.add v11 v15
  let v4 := o.xor v4 v8
  let v5 := o.xor v5 v9
  let v6 := o.xor v6 v10
  let v7 := o.xor v7 v11
  let v4 := o.rotB v4
  let v5 := o.rotB v5
  let v6 := o.rotB v6
  let v7 := o.rotB v7
  let v0 := o.add v0 m[1]
  let v1 := o.add v1 m[3]
  let v2 := o.add v2 m[5]
  let v3 := o.add v3 m[7]
  let v0 := o.add v0 v4
  let v1 := o.add v1 v5
  let v2 := o.add v2 v6
  let v3 := o.add v3 v7
  let v12 := o.xor v12 v0
  let v13 := o.xor v13 v1
  let v14 := o.xor v14 v2
  let v15 := o.xor v15 v3
  let v12 := o.rotC v12
  let v13 := o.rotC v13
  let v14 := o.rotC v14
  let v15 := o.rotC v15
  let v8 := o.add v8 v12
  let v9 := o.add v9 v13
  let v10 := o.add v10 v14
  let v11 := o.add v11 v15
  let v4 := o.xor v4 v8
  let v5 := o.xor v5 v9
  let v6 := o.xor v6 v10
  let v7 := o.xor v7 v11
  let v4 := o.rotD v4
  let v5 := o.rotD v5
  let v6 := o.rotD v6
  let v7 := o.rotD v7
  #v[v0, v1, v2, v3, v4, v5, v6, v7, v8, v9, v10, v11, v12, v13, v14, v15]

/-- Second half of a round. benches/blake2-avx2-sneves/blake2-avx2/blake2bp.c 272-327,
benches/blake2-avx2-sneves/blake2-avx2/blake2sp.c 299-354. -/
def roundDiagonals {R : Type} (o : VOps R) (m v : Vector R 16) : Vector R 16 :=
  let v0 := v[0]
  let v1 := v[1]
  let v2 := v[2]
  let v3 := v[3]
  let v4 := v[4]
  let v5 := v[5]
  let v6 := v[6]
  let v7 := v[7]
  let v8 := v[8]
  let v9 := v[9]
  let v10 := v[10]
  let v11 := v[11]
  let v12 := v[12]
  let v13 := v[13]
  let v14 := v[14]
  let v15 := v[15]
  let v0 := o.add v0 m[8]
  let v1 := o.add v1 m[10]
  let v2 := o.add v2 m[12]
  let v3 := o.add v3 m[14]
  let v0 := o.add v0 v5
  let v1 := o.add v1 v6
  let v2 := o.add v2 v7
  let v3 := o.add v3 v4
  let v15 := o.xor v15 v0
  let v12 := o.xor v12 v1
  let v13 := o.xor v13 v2
  let v14 := o.xor v14 v3
  let v15 := o.rotA v15
  let v12 := o.rotA v12
  let v13 := o.rotA v13
  let v14 := o.rotA v14
  let v10 := o.add v10 v15
  let v11 := o.add v11 v12
  let v8 := o.add v8 v13
  let v9 := o.add v9 v14
  let v5 := o.xor v5 v10
  let v6 := o.xor v6 v11
  let v7 := o.xor v7 v8
  let v4 := o.xor v4 v9
  let v5 := o.rotB v5
  let v6 := o.rotB v6
  let v7 := o.rotB v7
  let v4 := o.rotB v4
  let v0 := o.add v0 m[9]
  let v1 := o.add v1 m[11]
  let v2 := o.add v2 m[13]
  let v3 := o.add v3 m[15]
  let v0 := o.add v0 v5
  let v1 := o.add v1 v6
  let v2 := o.add v2 v7
  let v3 := o.add v3 v4
  let v15 := o.xor v15 v0
  let v12 := o.xor v12 v1
  let v13 := o.xor v13 v2
  let v14 := o.xor v14 v3
  let v15 := o.rotC v15
  let v12 := o.rotC v12
  let v13 := o.rotC v13
  let v14 := o.rotC v14
  let v10 := o.add v10 v15
  let v11 := o.add v11 v12
  let v8 := o.add v8 v13
  let v9 := o.add v9 v14
  let v5 := o.xor v5 v10
  let v6 := o.xor v6 v11
  let v7 := o.xor v7 v8
  let v4 := o.xor v4 v9
  let v5 := o.rotD v5
  let v6 := o.rotD v6
  let v7 := o.rotD v7
  let v4 := o.rotD v4
  #v[v0, v1, v2, v3, v4, v5, v6, v7, v8, v9, v10, v11, v12, v13, v14, v15]

/-- `BLAKE2B_ROUND_V4`, `BLAKE2S_ROUND_V8`. benches/blake2-avx2-sneves/blake2-avx2/blake2bp.c 214-328,
benches/blake2-avx2-sneves/blake2-avx2/blake2sp.c 241-355. -/
def roundV {R : Type} (o : VOps R) (w v : Vector R 16) (row : Vector Nat 16) : Res (Vector R 16) := do
  let m ← loadRow w row
  .ok (roundDiagonals o m (roundColumns o m v))

/-- The loop `t[i] = LOADU((m) + i * 32)`, for sixteen vectors. benches/blake2-avx2-sneves/blake2-avx2/blake2bp.c 382-384,
benches/blake2-avx2-sneves/blake2-avx2/blake2sp.c 437-439. -/
def loadMessage (m : List Byte) : Res (Vector M256 16) := do
  let t0 ← loadu256At m (0 * 32)
  let t1 ← loadu256At m (1 * 32)
  let t2 ← loadu256At m (2 * 32)
  let t3 ← loadu256At m (3 * 32)
  let t4 ← loadu256At m (4 * 32)
  let t5 ← loadu256At m (5 * 32)
  let t6 ← loadu256At m (6 * 32)
  let t7 ← loadu256At m (7 * 32)
  let t8 ← loadu256At m (8 * 32)
  let t9 ← loadu256At m (9 * 32)
  let t10 ← loadu256At m (10 * 32)
  let t11 ← loadu256At m (11 * 32)
  let t12 ← loadu256At m (12 * 32)
  let t13 ← loadu256At m (13 * 32)
  let t14 ← loadu256At m (14 * 32)
  let t15 ← loadu256At m (15 * 32)
  .ok #v[t0, t1, t2, t3, t4, t5, t6, t7, t8, t9, t10, t11, t12, t13, t14, t15]

end Blake2.Sneves
