import Verif.Proofs.NWayLaws
import Verif.Proofs.Intrinsics
import Verif.Model.SAvx2
/-! # The intrinsic wrappers of blake2s/src/avx2.rs satisfy the lane laws (generated text, one proof per law) -/
namespace Blake2

namespace SAvx2
open X86

theorem ln_eq (i : Fin 8) (x : M256) : impl.ln i x = lane 32 x i.val := by
  match i with
  | ⟨0, _⟩ => rfl
  | ⟨1, _⟩ => rfl
  | ⟨2, _⟩ => rfl
  | ⟨3, _⟩ => rfl
  | ⟨4, _⟩ => rfl
  | ⟨5, _⟩ => rfl
  | ⟨6, _⟩ => rfl
  | ⟨7, _⟩ => rfl

theorem ln_0 (h : 0 < 8) (x : M256) : impl.ln ⟨0, h⟩ x = lane 32 x 0 := rfl
theorem ln_1 (h : 1 < 8) (x : M256) : impl.ln ⟨1, h⟩ x = lane 32 x 1 := rfl
theorem ln_2 (h : 2 < 8) (x : M256) : impl.ln ⟨2, h⟩ x = lane 32 x 2 := rfl
theorem ln_3 (h : 3 < 8) (x : M256) : impl.ln ⟨3, h⟩ x = lane 32 x 3 := rfl
theorem ln_4 (h : 4 < 8) (x : M256) : impl.ln ⟨4, h⟩ x = lane 32 x 4 := rfl
theorem ln_5 (h : 5 < 8) (x : M256) : impl.ln ⟨5, h⟩ x = lane 32 x 5 := rfl
theorem ln_6 (h : 6 < 8) (x : M256) : impl.ln ⟨6, h⟩ x = lane 32 x 6 := rfl
theorem ln_7 (h : 7 < 8) (x : M256) : impl.ln ⟨7, h⟩ x = lane 32 x 7 := rfl

theorem laws : LaneLaws impl where
  add i x y := by
    simp only [ln_eq]; exact lane_zipLanes _ _ _ _ i.isLt
  xor i x y := by
    simp only [ln_eq]; exact lane_xor x y _
  eq i x y := by
    simp only [ln_eq]; exact lane_zipLanes _ _ _ _ i.isLt
  and i x y := by
    simp only [ln_eq]; exact lane_and x y _
  negateAnd i x y := by
    simp only [ln_eq]
    show lane 32 (~~~x &&& y) _ = _
    rw [lane_and, lane_not _ _ (by have := i.isLt; omega)]
  rotA i x := by
    simp only [ln_eq]
    show lane 32 (_ ||| _) _ = _
    rw [lane_or]
    show lane 32 (mapLanes 32 _ x) _ ||| lane 32 (mapLanes 32 _ x) _ = _
    rw [lane_mapLanes _ _ _ i.isLt, lane_mapLanes _ _ _ i.isLt]
    show _ = BitVec.rotateRight (w := 32) (lane 32 x i.val) 16
    rw [BitVec.rotateRight_def]
  rotB i x := by
    simp only [ln_eq]
    show lane 32 (_ ||| _) _ = _
    rw [lane_or]
    show lane 32 (mapLanes 32 _ x) _ ||| lane 32 (mapLanes 32 _ x) _ = _
    rw [lane_mapLanes _ _ _ i.isLt, lane_mapLanes _ _ _ i.isLt]
    show _ = BitVec.rotateRight (w := 32) (lane 32 x i.val) 12
    rw [BitVec.rotateRight_def]
  rotC i x := by
    simp only [ln_eq]
    show lane 32 (_ ||| _) _ = _
    rw [lane_or]
    show lane 32 (mapLanes 32 _ x) _ ||| lane 32 (mapLanes 32 _ x) _ = _
    rw [lane_mapLanes _ _ _ i.isLt, lane_mapLanes _ _ _ i.isLt]
    show _ = BitVec.rotateRight (w := 32) (lane 32 x i.val) 8
    rw [BitVec.rotateRight_def]
  rotD i x := by
    simp only [ln_eq]
    show lane 32 (_ ||| _) _ = _
    rw [lane_or]
    show lane 32 (mapLanes 32 _ x) _ ||| lane 32 (mapLanes 32 _ x) _ = _
    rw [lane_mapLanes _ _ _ i.isLt, lane_mapLanes _ _ _ i.isLt]
    show _ = BitVec.rotateRight (w := 32) (lane 32 x i.val) 7
    rw [BitVec.rotateRight_def]
  set1 i w := by
    match i with
    | ⟨0, _⟩ => exact lane_d8_0 w w w w w w w w
    | ⟨1, _⟩ => exact lane_d8_1 w w w w w w w w
    | ⟨2, _⟩ => exact lane_d8_2 w w w w w w w w
    | ⟨3, _⟩ => exact lane_d8_3 w w w w w w w w
    | ⟨4, _⟩ => exact lane_d8_4 w w w w w w w w
    | ⟨5, _⟩ => exact lane_d8_5 w w w w w w w w
    | ⟨6, _⟩ => exact lane_d8_6 w w w w w w w w
    | ⟨7, _⟩ => exact lane_d8_7 w w w w w w w w
  setN i v := by
    match i with
    | ⟨0, _⟩ => exact lane_d8_0 v[0] v[1] v[2] v[3] v[4] v[5] v[6] v[7]
    | ⟨1, _⟩ => exact lane_d8_1 v[0] v[1] v[2] v[3] v[4] v[5] v[6] v[7]
    | ⟨2, _⟩ => exact lane_d8_2 v[0] v[1] v[2] v[3] v[4] v[5] v[6] v[7]
    | ⟨3, _⟩ => exact lane_d8_3 v[0] v[1] v[2] v[3] v[4] v[5] v[6] v[7]
    | ⟨4, _⟩ => exact lane_d8_4 v[0] v[1] v[2] v[3] v[4] v[5] v[6] v[7]
    | ⟨5, _⟩ => exact lane_d8_5 v[0] v[1] v[2] v[3] v[4] v[5] v[6] v[7]
    | ⟨6, _⟩ => exact lane_d8_6 v[0] v[1] v[2] v[3] v[4] v[5] v[6] v[7]
    | ⟨7, _⟩ => exact lane_d8_7 v[0] v[1] v[2] v[3] v[4] v[5] v[6] v[7]

theorem transposeVecs_eq (a0 a1 a2 a3 a4 a5 a6 a7 b0 b1 b2 b3 b4 b5 b6 b7 c0 c1 c2 c3 c4 c5 c6 c7 d0 d1 d2 d3 d4 d5 d6 d7 e0 e1 e2 e3 e4 e5 e6 e7 f0 f1 f2 f3 f4 f5 f6 f7 g0 g1 g2 g3 g4 g5 g6 g7 h0 h1 h2 h3 h4 h5 h6 h7 : BitVec 32) :
    transposeVecs (d8 a0 a1 a2 a3 a4 a5 a6 a7) (d8 b0 b1 b2 b3 b4 b5 b6 b7) (d8 c0 c1 c2 c3 c4 c5 c6 c7) (d8 d0 d1 d2 d3 d4 d5 d6 d7) (d8 e0 e1 e2 e3 e4 e5 e6 e7) (d8 f0 f1 f2 f3 f4 f5 f6 f7) (d8 g0 g1 g2 g3 g4 g5 g6 g7) (d8 h0 h1 h2 h3 h4 h5 h6 h7) =
      #v[d8 a0 b0 c0 d0 e0 f0 g0 h0, d8 a1 b1 c1 d1 e1 f1 g1 h1, d8 a2 b2 c2 d2 e2 f2 g2 h2, d8 a3 b3 c3 d3 e3 f3 g3 h3, d8 a4 b4 c4 d4 e4 f4 g4 h4, d8 a5 b5 c5 d5 e5 f5 g5 h5, d8 a6 b6 c6 d6 e6 f6 g6 h6, d8 a7 b7 c7 d7 e7 f7 g7 h7] := by
  simp only [transposeVecs, interleave128, unpacklo32_d8, unpackhi32_d8, unpacklo64_d8, unpackhi64_d8, permute2x128_20_d8, permute2x128_31_d8]
  skip

theorem transposeVecs_lanes (a b c d e f g h : M256) :
    transposeVecs a b c d e f g h =
      #v[d8 (lane 32 a 0) (lane 32 b 0) (lane 32 c 0) (lane 32 d 0) (lane 32 e 0) (lane 32 f 0) (lane 32 g 0) (lane 32 h 0), d8 (lane 32 a 1) (lane 32 b 1) (lane 32 c 1) (lane 32 d 1) (lane 32 e 1) (lane 32 f 1) (lane 32 g 1) (lane 32 h 1), d8 (lane 32 a 2) (lane 32 b 2) (lane 32 c 2) (lane 32 d 2) (lane 32 e 2) (lane 32 f 2) (lane 32 g 2) (lane 32 h 2), d8 (lane 32 a 3) (lane 32 b 3) (lane 32 c 3) (lane 32 d 3) (lane 32 e 3) (lane 32 f 3) (lane 32 g 3) (lane 32 h 3), d8 (lane 32 a 4) (lane 32 b 4) (lane 32 c 4) (lane 32 d 4) (lane 32 e 4) (lane 32 f 4) (lane 32 g 4) (lane 32 h 4), d8 (lane 32 a 5) (lane 32 b 5) (lane 32 c 5) (lane 32 d 5) (lane 32 e 5) (lane 32 f 5) (lane 32 g 5) (lane 32 h 5), d8 (lane 32 a 6) (lane 32 b 6) (lane 32 c 6) (lane 32 d 6) (lane 32 e 6) (lane 32 f 6) (lane 32 g 6) (lane 32 h 6), d8 (lane 32 a 7) (lane 32 b 7) (lane 32 c 7) (lane 32 d 7) (lane 32 e 7) (lane 32 f 7) (lane 32 g 7) (lane 32 h 7)] := by

  rw [← transposeVecs_eq, ← d8_eta a, ← d8_eta b, ← d8_eta c, ← d8_eta d, ← d8_eta e, ← d8_eta f, ← d8_eta g, ← d8_eta h]

theorem loadu_eq (x0 x1 x2 x3 x4 x5 x6 x7 : BitVec 32) : loadu #v[x0, x1, x2, x3, x4, x5, x6, x7] = d8 x0 x1 x2 x3 x4 x5 x6 x7 := rfl

theorem loadBlock_lane (block : List Byte) (k i : Nat) (hi : i < 8) :
    lane 32 (loadBlock block k) i = fromLE 32 ((block.drop ((8 * k + i) * 4)).take 4) := by
  show lane 32 (BitVec.ofNat 256 (leNat _)) i = _
  rw [lane_leNat _ 4 i rfl (by omega), List.drop_take, List.drop_drop, List.take_take]
  congr 2
  · omega
  · congr 1; omega

theorem transposeState_eq (w : Vector (Vector (BitVec 32) 8) 8) :
    transposeState w = #v[d8 w[0][0] w[1][0] w[2][0] w[3][0] w[4][0] w[5][0] w[6][0] w[7][0], d8 w[0][1] w[1][1] w[2][1] w[3][1] w[4][1] w[5][1] w[6][1] w[7][1], d8 w[0][2] w[1][2] w[2][2] w[3][2] w[4][2] w[5][2] w[6][2] w[7][2], d8 w[0][3] w[1][3] w[2][3] w[3][3] w[4][3] w[5][3] w[6][3] w[7][3], d8 w[0][4] w[1][4] w[2][4] w[3][4] w[4][4] w[5][4] w[6][4] w[7][4], d8 w[0][5] w[1][5] w[2][5] w[3][5] w[4][5] w[5][5] w[6][5] w[7][5], d8 w[0][6] w[1][6] w[2][6] w[3][6] w[4][6] w[5][6] w[6][6] w[7][6], d8 w[0][7] w[1][7] w[2][7] w[3][7] w[4][7] w[5][7] w[6][7] w[7][7]] := by
  simp only [transposeState, loadu_eq, transposeVecs_eq]
  rfl

theorem untransposeState_eq (h : Vector M256 8) :
    untransposeState h = #v[#v[lane 32 h[0] 0, lane 32 h[1] 0, lane 32 h[2] 0, lane 32 h[3] 0, lane 32 h[4] 0, lane 32 h[5] 0, lane 32 h[6] 0, lane 32 h[7] 0], #v[lane 32 h[0] 1, lane 32 h[1] 1, lane 32 h[2] 1, lane 32 h[3] 1, lane 32 h[4] 1, lane 32 h[5] 1, lane 32 h[6] 1, lane 32 h[7] 1], #v[lane 32 h[0] 2, lane 32 h[1] 2, lane 32 h[2] 2, lane 32 h[3] 2, lane 32 h[4] 2, lane 32 h[5] 2, lane 32 h[6] 2, lane 32 h[7] 2], #v[lane 32 h[0] 3, lane 32 h[1] 3, lane 32 h[2] 3, lane 32 h[3] 3, lane 32 h[4] 3, lane 32 h[5] 3, lane 32 h[6] 3, lane 32 h[7] 3], #v[lane 32 h[0] 4, lane 32 h[1] 4, lane 32 h[2] 4, lane 32 h[3] 4, lane 32 h[4] 4, lane 32 h[5] 4, lane 32 h[6] 4, lane 32 h[7] 4], #v[lane 32 h[0] 5, lane 32 h[1] 5, lane 32 h[2] 5, lane 32 h[3] 5, lane 32 h[4] 5, lane 32 h[5] 5, lane 32 h[6] 5, lane 32 h[7] 5], #v[lane 32 h[0] 6, lane 32 h[1] 6, lane 32 h[2] 6, lane 32 h[3] 6, lane 32 h[4] 6, lane 32 h[5] 6, lane 32 h[6] 6, lane 32 h[7] 6], #v[lane 32 h[0] 7, lane 32 h[1] 7, lane 32 h[2] 7, lane 32 h[3] 7, lane 32 h[4] 7, lane 32 h[5] 7, lane 32 h[6] 7, lane 32 h[7] 7]] := by
  simp only [untransposeState, transposeVecs_lanes]
  simp [storeu]
  try (and_intros <;> rfl)

theorem transposeMsg_eq (blocks : Vector (List Byte) 8) :
    transposeMsg blocks = #v[d8 (fromLE 32 ((blocks[0].drop (0 * 4)).take 4)) (fromLE 32 ((blocks[1].drop (0 * 4)).take 4)) (fromLE 32 ((blocks[2].drop (0 * 4)).take 4)) (fromLE 32 ((blocks[3].drop (0 * 4)).take 4)) (fromLE 32 ((blocks[4].drop (0 * 4)).take 4)) (fromLE 32 ((blocks[5].drop (0 * 4)).take 4)) (fromLE 32 ((blocks[6].drop (0 * 4)).take 4)) (fromLE 32 ((blocks[7].drop (0 * 4)).take 4)), d8 (fromLE 32 ((blocks[0].drop (1 * 4)).take 4)) (fromLE 32 ((blocks[1].drop (1 * 4)).take 4)) (fromLE 32 ((blocks[2].drop (1 * 4)).take 4)) (fromLE 32 ((blocks[3].drop (1 * 4)).take 4)) (fromLE 32 ((blocks[4].drop (1 * 4)).take 4)) (fromLE 32 ((blocks[5].drop (1 * 4)).take 4)) (fromLE 32 ((blocks[6].drop (1 * 4)).take 4)) (fromLE 32 ((blocks[7].drop (1 * 4)).take 4)), d8 (fromLE 32 ((blocks[0].drop (2 * 4)).take 4)) (fromLE 32 ((blocks[1].drop (2 * 4)).take 4)) (fromLE 32 ((blocks[2].drop (2 * 4)).take 4)) (fromLE 32 ((blocks[3].drop (2 * 4)).take 4)) (fromLE 32 ((blocks[4].drop (2 * 4)).take 4)) (fromLE 32 ((blocks[5].drop (2 * 4)).take 4)) (fromLE 32 ((blocks[6].drop (2 * 4)).take 4)) (fromLE 32 ((blocks[7].drop (2 * 4)).take 4)), d8 (fromLE 32 ((blocks[0].drop (3 * 4)).take 4)) (fromLE 32 ((blocks[1].drop (3 * 4)).take 4)) (fromLE 32 ((blocks[2].drop (3 * 4)).take 4)) (fromLE 32 ((blocks[3].drop (3 * 4)).take 4)) (fromLE 32 ((blocks[4].drop (3 * 4)).take 4)) (fromLE 32 ((blocks[5].drop (3 * 4)).take 4)) (fromLE 32 ((blocks[6].drop (3 * 4)).take 4)) (fromLE 32 ((blocks[7].drop (3 * 4)).take 4)), d8 (fromLE 32 ((blocks[0].drop (4 * 4)).take 4)) (fromLE 32 ((blocks[1].drop (4 * 4)).take 4)) (fromLE 32 ((blocks[2].drop (4 * 4)).take 4)) (fromLE 32 ((blocks[3].drop (4 * 4)).take 4)) (fromLE 32 ((blocks[4].drop (4 * 4)).take 4)) (fromLE 32 ((blocks[5].drop (4 * 4)).take 4)) (fromLE 32 ((blocks[6].drop (4 * 4)).take 4)) (fromLE 32 ((blocks[7].drop (4 * 4)).take 4)), d8 (fromLE 32 ((blocks[0].drop (5 * 4)).take 4)) (fromLE 32 ((blocks[1].drop (5 * 4)).take 4)) (fromLE 32 ((blocks[2].drop (5 * 4)).take 4)) (fromLE 32 ((blocks[3].drop (5 * 4)).take 4)) (fromLE 32 ((blocks[4].drop (5 * 4)).take 4)) (fromLE 32 ((blocks[5].drop (5 * 4)).take 4)) (fromLE 32 ((blocks[6].drop (5 * 4)).take 4)) (fromLE 32 ((blocks[7].drop (5 * 4)).take 4)), d8 (fromLE 32 ((blocks[0].drop (6 * 4)).take 4)) (fromLE 32 ((blocks[1].drop (6 * 4)).take 4)) (fromLE 32 ((blocks[2].drop (6 * 4)).take 4)) (fromLE 32 ((blocks[3].drop (6 * 4)).take 4)) (fromLE 32 ((blocks[4].drop (6 * 4)).take 4)) (fromLE 32 ((blocks[5].drop (6 * 4)).take 4)) (fromLE 32 ((blocks[6].drop (6 * 4)).take 4)) (fromLE 32 ((blocks[7].drop (6 * 4)).take 4)), d8 (fromLE 32 ((blocks[0].drop (7 * 4)).take 4)) (fromLE 32 ((blocks[1].drop (7 * 4)).take 4)) (fromLE 32 ((blocks[2].drop (7 * 4)).take 4)) (fromLE 32 ((blocks[3].drop (7 * 4)).take 4)) (fromLE 32 ((blocks[4].drop (7 * 4)).take 4)) (fromLE 32 ((blocks[5].drop (7 * 4)).take 4)) (fromLE 32 ((blocks[6].drop (7 * 4)).take 4)) (fromLE 32 ((blocks[7].drop (7 * 4)).take 4)), d8 (fromLE 32 ((blocks[0].drop (8 * 4)).take 4)) (fromLE 32 ((blocks[1].drop (8 * 4)).take 4)) (fromLE 32 ((blocks[2].drop (8 * 4)).take 4)) (fromLE 32 ((blocks[3].drop (8 * 4)).take 4)) (fromLE 32 ((blocks[4].drop (8 * 4)).take 4)) (fromLE 32 ((blocks[5].drop (8 * 4)).take 4)) (fromLE 32 ((blocks[6].drop (8 * 4)).take 4)) (fromLE 32 ((blocks[7].drop (8 * 4)).take 4)), d8 (fromLE 32 ((blocks[0].drop (9 * 4)).take 4)) (fromLE 32 ((blocks[1].drop (9 * 4)).take 4)) (fromLE 32 ((blocks[2].drop (9 * 4)).take 4)) (fromLE 32 ((blocks[3].drop (9 * 4)).take 4)) (fromLE 32 ((blocks[4].drop (9 * 4)).take 4)) (fromLE 32 ((blocks[5].drop (9 * 4)).take 4)) (fromLE 32 ((blocks[6].drop (9 * 4)).take 4)) (fromLE 32 ((blocks[7].drop (9 * 4)).take 4)), d8 (fromLE 32 ((blocks[0].drop (10 * 4)).take 4)) (fromLE 32 ((blocks[1].drop (10 * 4)).take 4)) (fromLE 32 ((blocks[2].drop (10 * 4)).take 4)) (fromLE 32 ((blocks[3].drop (10 * 4)).take 4)) (fromLE 32 ((blocks[4].drop (10 * 4)).take 4)) (fromLE 32 ((blocks[5].drop (10 * 4)).take 4)) (fromLE 32 ((blocks[6].drop (10 * 4)).take 4)) (fromLE 32 ((blocks[7].drop (10 * 4)).take 4)), d8 (fromLE 32 ((blocks[0].drop (11 * 4)).take 4)) (fromLE 32 ((blocks[1].drop (11 * 4)).take 4)) (fromLE 32 ((blocks[2].drop (11 * 4)).take 4)) (fromLE 32 ((blocks[3].drop (11 * 4)).take 4)) (fromLE 32 ((blocks[4].drop (11 * 4)).take 4)) (fromLE 32 ((blocks[5].drop (11 * 4)).take 4)) (fromLE 32 ((blocks[6].drop (11 * 4)).take 4)) (fromLE 32 ((blocks[7].drop (11 * 4)).take 4)), d8 (fromLE 32 ((blocks[0].drop (12 * 4)).take 4)) (fromLE 32 ((blocks[1].drop (12 * 4)).take 4)) (fromLE 32 ((blocks[2].drop (12 * 4)).take 4)) (fromLE 32 ((blocks[3].drop (12 * 4)).take 4)) (fromLE 32 ((blocks[4].drop (12 * 4)).take 4)) (fromLE 32 ((blocks[5].drop (12 * 4)).take 4)) (fromLE 32 ((blocks[6].drop (12 * 4)).take 4)) (fromLE 32 ((blocks[7].drop (12 * 4)).take 4)), d8 (fromLE 32 ((blocks[0].drop (13 * 4)).take 4)) (fromLE 32 ((blocks[1].drop (13 * 4)).take 4)) (fromLE 32 ((blocks[2].drop (13 * 4)).take 4)) (fromLE 32 ((blocks[3].drop (13 * 4)).take 4)) (fromLE 32 ((blocks[4].drop (13 * 4)).take 4)) (fromLE 32 ((blocks[5].drop (13 * 4)).take 4)) (fromLE 32 ((blocks[6].drop (13 * 4)).take 4)) (fromLE 32 ((blocks[7].drop (13 * 4)).take 4)), d8 (fromLE 32 ((blocks[0].drop (14 * 4)).take 4)) (fromLE 32 ((blocks[1].drop (14 * 4)).take 4)) (fromLE 32 ((blocks[2].drop (14 * 4)).take 4)) (fromLE 32 ((blocks[3].drop (14 * 4)).take 4)) (fromLE 32 ((blocks[4].drop (14 * 4)).take 4)) (fromLE 32 ((blocks[5].drop (14 * 4)).take 4)) (fromLE 32 ((blocks[6].drop (14 * 4)).take 4)) (fromLE 32 ((blocks[7].drop (14 * 4)).take 4)), d8 (fromLE 32 ((blocks[0].drop (15 * 4)).take 4)) (fromLE 32 ((blocks[1].drop (15 * 4)).take 4)) (fromLE 32 ((blocks[2].drop (15 * 4)).take 4)) (fromLE 32 ((blocks[3].drop (15 * 4)).take 4)) (fromLE 32 ((blocks[4].drop (15 * 4)).take 4)) (fromLE 32 ((blocks[5].drop (15 * 4)).take 4)) (fromLE 32 ((blocks[6].drop (15 * 4)).take 4)) (fromLE 32 ((blocks[7].drop (15 * 4)).take 4))] := by
  simp only [transposeMsg, transposeVecs_lanes]
  simp only [loadBlock_lane _ _ _ (show 0 < 8 by omega), loadBlock_lane _ _ _ (show 1 < 8 by omega),
    loadBlock_lane _ _ _ (show 2 < 8 by omega), loadBlock_lane _ _ _ (show 3 < 8 by omega),
    loadBlock_lane _ _ _ (show 4 < 8 by omega), loadBlock_lane _ _ _ (show 5 < 8 by omega),
    loadBlock_lane _ _ _ (show 6 < 8 by omega), loadBlock_lane _ _ _ (show 7 < 8 by omega)]
  rfl

theorem tlaws : TransposeLaws impl where
  state i w := by
    refine (congrArg (Vector.map (impl.ln i)) (transposeState_eq w)).trans ?_
    rw [map8]
    match i with
    | ⟨0, h⟩ =>
      simp only [ln_0, lane_d8_0]
      exact (vec8_eta w[0]).symm
    | ⟨1, h⟩ =>
      simp only [ln_1, lane_d8_1]
      exact (vec8_eta w[1]).symm
    | ⟨2, h⟩ =>
      simp only [ln_2, lane_d8_2]
      exact (vec8_eta w[2]).symm
    | ⟨3, h⟩ =>
      simp only [ln_3, lane_d8_3]
      exact (vec8_eta w[3]).symm
    | ⟨4, h⟩ =>
      simp only [ln_4, lane_d8_4]
      exact (vec8_eta w[4]).symm
    | ⟨5, h⟩ =>
      simp only [ln_5, lane_d8_5]
      exact (vec8_eta w[5]).symm
    | ⟨6, h⟩ =>
      simp only [ln_6, lane_d8_6]
      exact (vec8_eta w[6]).symm
    | ⟨7, h⟩ =>
      simp only [ln_7, lane_d8_7]
      exact (vec8_eta w[7]).symm
  unstate i h := by
    refine (congrArg (fun v => v[i]) (untransposeState_eq h)).trans ?_
    rw [vec8_eta h, map8]
    match i with
    | ⟨0, _⟩ => rfl
    | ⟨1, _⟩ => rfl
    | ⟨2, _⟩ => rfl
    | ⟨3, _⟩ => rfl
    | ⟨4, _⟩ => rfl
    | ⟨5, _⟩ => rfl
    | ⟨6, _⟩ => rfl
    | ⟨7, _⟩ => rfl
  msg i blocks := by
    refine (congrArg (Vector.map (impl.ln i)) (transposeMsg_eq blocks)).trans ?_
    rw [map16, vec16_eta (Portable.msgWords .s blocks[i])]
    match i with
    | ⟨0, _⟩ =>
      simp only [ln_0, lane_d8_0]
      simp only [Portable.msgWords]
      rfl
    | ⟨1, _⟩ =>
      simp only [ln_1, lane_d8_1]
      simp only [Portable.msgWords]
      rfl
    | ⟨2, _⟩ =>
      simp only [ln_2, lane_d8_2]
      simp only [Portable.msgWords]
      rfl
    | ⟨3, _⟩ =>
      simp only [ln_3, lane_d8_3]
      simp only [Portable.msgWords]
      rfl
    | ⟨4, _⟩ =>
      simp only [ln_4, lane_d8_4]
      simp only [Portable.msgWords]
      rfl
    | ⟨5, _⟩ =>
      simp only [ln_5, lane_d8_5]
      simp only [Portable.msgWords]
      rfl
    | ⟨6, _⟩ =>
      simp only [ln_6, lane_d8_6]
      simp only [Portable.msgWords]
      rfl
    | ⟨7, _⟩ =>
      simp only [ln_7, lane_d8_7]
      simp only [Portable.msgWords]
      rfl

end SAvx2

end Blake2
