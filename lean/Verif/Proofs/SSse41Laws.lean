import Verif.Proofs.NWayLaws
import Verif.Proofs.Intrinsics
import Verif.Model.SSse41
/-! # The intrinsic wrappers of blake2s/src/sse41.rs satisfy the lane laws (generated text, one proof per law) -/
namespace Blake2

namespace SSse41
open X86

theorem ln_eq (i : Fin 4) (x : M128) : impl.ln i x = lane 32 x i.val := by
  match i with
  | ⟨0, _⟩ => rfl
  | ⟨1, _⟩ => rfl
  | ⟨2, _⟩ => rfl
  | ⟨3, _⟩ => rfl

theorem ln_0 (h : 0 < 4) (x : M128) : impl.ln ⟨0, h⟩ x = lane 32 x 0 := rfl
theorem ln_1 (h : 1 < 4) (x : M128) : impl.ln ⟨1, h⟩ x = lane 32 x 1 := rfl
theorem ln_2 (h : 2 < 4) (x : M128) : impl.ln ⟨2, h⟩ x = lane 32 x 2 := rfl
theorem ln_3 (h : 3 < 4) (x : M128) : impl.ln ⟨3, h⟩ x = lane 32 x 3 := rfl

theorem laws : LaneLaws impl where
  add i x y := by
    simp only [ln_eq]; exact lane_zipLanes _ _ _ _ i.isLt
  xor i x y := by
    simp only [ln_eq]; exact lane_xor x y _
  eq i x y := by
    simp only [ln_eq]; exact lane_zipLanes _ _ _ _ i.isLt
  and i x y := by
    simp only [ln_eq]; exact lane_and x y _
  negateAnd i x y := by
    simp only [ln_eq]
    show lane 32 (~~~x &&& y) _ = _
    rw [lane_and, lane_not _ _ (by have := i.isLt; omega)]
  rotA i x := by
    simp only [ln_eq]
    show lane 32 (_ ||| _) _ = _
    rw [lane_or]
    show lane 32 (mapLanes 32 _ x) _ ||| lane 32 (mapLanes 32 _ x) _ = _
    rw [lane_mapLanes _ _ _ i.isLt, lane_mapLanes _ _ _ i.isLt]
    show _ = BitVec.rotateRight (w := 32) (lane 32 x i.val) 16
    rw [BitVec.rotateRight_def]
  rotB i x := by
    simp only [ln_eq]
    show lane 32 (_ ||| _) _ = _
    rw [lane_or]
    show lane 32 (mapLanes 32 _ x) _ ||| lane 32 (mapLanes 32 _ x) _ = _
    rw [lane_mapLanes _ _ _ i.isLt, lane_mapLanes _ _ _ i.isLt]
    show _ = BitVec.rotateRight (w := 32) (lane 32 x i.val) 12
    rw [BitVec.rotateRight_def]
  rotC i x := by
    simp only [ln_eq]
    show lane 32 (_ ||| _) _ = _
    rw [lane_or]
    show lane 32 (mapLanes 32 _ x) _ ||| lane 32 (mapLanes 32 _ x) _ = _
    rw [lane_mapLanes _ _ _ i.isLt, lane_mapLanes _ _ _ i.isLt]
    show _ = BitVec.rotateRight (w := 32) (lane 32 x i.val) 8
    rw [BitVec.rotateRight_def]
  rotD i x := by
    simp only [ln_eq]
    show lane 32 (_ ||| _) _ = _
    rw [lane_or]
    show lane 32 (mapLanes 32 _ x) _ ||| lane 32 (mapLanes 32 _ x) _ = _
    rw [lane_mapLanes _ _ _ i.isLt, lane_mapLanes _ _ _ i.isLt]
    show _ = BitVec.rotateRight (w := 32) (lane 32 x i.val) 7
    rw [BitVec.rotateRight_def]
  set1 i w := by
    match i with
    | ⟨0, _⟩ => exact lane_d4_0 w w w w
    | ⟨1, _⟩ => exact lane_d4_1 w w w w
    | ⟨2, _⟩ => exact lane_d4_2 w w w w
    | ⟨3, _⟩ => exact lane_d4_3 w w w w
  setN i v := by
    match i with
    | ⟨0, _⟩ => exact lane_d4_0 v[0] v[1] v[2] v[3]
    | ⟨1, _⟩ => exact lane_d4_1 v[0] v[1] v[2] v[3]
    | ⟨2, _⟩ => exact lane_d4_2 v[0] v[1] v[2] v[3]
    | ⟨3, _⟩ => exact lane_d4_3 v[0] v[1] v[2] v[3]

theorem transposeVecs_eq (a0 a1 a2 a3 b0 b1 b2 b3 c0 c1 c2 c3 d0 d1 d2 d3 : BitVec 32) :
    transposeVecs (d4 a0 a1 a2 a3) (d4 b0 b1 b2 b3) (d4 c0 c1 c2 c3) (d4 d0 d1 d2 d3) =
      #v[d4 a0 b0 c0 d0, d4 a1 b1 c1 d1, d4 a2 b2 c2 d2, d4 a3 b3 c3 d3] := by
  simp only [transposeVecs, unpacklo32_d4, unpackhi32_d4, unpacklo64_d4, unpackhi64_d4]
  skip

theorem transposeVecs_lanes (a b c d : M128) :
    transposeVecs a b c d =
      #v[d4 (lane 32 a 0) (lane 32 b 0) (lane 32 c 0) (lane 32 d 0), d4 (lane 32 a 1) (lane 32 b 1) (lane 32 c 1) (lane 32 d 1), d4 (lane 32 a 2) (lane 32 b 2) (lane 32 c 2) (lane 32 d 2), d4 (lane 32 a 3) (lane 32 b 3) (lane 32 c 3) (lane 32 d 3)] := by

  rw [← transposeVecs_eq, ← d4_eta a, ← d4_eta b, ← d4_eta c, ← d4_eta d]

theorem loadu_eq (x0 x1 x2 x3 : BitVec 32) : loadu #v[x0, x1, x2, x3] = d4 x0 x1 x2 x3 := rfl

theorem loadBlock_lane (block : List Byte) (k i : Nat) (hi : i < 4) :
    lane 32 (loadBlock block k) i = fromLE 32 ((block.drop ((4 * k + i) * 4)).take 4) := by
  show lane 32 (BitVec.ofNat 128 (leNat _)) i = _
  rw [lane_leNat _ 4 i rfl (by omega), List.drop_take, List.drop_drop, List.take_take]
  congr 2
  · omega
  · congr 1; omega

theorem transposeState_eq (w : Vector (Vector (BitVec 32) 8) 4) :
    transposeState w = #v[d4 w[0][0] w[1][0] w[2][0] w[3][0], d4 w[0][1] w[1][1] w[2][1] w[3][1], d4 w[0][2] w[1][2] w[2][2] w[3][2], d4 w[0][3] w[1][3] w[2][3] w[3][3], d4 w[0][4] w[1][4] w[2][4] w[3][4], d4 w[0][5] w[1][5] w[2][5] w[3][5], d4 w[0][6] w[1][6] w[2][6] w[3][6], d4 w[0][7] w[1][7] w[2][7] w[3][7]] := by
  simp only [transposeState, loadu_eq, transposeVecs_eq]
  rfl

theorem untransposeState_eq (h : Vector M128 8) :
    untransposeState h = #v[#v[lane 32 h[0] 0, lane 32 h[1] 0, lane 32 h[2] 0, lane 32 h[3] 0, lane 32 h[4] 0, lane 32 h[5] 0, lane 32 h[6] 0, lane 32 h[7] 0], #v[lane 32 h[0] 1, lane 32 h[1] 1, lane 32 h[2] 1, lane 32 h[3] 1, lane 32 h[4] 1, lane 32 h[5] 1, lane 32 h[6] 1, lane 32 h[7] 1], #v[lane 32 h[0] 2, lane 32 h[1] 2, lane 32 h[2] 2, lane 32 h[3] 2, lane 32 h[4] 2, lane 32 h[5] 2, lane 32 h[6] 2, lane 32 h[7] 2], #v[lane 32 h[0] 3, lane 32 h[1] 3, lane 32 h[2] 3, lane 32 h[3] 3, lane 32 h[4] 3, lane 32 h[5] 3, lane 32 h[6] 3, lane 32 h[7] 3]] := by
  simp only [untransposeState, transposeVecs_lanes]
  simp [storeu]
  try (and_intros <;> rfl)

theorem transposeMsg_eq (blocks : Vector (List Byte) 4) :
    transposeMsg blocks = #v[d4 (fromLE 32 ((blocks[0].drop (0 * 4)).take 4)) (fromLE 32 ((blocks[1].drop (0 * 4)).take 4)) (fromLE 32 ((blocks[2].drop (0 * 4)).take 4)) (fromLE 32 ((blocks[3].drop (0 * 4)).take 4)), d4 (fromLE 32 ((blocks[0].drop (1 * 4)).take 4)) (fromLE 32 ((blocks[1].drop (1 * 4)).take 4)) (fromLE 32 ((blocks[2].drop (1 * 4)).take 4)) (fromLE 32 ((blocks[3].drop (1 * 4)).take 4)), d4 (fromLE 32 ((blocks[0].drop (2 * 4)).take 4)) (fromLE 32 ((blocks[1].drop (2 * 4)).take 4)) (fromLE 32 ((blocks[2].drop (2 * 4)).take 4)) (fromLE 32 ((blocks[3].drop (2 * 4)).take 4)), d4 (fromLE 32 ((blocks[0].drop (3 * 4)).take 4)) (fromLE 32 ((blocks[1].drop (3 * 4)).take 4)) (fromLE 32 ((blocks[2].drop (3 * 4)).take 4)) (fromLE 32 ((blocks[3].drop (3 * 4)).take 4)), d4 (fromLE 32 ((blocks[0].drop (4 * 4)).take 4)) (fromLE 32 ((blocks[1].drop (4 * 4)).take 4)) (fromLE 32 ((blocks[2].drop (4 * 4)).take 4)) (fromLE 32 ((blocks[3].drop (4 * 4)).take 4)), d4 (fromLE 32 ((blocks[0].drop (5 * 4)).take 4)) (fromLE 32 ((blocks[1].drop (5 * 4)).take 4)) (fromLE 32 ((blocks[2].drop (5 * 4)).take 4)) (fromLE 32 ((blocks[3].drop (5 * 4)).take 4)), d4 (fromLE 32 ((blocks[0].drop (6 * 4)).take 4)) (fromLE 32 ((blocks[1].drop (6 * 4)).take 4)) (fromLE 32 ((blocks[2].drop (6 * 4)).take 4)) (fromLE 32 ((blocks[3].drop (6 * 4)).take 4)), d4 (fromLE 32 ((blocks[0].drop (7 * 4)).take 4)) (fromLE 32 ((blocks[1].drop (7 * 4)).take 4)) (fromLE 32 ((blocks[2].drop (7 * 4)).take 4)) (fromLE 32 ((blocks[3].drop (7 * 4)).take 4)), d4 (fromLE 32 ((blocks[0].drop (8 * 4)).take 4)) (fromLE 32 ((blocks[1].drop (8 * 4)).take 4)) (fromLE 32 ((blocks[2].drop (8 * 4)).take 4)) (fromLE 32 ((blocks[3].drop (8 * 4)).take 4)), d4 (fromLE 32 ((blocks[0].drop (9 * 4)).take 4)) (fromLE 32 ((blocks[1].drop (9 * 4)).take 4)) (fromLE 32 ((blocks[2].drop (9 * 4)).take 4)) (fromLE 32 ((blocks[3].drop (9 * 4)).take 4)), d4 (fromLE 32 ((blocks[0].drop (10 * 4)).take 4)) (fromLE 32 ((blocks[1].drop (10 * 4)).take 4)) (fromLE 32 ((blocks[2].drop (10 * 4)).take 4)) (fromLE 32 ((blocks[3].drop (10 * 4)).take 4)), d4 (fromLE 32 ((blocks[0].drop (11 * 4)).take 4)) (fromLE 32 ((blocks[1].drop (11 * 4)).take 4)) (fromLE 32 ((blocks[2].drop (11 * 4)).take 4)) (fromLE 32 ((blocks[3].drop (11 * 4)).take 4)), d4 (fromLE 32 ((blocks[0].drop (12 * 4)).take 4)) (fromLE 32 ((blocks[1].drop (12 * 4)).take 4)) (fromLE 32 ((blocks[2].drop (12 * 4)).take 4)) (fromLE 32 ((blocks[3].drop (12 * 4)).take 4)), d4 (fromLE 32 ((blocks[0].drop (13 * 4)).take 4)) (fromLE 32 ((blocks[1].drop (13 * 4)).take 4)) (fromLE 32 ((blocks[2].drop (13 * 4)).take 4)) (fromLE 32 ((blocks[3].drop (13 * 4)).take 4)), d4 (fromLE 32 ((blocks[0].drop (14 * 4)).take 4)) (fromLE 32 ((blocks[1].drop (14 * 4)).take 4)) (fromLE 32 ((blocks[2].drop (14 * 4)).take 4)) (fromLE 32 ((blocks[3].drop (14 * 4)).take 4)), d4 (fromLE 32 ((blocks[0].drop (15 * 4)).take 4)) (fromLE 32 ((blocks[1].drop (15 * 4)).take 4)) (fromLE 32 ((blocks[2].drop (15 * 4)).take 4)) (fromLE 32 ((blocks[3].drop (15 * 4)).take 4))] := by
  simp only [transposeMsg, transposeVecs_lanes]
  simp [loadBlock_lane]

theorem tlaws : TransposeLaws impl where
  state i w := by
    refine (congrArg (Vector.map (impl.ln i)) (transposeState_eq w)).trans ?_
    rw [map8]
    match i with
    | ⟨0, h⟩ =>
      simp only [ln_0, lane_d4_0]
      exact (vec8_eta w[0]).symm
    | ⟨1, h⟩ =>
      simp only [ln_1, lane_d4_1]
      exact (vec8_eta w[1]).symm
    | ⟨2, h⟩ =>
      simp only [ln_2, lane_d4_2]
      exact (vec8_eta w[2]).symm
    | ⟨3, h⟩ =>
      simp only [ln_3, lane_d4_3]
      exact (vec8_eta w[3]).symm
  unstate i h := by
    refine (congrArg (fun v => v[i]) (untransposeState_eq h)).trans ?_
    rw [vec8_eta h, map8]
    match i with
    | ⟨0, _⟩ => rfl
    | ⟨1, _⟩ => rfl
    | ⟨2, _⟩ => rfl
    | ⟨3, _⟩ => rfl
  msg i blocks := by
    refine (congrArg (Vector.map (impl.ln i)) (transposeMsg_eq blocks)).trans ?_
    rw [map16, vec16_eta (Portable.msgWords .s blocks[i])]
    match i with
    | ⟨0, _⟩ =>
      simp only [ln_0, lane_d4_0]
      simp only [Portable.msgWords]
      rfl
    | ⟨1, _⟩ =>
      simp only [ln_1, lane_d4_1]
      simp only [Portable.msgWords]
      rfl
    | ⟨2, _⟩ =>
      simp only [ln_2, lane_d4_2]
      simp only [Portable.msgWords]
      rfl
    | ⟨3, _⟩ =>
      simp only [ln_3, lane_d4_3]
      simp only [Portable.msgWords]
      rfl

end SSse41

end Blake2
