import Verif.Proofs.NWayLaws
import Verif.Proofs.Intrinsics
import Verif.Model.BSse41
/-! # The intrinsic wrappers of blake2b/src/sse41.rs satisfy the lane laws (generated text, one proof per law) -/
namespace Blake2

namespace BSse41
open X86

theorem ln_eq (i : Fin 2) (x : M128) : impl.ln i x = lane 64 x i.val := by
  match i with
  | ⟨0, _⟩ => rfl
  | ⟨1, _⟩ => rfl

theorem ln_0 (h : 0 < 2) (x : M128) : impl.ln ⟨0, h⟩ x = lane 64 x 0 := rfl
theorem ln_1 (h : 1 < 2) (x : M128) : impl.ln ⟨1, h⟩ x = lane 64 x 1 := rfl

theorem laws : LaneLaws impl where
  add i x y := by
    simp only [ln_eq]; exact lane_zipLanes _ _ _ _ i.isLt
  xor i x y := by
    simp only [ln_eq]; exact lane_xor x y _
  eq i x y := by
    simp only [ln_eq]; exact lane_zipLanes _ _ _ _ i.isLt
  and i x y := by
    simp only [ln_eq]; exact lane_and x y _
  negateAnd i x y := by
    simp only [ln_eq]
    show lane 64 (~~~x &&& y) _ = _
    rw [lane_and, lane_not _ _ (by have := i.isLt; omega)]
  rotA i x := by
    simp only [ln_eq]
    show lane 64 (_ ||| _) _ = _
    rw [lane_or]
    show lane 64 (mapLanes 64 _ x) _ ||| lane 64 (mapLanes 64 _ x) _ = _
    rw [lane_mapLanes _ _ _ i.isLt, lane_mapLanes _ _ _ i.isLt]
    show _ = BitVec.rotateRight (w := 64) (lane 64 x i.val) 32
    rw [BitVec.rotateRight_def]
  rotB i x := by
    simp only [ln_eq]
    show lane 64 (_ ||| _) _ = _
    rw [lane_or]
    show lane 64 (mapLanes 64 _ x) _ ||| lane 64 (mapLanes 64 _ x) _ = _
    rw [lane_mapLanes _ _ _ i.isLt, lane_mapLanes _ _ _ i.isLt]
    show _ = BitVec.rotateRight (w := 64) (lane 64 x i.val) 24
    rw [BitVec.rotateRight_def]
  rotC i x := by
    simp only [ln_eq]
    show lane 64 (_ ||| _) _ = _
    rw [lane_or]
    show lane 64 (mapLanes 64 _ x) _ ||| lane 64 (mapLanes 64 _ x) _ = _
    rw [lane_mapLanes _ _ _ i.isLt, lane_mapLanes _ _ _ i.isLt]
    show _ = BitVec.rotateRight (w := 64) (lane 64 x i.val) 16
    rw [BitVec.rotateRight_def]
  rotD i x := by
    simp only [ln_eq]
    show lane 64 (_ ||| _) _ = _
    rw [lane_or]
    show lane 64 (mapLanes 64 _ x) _ ||| lane 64 (mapLanes 64 _ x) _ = _
    rw [lane_mapLanes _ _ _ i.isLt, lane_mapLanes _ _ _ i.isLt]
    show _ = BitVec.rotateRight (w := 64) (lane 64 x i.val) 63
    rw [BitVec.rotateRight_def]
  set1 i w := by
    match i with
    | ⟨0, _⟩ => exact lane_q2_0 w w
    | ⟨1, _⟩ => exact lane_q2_1 w w
  setN i v := by
    match i with
    | ⟨0, _⟩ => exact lane_q2_0 v[0] v[1]
    | ⟨1, _⟩ => exact lane_q2_1 v[0] v[1]

theorem transposeVecs_eq (a0 a1 b0 b1 : BitVec 64) :
    transposeVecs (q2 a0 a1) (q2 b0 b1) =
      #v[q2 a0 b0, q2 a1 b1] := by
  simp only [transposeVecs, storeu]
  simp; exact ⟨rfl, rfl⟩

theorem transposeVecs_lanes (a b : M128) :
    transposeVecs a b =
      #v[q2 (lane 64 a 0) (lane 64 b 0), q2 (lane 64 a 1) (lane 64 b 1)] := by

  rw [← transposeVecs_eq, ← q2_eta a, ← q2_eta b]

theorem loadu_eq (x0 x1 : BitVec 64) : loadu #v[x0, x1] = q2 x0 x1 := rfl

theorem loadBlock_lane (block : List Byte) (k i : Nat) (hi : i < 2) :
    lane 64 (loadBlock block k) i = fromLE 64 ((block.drop ((2 * k + i) * 8)).take 8) := by
  show lane 64 (BitVec.ofNat 128 (leNat _)) i = _
  rw [lane_leNat _ 8 i rfl (by omega), List.drop_take, List.drop_drop, List.take_take]
  congr 2
  · omega
  · congr 1; omega

theorem transposeState_eq (w : Vector (Vector (BitVec 64) 8) 2) :
    transposeState w = #v[q2 w[0][0] w[1][0], q2 w[0][1] w[1][1], q2 w[0][2] w[1][2], q2 w[0][3] w[1][3], q2 w[0][4] w[1][4], q2 w[0][5] w[1][5], q2 w[0][6] w[1][6], q2 w[0][7] w[1][7]] := by
  simp only [transposeState, loadu_eq, transposeVecs_eq]
  rfl

theorem untransposeState_eq (h : Vector M128 8) :
    untransposeState h = #v[#v[lane 64 h[0] 0, lane 64 h[1] 0, lane 64 h[2] 0, lane 64 h[3] 0, lane 64 h[4] 0, lane 64 h[5] 0, lane 64 h[6] 0, lane 64 h[7] 0], #v[lane 64 h[0] 1, lane 64 h[1] 1, lane 64 h[2] 1, lane 64 h[3] 1, lane 64 h[4] 1, lane 64 h[5] 1, lane 64 h[6] 1, lane 64 h[7] 1]] := by
  simp only [untransposeState, transposeVecs_lanes]
  simp [storeu]
  try (and_intros <;> rfl)

theorem transposeMsg_eq (blocks : Vector (List Byte) 2) :
    transposeMsg blocks = #v[q2 (fromLE 64 ((blocks[0].drop (0 * 8)).take 8)) (fromLE 64 ((blocks[1].drop (0 * 8)).take 8)), q2 (fromLE 64 ((blocks[0].drop (1 * 8)).take 8)) (fromLE 64 ((blocks[1].drop (1 * 8)).take 8)), q2 (fromLE 64 ((blocks[0].drop (2 * 8)).take 8)) (fromLE 64 ((blocks[1].drop (2 * 8)).take 8)), q2 (fromLE 64 ((blocks[0].drop (3 * 8)).take 8)) (fromLE 64 ((blocks[1].drop (3 * 8)).take 8)), q2 (fromLE 64 ((blocks[0].drop (4 * 8)).take 8)) (fromLE 64 ((blocks[1].drop (4 * 8)).take 8)), q2 (fromLE 64 ((blocks[0].drop (5 * 8)).take 8)) (fromLE 64 ((blocks[1].drop (5 * 8)).take 8)), q2 (fromLE 64 ((blocks[0].drop (6 * 8)).take 8)) (fromLE 64 ((blocks[1].drop (6 * 8)).take 8)), q2 (fromLE 64 ((blocks[0].drop (7 * 8)).take 8)) (fromLE 64 ((blocks[1].drop (7 * 8)).take 8)), q2 (fromLE 64 ((blocks[0].drop (8 * 8)).take 8)) (fromLE 64 ((blocks[1].drop (8 * 8)).take 8)), q2 (fromLE 64 ((blocks[0].drop (9 * 8)).take 8)) (fromLE 64 ((blocks[1].drop (9 * 8)).take 8)), q2 (fromLE 64 ((blocks[0].drop (10 * 8)).take 8)) (fromLE 64 ((blocks[1].drop (10 * 8)).take 8)), q2 (fromLE 64 ((blocks[0].drop (11 * 8)).take 8)) (fromLE 64 ((blocks[1].drop (11 * 8)).take 8)), q2 (fromLE 64 ((blocks[0].drop (12 * 8)).take 8)) (fromLE 64 ((blocks[1].drop (12 * 8)).take 8)), q2 (fromLE 64 ((blocks[0].drop (13 * 8)).take 8)) (fromLE 64 ((blocks[1].drop (13 * 8)).take 8)), q2 (fromLE 64 ((blocks[0].drop (14 * 8)).take 8)) (fromLE 64 ((blocks[1].drop (14 * 8)).take 8)), q2 (fromLE 64 ((blocks[0].drop (15 * 8)).take 8)) (fromLE 64 ((blocks[1].drop (15 * 8)).take 8))] := by
  simp only [transposeMsg, transposeVecs_lanes]
  simp [loadBlock_lane]

theorem tlaws : TransposeLaws impl where
  state i w := by
    refine (congrArg (Vector.map (impl.ln i)) (transposeState_eq w)).trans ?_
    rw [map8]
    match i with
    | ⟨0, h⟩ =>
      simp only [ln_0, lane_q2_0]
      exact (vec8_eta w[0]).symm
    | ⟨1, h⟩ =>
      simp only [ln_1, lane_q2_1]
      exact (vec8_eta w[1]).symm
  unstate i h := by
    refine (congrArg (fun v => v[i]) (untransposeState_eq h)).trans ?_
    rw [vec8_eta h, map8]
    match i with
    | ⟨0, _⟩ => rfl
    | ⟨1, _⟩ => rfl
  msg i blocks := by
    refine (congrArg (Vector.map (impl.ln i)) (transposeMsg_eq blocks)).trans ?_
    rw [map16, vec16_eta (Portable.msgWords .b blocks[i])]
    match i with
    | ⟨0, _⟩ =>
      simp only [ln_0, lane_q2_0]
      simp only [Portable.msgWords]
      rfl
    | ⟨1, _⟩ =>
      simp only [ln_1, lane_q2_1]
      simp only [Portable.msgWords]
      rfl

end BSse41

end Blake2
