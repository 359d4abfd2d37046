import Verif.Proofs.BAvx2Block
import Verif.Proofs.SAvx2Laws
import Verif.Proofs.SSse41Block
import Verif.Model.SnevesBp
import Verif.Model.SnevesSp
/-! # The rotations and comparisons of the C code in benches/blake2-avx2-sneves, lane by lane -/
namespace Blake2.X86

theorem lane8_of128 {m : Nat} (x : BitVec m) (j i : Nat) (hi : i < 16) : lane 8 (lane 128 x j) i = lane 8 x (16 * j + i) := by
  rw [lane_lane _ _ _ (by omega), lane]; congr 1; omega
theorem lane8_of64 {m : Nat} (x : BitVec m) (j i : Nat) (hi : i < 8) : lane 8 (lane 64 x j) i = lane 8 x (8 * j + i) := by
  rw [lane_lane _ _ _ (by omega), lane]; congr 1; omega
theorem lane8_of32 {m : Nat} (x : BitVec m) (j i : Nat) (hi : i < 4) : lane 8 (lane 32 x j) i = lane 8 x (4 * j + i) := by
  rw [lane_lane _ _ _ (by omega), lane]; congr 1; omega

theorem lane8_shuffle128 (x mask : M128) (i : Nat) (hi : i < 16) :
    lane 8 (mm_shuffle_epi8 x mask) i = if (lane 8 mask i).msb then 0 else lane 8 x ((lane 8 mask i).toNat % 16) := by
  rw [mm_shuffle_epi8, lane_ofLanes _ _ (by simpa using hi) (by omega)]
  simp

theorem lane8_shuffle256 (x mask : M256) (i : Nat) (hi : i < 32) :
    lane 8 (mm256_shuffle_epi8 x mask) i =
      if (lane 8 mask i).msb then 0 else lane 8 x (16 * (i / 16) + (lane 8 mask i).toNat % 16) := by
  have key : ∀ j k, j < 2 → k < 16 → lane 8 (mm256_shuffle_epi8 x mask) (16 * j + k) =
      if (lane 8 mask (16 * j + k)).msb then 0 else lane 8 x (16 * j + (lane 8 mask (16 * j + k)).toNat % 16) := by
    intro j k hj hk
    rw [← lane8_of128 _ _ _ hk]
    have : lane 128 (mm256_shuffle_epi8 x mask) j = mm_shuffle_epi8 (lane 128 x j) (lane 128 mask j) := by
      match j, hj with
      | 0, _ => exact lane128_ofLanes_0 _ _
      | 1, _ => exact lane128_ofLanes_1 _ _
    rw [this, lane8_shuffle128 _ _ _ hk, lane8_of128 _ _ _ hk, lane8_of128 _ _ _ (Nat.mod_lt _ (by decide))]
  have := key (i / 16) (i % 16) (by omega) (by omega)
  rwa [Nat.div_add_mod] at this

/-- A byte of a word rotated by whole bytes. -/
theorem lane8_rot64 (x : BitVec 64) (k i : Nat) (hk : k < 8) (hi : i < 8) :
    lane 8 (x.rotateRight (8 * k)) i = lane 8 x ((i + k) % 8) := by
  apply BitVec.eq_of_getLsbD_eq
  intro j hj
  rw [lane, lane, BitVec.getLsbD_extractLsb', BitVec.getLsbD_extractLsb', BitVec.getLsbD_rotateRight]
  by_cases h : i + k < 8
  · rw [Nat.mod_eq_of_lt h, Bool.cond_pos (by simp; omega)]
    congr 2; omega
  · rw [Bool.cond_neg (by simp; omega)]
    have e1 : 8 * i + j - (64 - 8 * k % 64) = 8 * ((i + k) % 8) + j := by omega
    have e2 : decide (8 * i + j < 64) = true := by simp; omega
    rw [e1, e2, Bool.true_and]

theorem lane8_rot32 (x : BitVec 32) (k i : Nat) (hk : k < 4) (hi : i < 4) :
    lane 8 (x.rotateRight (8 * k)) i = lane 8 x ((i + k) % 4) := by
  apply BitVec.eq_of_getLsbD_eq
  intro j hj
  rw [lane, lane, BitVec.getLsbD_extractLsb', BitVec.getLsbD_extractLsb', BitVec.getLsbD_rotateRight]
  by_cases h : i + k < 4
  · rw [Nat.mod_eq_of_lt h, Bool.cond_pos (by simp; omega)]
    congr 2; omega
  · rw [Bool.cond_neg (by simp; omega)]
    have e1 : 8 * i + j - (32 - 8 * k % 32) = 8 * ((i + k) % 4) + j := by omega
    have e2 : decide (8 * i + j < 32) = true := by simp; omega
    rw [e1, e2, Bool.true_and]

/-- The byte shuffle by a mask that rotates each 64-bit lane right by `k` bytes. -/
theorem shuffle256_rot64 (mask x : M256) (k i : Nat) (hk : k < 8) (hi : i < 4)
    (hm : ∀ i < 32, (lane 8 mask i).msb = false ∧ 16 * (i / 16) + (lane 8 mask i).toNat % 16 = 8 * (i / 8) + (i % 8 + k) % 8) :
    lane 64 (mm256_shuffle_epi8 x mask) i = (lane 64 x i).rotateRight (8 * k) := by
  apply eq_of_lanes (n := 8) (by decide) 8 rfl
  intro j hj
  rw [lane8_of64 _ _ _ hj, lane8_shuffle256 _ _ _ (by omega), lane8_rot64 _ _ _ hk hj, lane8_of64 _ _ _ (Nat.mod_lt _ (by decide))]
  obtain ⟨h1, h2⟩ := hm (8 * i + j) (by omega)
  rw [h1, if_neg (by simp), h2]
  congr 2 <;> omega

theorem shuffle256_rot32 (mask x : M256) (k i : Nat) (hk : k < 4) (hi : i < 8)
    (hm : ∀ i < 32, (lane 8 mask i).msb = false ∧ 16 * (i / 16) + (lane 8 mask i).toNat % 16 = 4 * (i / 4) + (i % 4 + k) % 4) :
    lane 32 (mm256_shuffle_epi8 x mask) i = (lane 32 x i).rotateRight (8 * k) := by
  apply eq_of_lanes (n := 8) (by decide) 4 rfl
  intro j hj
  rw [lane8_of32 _ _ _ hj, lane8_shuffle256 _ _ _ (by omega), lane8_rot32 _ _ _ hk hj, lane8_of32 _ _ _ (Nat.mod_lt _ (by decide))]
  obtain ⟨h1, h2⟩ := hm (4 * i + j) (by omega)
  rw [h1, if_neg (by simp), h2]
  congr 2 <;> omega

theorem shuffle128_rot32 (mask x : M128) (k i : Nat) (hk : k < 4) (hi : i < 4)
    (hm : ∀ i < 16, (lane 8 mask i).msb = false ∧ (lane 8 mask i).toNat % 16 = 4 * (i / 4) + (i % 4 + k) % 4) :
    lane 32 (mm_shuffle_epi8 x mask) i = (lane 32 x i).rotateRight (8 * k) := by
  apply eq_of_lanes (n := 8) (by decide) 4 rfl
  intro j hj
  rw [lane8_of32 _ _ _ hj, lane8_shuffle128 _ _ _ (by omega), lane8_rot32 _ _ _ hk hj, lane8_of32 _ _ _ (Nat.mod_lt _ (by decide))]
  obtain ⟨h1, h2⟩ := hm (4 * i + j) (by omega)
  rw [h1, if_neg (by simp), h2]
  congr 2 <;> omega

/-- The rotations of `BAvx2` by lanes. -/
theorem lane_srl_or_sll64 (x : M256) (n i : Nat) (hn : n < 64) (hi : i < 4) :
    lane 64 (mm256_or_si256 (mm256_srli_epi64 x n) (mm256_slli_epi64 x (64 - n))) i = (lane 64 x i).rotateRight n := by
  show lane 64 (mapLanes 64 _ x ||| mapLanes 64 _ x) _ = _
  rw [lane_or, lane_mapLanes _ _ _ hi, lane_mapLanes _ _ _ hi, BitVec.rotateRight_def, Nat.mod_eq_of_lt hn]
theorem lane_srl_or_sll32 (x : M256) (n i : Nat) (hn : n < 32) (hi : i < 8) :
    lane 32 (mm256_or_si256 (mm256_srli_epi32 x n) (mm256_slli_epi32 x (32 - n))) i = (lane 32 x i).rotateRight n := by
  show lane 32 (mapLanes 32 _ x ||| mapLanes 32 _ x) _ = _
  rw [lane_or, lane_mapLanes _ _ _ hi, lane_mapLanes _ _ _ hi, BitVec.rotateRight_def, Nat.mod_eq_of_lt hn]
theorem lane_srl_or_sll32_128 (x : M128) (n i : Nat) (hn : n < 32) (hi : i < 4) :
    lane 32 (mm_or_si128 (mm_srli_epi32 x n) (mm_slli_epi32 x (32 - n))) i = (lane 32 x i).rotateRight n := by
  show lane 32 (mapLanes 32 _ x ||| mapLanes 32 _ x) _ = _
  rw [lane_or, lane_mapLanes _ _ _ hi, lane_mapLanes _ _ _ hi, BitVec.rotateRight_def, Nat.mod_eq_of_lt hn]

theorem double_eq_shl (x : BitVec 64) : x + x = x <<< 1 := by
  apply BitVec.eq_of_toNat_eq
  rw [BitVec.toNat_add, BitVec.toNat_shiftLeft, Nat.shiftLeft_eq]; omega

/-- Swapping the halves of a 64-bit lane. -/
theorem lane32_rot64 (x : BitVec 64) : lane 32 (x.rotateRight 32) 0 = lane 32 x 1 ∧ lane 32 (x.rotateRight 32) 1 = lane 32 x 0 := by
  constructor <;>
  · apply BitVec.eq_of_getLsbD_eq
    intro j hj
    rw [lane, lane, BitVec.getLsbD_extractLsb', BitVec.getLsbD_extractLsb', BitVec.getLsbD_rotateRight]
    simp [hj, Nat.add_comm]
    try (rw [decide_eq_false (by omega : ¬ j + 32 < 32), decide_eq_true (by omega : j + 32 < 64)]; rfl)

end Blake2.X86

namespace Blake2.SnevesB
open X86

theorem rot24_eq : rot24 = BAvx2.rot24 := by
  funext x
  apply eq_of_lanes (n := 64) (by decide) 4 rfl
  intro i hi
  exact (shuffle256_rot64 rotate24 x 3 i (by decide) hi (by decide +kernel)).trans (lane_srl_or_sll64 x 24 i (by decide) hi).symm
theorem rot16_eq : rot16 = BAvx2.rot16 := by
  funext x
  apply eq_of_lanes (n := 64) (by decide) 4 rfl
  intro i hi
  exact (shuffle256_rot64 rotate16 x 2 i (by decide) hi (by decide +kernel)).trans (lane_srl_or_sll64 x 16 i (by decide) hi).symm
theorem rot63_eq : rot63 = BAvx2.rot63 := by
  funext x
  have : add x x = mm256_slli_epi64 x (64 - 63) := by
    apply eq_of_lanes (n := 64) (by decide) 4 rfl
    intro i hi
    show lane 64 (zipLanes 64 _ x x) i = lane 64 (mapLanes 64 _ x) i
    rw [lane_zipLanes _ _ _ _ hi, lane_mapLanes _ _ _ hi]
    exact double_eq_shl _
  rw [rot63, this]; rfl
theorem rot32_eq : rot32 = BAvx2.rot32 := by
  funext x
  have h := fun i (hi : i < 4) => lane_srl_or_sll64 x 32 i (by decide) hi
  apply eq_of_lanes (n := 64) (by decide) 4 rfl
  intro i hi
  refine Eq.trans ?_ (h i hi).symm
  have e : rot32 x = d8 (lane 32 x 1) (lane 32 x 0) (lane 32 x 3) (lane 32 x 2) (lane 32 x 5) (lane 32 x 4) (lane 32 x 7) (lane 32 x 6) := by
    show mm256_shuffle_epi32 x (MM_SHUFFLE 2 3 0 1) = _
    rw [mm256_shuffle_epi32, perHalf, ofHalves_d]
    simp only [shuffle32_d4 _ 2 3 0 1 (by decide) (by decide) (by decide) (by decide), lane_d4_0, lane_d4_1, lane_d4_2, lane_d4_3,
      lane32_lane128 x 0 _ (by decide), lane32_lane128 x 1 _ (by decide), lane32_lane128 x 2 _ (by decide), lane32_lane128 x 3 _ (by decide)]
  rw [e]
  apply ext64
  · rw [(lane32_rot64 _).1, lane32_of64 _ _ _ (by decide), lane32_of64 _ _ _ (by decide)]
    match i, hi with
    | 0, _ => exact lane_d8_0 ..
    | 1, _ => exact lane_d8_2 ..
    | 2, _ => exact lane_d8_4 ..
    | 3, _ => exact lane_d8_6 ..
  · rw [(lane32_rot64 _).2, lane32_of64 _ _ _ (by decide), lane32_of64 _ _ _ (by decide)]
    match i, hi with
    | 0, _ => exact lane_d8_1 ..
    | 1, _ => exact lane_d8_3 ..
    | 2, _ => exact lane_d8_5 ..
    | 3, _ => exact lane_d8_7 ..

end Blake2.SnevesB

namespace Blake2.SnevesSp
open X86

theorem rot16_eq : rot16 = SAvx2.rot16 := by
  funext x
  apply eq_of_lanes (n := 32) (by decide) 8 rfl
  intro i hi
  exact (shuffle256_rot32 rotate16 x 2 i (by decide) hi (by decide +kernel)).trans (lane_srl_or_sll32 x 16 i (by decide) hi).symm
theorem rot8_eq : rot8 = SAvx2.rot8 := by
  funext x
  apply eq_of_lanes (n := 32) (by decide) 8 rfl
  intro i hi
  exact (shuffle256_rot32 rotate8 x 1 i (by decide) hi (by decide +kernel)).trans (lane_srl_or_sll32 x 8 i (by decide) hi).symm
theorem rot16128_eq : rot16128 = SSse41.rot16 := by
  funext x
  apply eq_of_lanes (n := 32) (by decide) 4 rfl
  intro i hi
  exact (shuffle128_rot32 rotate16128 x 2 i (by decide) hi (by decide +kernel)).trans (lane_srl_or_sll32_128 x 16 i (by decide) hi).symm
theorem rot8128_eq : rot8128 = SSse41.rot8 := by
  funext x
  apply eq_of_lanes (n := 32) (by decide) 4 rfl
  intro i hi
  exact (shuffle128_rot32 rotate8128 x 1 i (by decide) hi (by decide +kernel)).trans (lane_srl_or_sll32_128 x 8 i (by decide) hi).symm
theorem rot12_eq : rot12 = SAvx2.rot12 := rfl
theorem rot7_eq : rot7 = SAvx2.rot7 := rfl
theorem rot12128_eq : rot12128 = SSse41.rot12 := rfl
theorem rot7128_eq : rot7128 = SSse41.rot7 := rfl

end Blake2.SnevesSp
