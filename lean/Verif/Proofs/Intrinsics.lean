import Verif.Proofs.Lanes
/-! # Symbolic evaluation of intrinsics on registers given by their lanes -/
namespace Blake2.X86

/-- two 64-bit lanes -/
def q2 (a b : BitVec 64) : M128 := ofLanes 64 128 [a, b]
/-- four 32-bit lanes -/
def d4 (a b c d : BitVec 32) : M128 := ofLanes 32 128 [a, b, c, d]
/-- four 64-bit lanes -/
def q4 (a b c d : BitVec 64) : M256 := ofLanes 64 256 [a, b, c, d]
/-- eight 32-bit lanes -/
def d8 (a b c d e f g h : BitVec 32) : M256 := ofLanes 32 256 [a, b, c, d, e, f, g, h]

@[simp] theorem lane_q2_0 (a b : BitVec 64) : lane 64 (q2 a b) 0 = a := lane_ofLanes _ 0 (by simp) (by omega)
@[simp] theorem lane_q2_1 (a b : BitVec 64) : lane 64 (q2 a b) 1 = b := lane_ofLanes _ 1 (by simp) (by omega)
@[simp] theorem lane_d4_0 (a b c d : BitVec 32) : lane 32 (d4 a b c d) 0 = a := lane_ofLanes _ 0 (by simp) (by omega)
@[simp] theorem lane_d4_1 (a b c d : BitVec 32) : lane 32 (d4 a b c d) 1 = b := lane_ofLanes _ 1 (by simp) (by omega)
@[simp] theorem lane_d4_2 (a b c d : BitVec 32) : lane 32 (d4 a b c d) 2 = c := lane_ofLanes _ 2 (by simp) (by omega)
@[simp] theorem lane_d4_3 (a b c d : BitVec 32) : lane 32 (d4 a b c d) 3 = d := lane_ofLanes _ 3 (by simp) (by omega)
@[simp] theorem lane_q4_0 (a b c d : BitVec 64) : lane 64 (q4 a b c d) 0 = a := lane_ofLanes _ 0 (by simp) (by omega)
@[simp] theorem lane_q4_1 (a b c d : BitVec 64) : lane 64 (q4 a b c d) 1 = b := lane_ofLanes _ 1 (by simp) (by omega)
@[simp] theorem lane_q4_2 (a b c d : BitVec 64) : lane 64 (q4 a b c d) 2 = c := lane_ofLanes _ 2 (by simp) (by omega)
@[simp] theorem lane_q4_3 (a b c d : BitVec 64) : lane 64 (q4 a b c d) 3 = d := lane_ofLanes _ 3 (by simp) (by omega)

section
variable (a b c d e f g h : BitVec 32)
@[simp] theorem lane_d8_0 : lane 32 (d8 a b c d e f g h) 0 = a := lane_ofLanes _ 0 (by simp) (by omega)
@[simp] theorem lane_d8_1 : lane 32 (d8 a b c d e f g h) 1 = b := lane_ofLanes _ 1 (by simp) (by omega)
@[simp] theorem lane_d8_2 : lane 32 (d8 a b c d e f g h) 2 = c := lane_ofLanes _ 2 (by simp) (by omega)
@[simp] theorem lane_d8_3 : lane 32 (d8 a b c d e f g h) 3 = d := lane_ofLanes _ 3 (by simp) (by omega)
@[simp] theorem lane_d8_4 : lane 32 (d8 a b c d e f g h) 4 = e := lane_ofLanes _ 4 (by simp) (by omega)
@[simp] theorem lane_d8_5 : lane 32 (d8 a b c d e f g h) 5 = f := lane_ofLanes _ 5 (by simp) (by omega)
@[simp] theorem lane_d8_6 : lane 32 (d8 a b c d e f g h) 6 = g := lane_ofLanes _ 6 (by simp) (by omega)
@[simp] theorem lane_d8_7 : lane 32 (d8 a b c d e f g h) 7 = h := lane_ofLanes _ 7 (by simp) (by omega)
end

theorem q2_ext {x y : M128} (h0 : lane 64 x 0 = lane 64 y 0) (h1 : lane 64 x 1 = lane 64 y 1) : x = y := by
  apply eq_of_lanes (n := 64) (by decide) 2 rfl
  intro i hi
  match i, hi with
  | 0, _ => exact h0
  | 1, _ => exact h1

theorem d4_ext {x y : M128} (h0 : lane 32 x 0 = lane 32 y 0) (h1 : lane 32 x 1 = lane 32 y 1)
    (h2 : lane 32 x 2 = lane 32 y 2) (h3 : lane 32 x 3 = lane 32 y 3) : x = y := by
  apply eq_of_lanes (n := 32) (by decide) 4 rfl
  intro i hi
  match i, hi with
  | 0, _ => exact h0
  | 1, _ => exact h1
  | 2, _ => exact h2
  | 3, _ => exact h3

theorem q4_ext {x y : M256} (h0 : lane 64 x 0 = lane 64 y 0) (h1 : lane 64 x 1 = lane 64 y 1)
    (h2 : lane 64 x 2 = lane 64 y 2) (h3 : lane 64 x 3 = lane 64 y 3) : x = y := by
  apply eq_of_lanes (n := 64) (by decide) 4 rfl
  intro i hi
  match i, hi with
  | 0, _ => exact h0
  | 1, _ => exact h1
  | 2, _ => exact h2
  | 3, _ => exact h3

theorem d8_ext {x y : M256} (h0 : lane 32 x 0 = lane 32 y 0) (h1 : lane 32 x 1 = lane 32 y 1)
    (h2 : lane 32 x 2 = lane 32 y 2) (h3 : lane 32 x 3 = lane 32 y 3)
    (h4 : lane 32 x 4 = lane 32 y 4) (h5 : lane 32 x 5 = lane 32 y 5)
    (h6 : lane 32 x 6 = lane 32 y 6) (h7 : lane 32 x 7 = lane 32 y 7) : x = y := by
  apply eq_of_lanes (n := 32) (by decide) 8 rfl
  intro i hi
  match i, hi with
  | 0, _ => exact h0
  | 1, _ => exact h1
  | 2, _ => exact h2
  | 3, _ => exact h3
  | 4, _ => exact h4
  | 5, _ => exact h5
  | 6, _ => exact h6
  | 7, _ => exact h7

theorem q2_eta (x : M128) : x = q2 (lane 64 x 0) (lane 64 x 1) := by apply q2_ext <;> simp
theorem d4_eta (x : M128) : x = d4 (lane 32 x 0) (lane 32 x 1) (lane 32 x 2) (lane 32 x 3) := by apply d4_ext <;> simp
theorem q4_eta (x : M256) : x = q4 (lane 64 x 0) (lane 64 x 1) (lane 64 x 2) (lane 64 x 3) := by apply q4_ext <;> simp
theorem d8_eta (x : M256) : x = d8 (lane 32 x 0) (lane 32 x 1) (lane 32 x 2) (lane 32 x 3)
    (lane 32 x 4) (lane 32 x 5) (lane 32 x 6) (lane 32 x 7) := by apply d8_ext <;> simp

/-! ## Narrow lanes of wide lanes -/

/-- a 32-bit lane is a 32-bit half of a 64-bit lane -/
theorem lane32_of64 {m : Nat} (x : BitVec m) (j i : Nat) (hi : i < 2) :
    lane 32 (lane 64 x j) i = lane 32 x (2 * j + i) := by
  rw [lane_lane _ _ _ (by omega), lane]; congr 1; omega
theorem lane16_of32 {m : Nat} (x : BitVec m) (j i : Nat) (hi : i < 2) :
    lane 16 (lane 32 x j) i = lane 16 x (2 * j + i) := by
  rw [lane_lane _ _ _ (by omega), lane]; congr 1; omega

/-- a 64-bit lane is determined by its two 32-bit halves -/
theorem ext64 {x y : BitVec 64} (h0 : lane 32 x 0 = lane 32 y 0) (h1 : lane 32 x 1 = lane 32 y 1) : x = y := by
  apply eq_of_lanes (n := 32) (by decide) 2 rfl
  intro i hi
  match i, hi with
  | 0, _ => exact h0
  | 1, _ => exact h1
theorem ext32 {x y : BitVec 32} (h0 : lane 16 x 0 = lane 16 y 0) (h1 : lane 16 x 1 = lane 16 y 1) : x = y := by
  apply eq_of_lanes (n := 16) (by decide) 2 rfl
  intro i hi
  match i, hi with
  | 0, _ => exact h0
  | 1, _ => exact h1
theorem ext128_64 {x y : M128} (h0 : lane 64 x 0 = lane 64 y 0) (h1 : lane 64 x 1 = lane 64 y 1) : x = y := q2_ext h0 h1

theorem lane32_q2_0 (a b : BitVec 64) : lane 32 (q2 a b) 0 = lane 32 a 0 := by
  rw [← lane32_of64 _ 0 0 (by decide), lane_q2_0]
theorem lane32_q2_1 (a b : BitVec 64) : lane 32 (q2 a b) 1 = lane 32 a 1 := by
  rw [← lane32_of64 _ 0 1 (by decide), lane_q2_0]
theorem lane32_q2_2 (a b : BitVec 64) : lane 32 (q2 a b) 2 = lane 32 b 0 := by
  rw [← lane32_of64 _ 1 0 (by decide), lane_q2_1]
theorem lane32_q2_3 (a b : BitVec 64) : lane 32 (q2 a b) 3 = lane 32 b 1 := by
  rw [← lane32_of64 _ 1 1 (by decide), lane_q2_1]

/-! ## 128-bit halves of 256-bit registers -/

theorem lane128_ofLanes_0 (x y : M128) : lane 128 (ofLanes 128 256 [x, y]) 0 = x := lane_ofLanes _ 0 (by simp) (by omega)
theorem lane128_ofLanes_1 (x y : M128) : lane 128 (ofLanes 128 256 [x, y]) 1 = y := lane_ofLanes _ 1 (by simp) (by omega)

/-- the 256-bit register with the given halves, by 64-bit lanes -/
theorem ofHalves_q (x y : M128) : ofLanes 128 256 [x, y] = q4 (lane 64 x 0) (lane 64 x 1) (lane 64 y 0) (lane 64 y 1) := by
  apply q4_ext <;> simp only [lane_q4_0, lane_q4_1, lane_q4_2, lane_q4_3]
  · rw [← lane64_lane128 _ 0 0 (by decide), lane128_ofLanes_0]
  · rw [← lane64_lane128 _ 1 0 (by decide), lane128_ofLanes_0]
  · rw [← lane64_lane128 _ 0 1 (by decide), lane128_ofLanes_1]
  · rw [← lane64_lane128 _ 1 1 (by decide), lane128_ofLanes_1]

theorem ofHalves_d (x y : M128) : ofLanes 128 256 [x, y] = d8 (lane 32 x 0) (lane 32 x 1) (lane 32 x 2) (lane 32 x 3)
    (lane 32 y 0) (lane 32 y 1) (lane 32 y 2) (lane 32 y 3) := by
  apply d8_ext <;>
    simp only [lane_d8_0, lane_d8_1, lane_d8_2, lane_d8_3, lane_d8_4, lane_d8_5, lane_d8_6, lane_d8_7]
  · rw [← lane32_lane128 _ 0 0 (by decide), lane128_ofLanes_0]
  · rw [← lane32_lane128 _ 1 0 (by decide), lane128_ofLanes_0]
  · rw [← lane32_lane128 _ 2 0 (by decide), lane128_ofLanes_0]
  · rw [← lane32_lane128 _ 3 0 (by decide), lane128_ofLanes_0]
  · rw [← lane32_lane128 _ 0 1 (by decide), lane128_ofLanes_1]
  · rw [← lane32_lane128 _ 1 1 (by decide), lane128_ofLanes_1]
  · rw [← lane32_lane128 _ 2 1 (by decide), lane128_ofLanes_1]
  · rw [← lane32_lane128 _ 3 1 (by decide), lane128_ofLanes_1]

theorem half0_q4 (a b c d : BitVec 64) : lane 128 (q4 a b c d) 0 = q2 a b := by
  apply q2_ext
  · rw [lane64_lane128 _ 0 0 (by decide)]; simp
  · rw [lane64_lane128 _ 1 0 (by decide)]; simp
theorem half1_q4 (a b c d : BitVec 64) : lane 128 (q4 a b c d) 1 = q2 c d := by
  apply q2_ext
  · rw [lane64_lane128 _ 0 1 (by decide)]; simp
  · rw [lane64_lane128 _ 1 1 (by decide)]; simp
theorem half0_d8 (a b c d e f g h : BitVec 32) : lane 128 (d8 a b c d e f g h) 0 = d4 a b c d := by
  apply d4_ext
  · rw [lane32_lane128 _ 0 0 (by decide)]; simp
  · rw [lane32_lane128 _ 1 0 (by decide)]; simp
  · rw [lane32_lane128 _ 2 0 (by decide)]; simp
  · rw [lane32_lane128 _ 3 0 (by decide)]; simp
theorem half1_d8 (a b c d e f g h : BitVec 32) : lane 128 (d8 a b c d e f g h) 1 = d4 e f g h := by
  apply d4_ext
  · rw [lane32_lane128 _ 0 1 (by decide)]; simp
  · rw [lane32_lane128 _ 1 1 (by decide)]; simp
  · rw [lane32_lane128 _ 2 1 (by decide)]; simp
  · rw [lane32_lane128 _ 3 1 (by decide)]; simp

/-! ## Intrinsics on 64-bit lanes -/

theorem lane_alignr_lo {n : Nat} (x y : M128) (imm i k : Nat) (h : 8 * imm + n * i = n * k) (hk : n * (k + 1) ≤ 128) :
    lane n (mm_alignr_epi8 x y imm) i = lane n y k := by
  apply BitVec.eq_of_getLsbD_eq
  intro j hj
  rw [Nat.mul_add] at hk
  have h1 : n * i + j < 128 := by omega
  have h2 : 8 * imm + (n * i + j) < 128 := by omega
  have h3 : 8 * imm + (n * i + j) = n * k + j := by omega
  simp only [lane, mm_alignr_epi8, BitVec.getLsbD_extractLsb', BitVec.getLsbD_append, h1, h2]
  simp [h3]

theorem lane_alignr_hi {n : Nat} (x y : M128) (imm i k : Nat) (h : 8 * imm + n * i = 128 + n * k) (hi : n * (i + 1) ≤ 128) :
    lane n (mm_alignr_epi8 x y imm) i = lane n x k := by
  apply BitVec.eq_of_getLsbD_eq
  intro j hj
  rw [Nat.mul_add] at hi
  have h1 : n * i + j < 128 := by omega
  have h2 : ¬ 8 * imm + (n * i + j) < 128 := by omega
  have h3 : 8 * imm + (n * i + j) - 128 = n * k + j := by omega
  simp only [lane, mm_alignr_epi8, BitVec.getLsbD_extractLsb', BitVec.getLsbD_append, h1, h2]
  simp [h3]

theorem unpacklo64_q2 (a b a' b' : BitVec 64) : mm_unpacklo_epi64 (q2 a b) (q2 a' b') = q2 a a' := by
  simp [mm_unpacklo_epi64]; rfl
theorem unpackhi64_q2 (a b a' b' : BitVec 64) : mm_unpackhi_epi64 (q2 a b) (q2 a' b') = q2 b b' := by
  simp [mm_unpackhi_epi64]; rfl

section
variable (a b c d a' b' c' d' : BitVec 64)
theorem unpacklo64_q4 : mm256_unpacklo_epi64 (q4 a b c d) (q4 a' b' c' d') = q4 a a' c c' := by
  simp [mm256_unpacklo_epi64, perHalf, half0_q4, half1_q4, unpacklo64_q2, ofHalves_q]
theorem unpackhi64_q4 : mm256_unpackhi_epi64 (q4 a b c d) (q4 a' b' c' d') = q4 b b' d d' := by
  simp [mm256_unpackhi_epi64, perHalf, half0_q4, half1_q4, unpackhi64_q2, ofHalves_q]
theorem permute4x64_q4 (z y x w : Nat) (hz : z < 4) (hy : y < 4) (hx : x < 4) (hw : w < 4) :
    mm256_permute4x64_epi64 (q4 a b c d) (MM_SHUFFLE z y x w) =
      q4 (lane 64 (q4 a b c d) w) (lane 64 (q4 a b c d) x) (lane 64 (q4 a b c d) y) (lane 64 (q4 a b c d) z) := by
  have : ∀ z y x w : Fin 4, MM_SHUFFLE z y x w % 4 = w ∧ MM_SHUFFLE z y x w / 4 % 4 = x ∧
      MM_SHUFFLE z y x w / 16 % 4 = y ∧ MM_SHUFFLE z y x w / 64 % 4 = z := by decide
  obtain ⟨h1, h2, h3, h4⟩ := this ⟨z, hz⟩ ⟨y, hy⟩ ⟨x, hx⟩ ⟨w, hw⟩
  simp only at h1 h2 h3 h4
  rw [mm256_permute4x64_epi64, h1, h2, h3, h4]; rfl
theorem permute2x128_20 : mm256_permute2x128_si256 (q4 a b c d) (q4 a' b' c' d') 0x20 = q4 a b a' b' := by
  simp [mm256_permute2x128_si256, select4, half0_q4, ofHalves_q, Nat.testBit]
theorem permute2x128_31 : mm256_permute2x128_si256 (q4 a b c d) (q4 a' b' c' d') 0x31 = q4 c d c' d' := by
  simp [mm256_permute2x128_si256, select4, half1_q4, ofHalves_q, Nat.testBit]

theorem alignr8_q2 : mm_alignr_epi8 (q2 a b) (q2 a' b') 8 = q2 b' a := by
  apply q2_ext
  · rw [lane_alignr_lo _ _ _ _ 1 (by omega) (by omega)]; simp
  · rw [lane_alignr_hi _ _ _ _ 0 (by omega) (by omega)]; simp
theorem alignr8_q4 : mm256_alignr_epi8 (q4 a b c d) (q4 a' b' c' d') 8 = q4 b' a d' c := by
  simp [mm256_alignr_epi8, perHalf, half0_q4, half1_q4, alignr8_q2, ofHalves_q]
theorem shuffle32_swap_q2 : mm_shuffle_epi32 (q2 a b) (MM_SHUFFLE 1 0 3 2) = q2 b a := by
  have : mm_shuffle_epi32 (q2 a b) (MM_SHUFFLE 1 0 3 2) =
      d4 (lane 32 (q2 a b) 2) (lane 32 (q2 a b) 3) (lane 32 (q2 a b) 0) (lane 32 (q2 a b) 1) := rfl
  rw [this]
  apply d4_ext <;> simp [lane32_q2_0, lane32_q2_1, lane32_q2_2, lane32_q2_3]
theorem shuffle32_swap_q4 : mm256_shuffle_epi32 (q4 a b c d) (MM_SHUFFLE 1 0 3 2) = q4 b a d c := by
  simp [mm256_shuffle_epi32, perHalf, half0_q4, half1_q4, shuffle32_swap_q2, ofHalves_q]

theorem lane32_q4 : lane 32 (q4 a b c d) 0 = lane 32 a 0 ∧ lane 32 (q4 a b c d) 1 = lane 32 a 1 ∧
    lane 32 (q4 a b c d) 2 = lane 32 b 0 ∧ lane 32 (q4 a b c d) 3 = lane 32 b 1 ∧
    lane 32 (q4 a b c d) 4 = lane 32 c 0 ∧ lane 32 (q4 a b c d) 5 = lane 32 c 1 ∧
    lane 32 (q4 a b c d) 6 = lane 32 d 0 ∧ lane 32 (q4 a b c d) 7 = lane 32 d 1 := by
  refine ⟨?_, ?_, ?_, ?_, ?_, ?_, ?_, ?_⟩
  · rw [← lane32_of64 _ 0 0 (by decide), lane_q4_0]
  · rw [← lane32_of64 _ 0 1 (by decide), lane_q4_0]
  · rw [← lane32_of64 _ 1 0 (by decide), lane_q4_1]
  · rw [← lane32_of64 _ 1 1 (by decide), lane_q4_1]
  · rw [← lane32_of64 _ 2 0 (by decide), lane_q4_2]
  · rw [← lane32_of64 _ 2 1 (by decide), lane_q4_2]
  · rw [← lane32_of64 _ 3 0 (by decide), lane_q4_3]
  · rw [← lane32_of64 _ 3 1 (by decide), lane_q4_3]

theorem blend32_F0 : mm256_blend_epi32 (q4 a b c d) (q4 a' b' c' d') 0xF0 = q4 a b c' d' := by
  have : mm256_blend_epi32 (q4 a b c d) (q4 a' b' c' d') 0xF0 =
      d8 (lane 32 (q4 a b c d) 0) (lane 32 (q4 a b c d) 1) (lane 32 (q4 a b c d) 2) (lane 32 (q4 a b c d) 3)
        (lane 32 (q4 a' b' c' d') 4) (lane 32 (q4 a' b' c' d') 5) (lane 32 (q4 a' b' c' d') 6)
        (lane 32 (q4 a' b' c' d') 7) := rfl
  rw [this]
  apply d8_ext <;> simp [lane32_q4]
theorem blend32_33 : mm256_blend_epi32 (q4 a b c d) (q4 a' b' c' d') 0x33 = q4 a' b c' d := by
  have : mm256_blend_epi32 (q4 a b c d) (q4 a' b' c' d') 0x33 =
      d8 (lane 32 (q4 a' b' c' d') 0) (lane 32 (q4 a' b' c' d') 1) (lane 32 (q4 a b c d) 2) (lane 32 (q4 a b c d) 3)
        (lane 32 (q4 a' b' c' d') 4) (lane 32 (q4 a' b' c' d') 5) (lane 32 (q4 a b c d) 6)
        (lane 32 (q4 a b c d) 7) := rfl
  rw [this]
  apply d8_ext <;> simp [lane32_q4]
theorem broadcast_q2 : mm256_broadcastsi128_si256 (q2 a b) = q4 a b a b := by
  simp [mm256_broadcastsi128_si256, ofHalves_q]
end

/-! ## Intrinsics on 32-bit lanes -/

section
variable (a b c d a' b' c' d' : BitVec 32)

theorem unpacklo32_d4 : mm_unpacklo_epi32 (d4 a b c d) (d4 a' b' c' d') = d4 a a' b b' := by
  simp [mm_unpacklo_epi32]; rfl
theorem unpackhi32_d4 : mm_unpackhi_epi32 (d4 a b c d) (d4 a' b' c' d') = d4 c c' d d' := by
  simp [mm_unpackhi_epi32]; rfl
theorem q2_lanes_d4 (x y : M128) (i j : Nat) : q2 (lane 64 x i) (lane 64 y j) =
    d4 (lane 32 x (2 * i)) (lane 32 x (2 * i + 1)) (lane 32 y (2 * j)) (lane 32 y (2 * j + 1)) := by
  apply d4_ext
  · rw [lane32_q2_0, lane32_of64 _ _ 0 (by decide), lane_d4_0]; rfl
  · rw [lane32_q2_1, lane32_of64 _ _ 1 (by decide), lane_d4_1]
  · rw [lane32_q2_2, lane32_of64 _ _ 0 (by decide), lane_d4_2]; rfl
  · rw [lane32_q2_3, lane32_of64 _ _ 1 (by decide), lane_d4_3]
theorem unpacklo64_d4 : mm_unpacklo_epi64 (d4 a b c d) (d4 a' b' c' d') = d4 a b a' b' := by
  show q2 _ _ = _
  rw [q2_lanes_d4]; simp
theorem unpackhi64_d4 : mm_unpackhi_epi64 (d4 a b c d) (d4 a' b' c' d') = d4 c d c' d' := by
  show q2 _ _ = _
  rw [q2_lanes_d4]; simp
theorem MM_SHUFFLE_digits (z y x w : Nat) (hz : z < 4) (hy : y < 4) (hx : x < 4) (hw : w < 4) :
    MM_SHUFFLE z y x w % 4 = w ∧ MM_SHUFFLE z y x w / 4 % 4 = x ∧
      MM_SHUFFLE z y x w / 16 % 4 = y ∧ MM_SHUFFLE z y x w / 64 % 4 = z := by
  have : ∀ z y x w : Fin 4, MM_SHUFFLE z y x w % 4 = w ∧ MM_SHUFFLE z y x w / 4 % 4 = x ∧
      MM_SHUFFLE z y x w / 16 % 4 = y ∧ MM_SHUFFLE z y x w / 64 % 4 = z := by decide
  exact this ⟨z, hz⟩ ⟨y, hy⟩ ⟨x, hx⟩ ⟨w, hw⟩
theorem shuffle32_d4 (x : M128) (z y w v : Nat) (hz : z < 4) (hy : y < 4) (hw : w < 4) (hv : v < 4) :
    mm_shuffle_epi32 x (MM_SHUFFLE z y w v) = d4 (lane 32 x v) (lane 32 x w) (lane 32 x y) (lane 32 x z) := by
  obtain ⟨h1, h2, h3, h4⟩ := MM_SHUFFLE_digits z y w v hz hy hw hv
  rw [mm_shuffle_epi32, h1, h2, h3, h4]; rfl
theorem shuffle_ps_d4 (x x' : M128) (z y w v : Nat) (hz : z < 4) (hy : y < 4) (hw : w < 4) (hv : v < 4) :
    mm_shuffle_ps x x' (MM_SHUFFLE z y w v) = d4 (lane 32 x v) (lane 32 x w) (lane 32 x' y) (lane 32 x' z) := by
  obtain ⟨h1, h2, h3, h4⟩ := MM_SHUFFLE_digits z y w v hz hy hw hv
  rw [mm_shuffle_ps, h1, h2, h3, h4]; rfl

theorem lane16_list (l : List (BitVec 16)) (i : Nat) (h : l.length = 8) (hi : i < 8) :
    lane 16 (ofLanes 16 128 l) i = l[i] := lane_ofLanes _ _ _ (by omega)

/-- `_mm_blend_epi16` with a mask made of pairs of equal bits blends 32-bit lanes. -/
theorem lane32_blend16 (x y : M128) (imm i : Nat) (hi : i < 4) (h : imm.testBit (2 * i) = imm.testBit (2 * i + 1)) :
    lane 32 (mm_blend_epi16 x y imm) i = if imm.testBit (2 * i) then lane 32 y i else lane 32 x i := by
  apply ext32
  · rw [lane16_of32 _ _ 0 (by decide), mm_blend_epi16, lane16_list _ _ (by simp) (by omega)]
    simp only [List.getElem_map, List.getElem_range, Nat.add_zero]
    split <;> rw [lane16_of32 _ _ 0 (by decide)] <;> rfl
  · rw [lane16_of32 _ _ 1 (by decide), mm_blend_epi16, lane16_list _ _ (by simp) (by omega)]
    simp only [List.getElem_map, List.getElem_range, ← h]
    split <;> rw [lane16_of32 _ _ 1 (by decide)]

theorem blend16_d4 (imm : Nat) (h0 : imm.testBit 0 = imm.testBit 1) (h1 : imm.testBit 2 = imm.testBit 3)
    (h2 : imm.testBit 4 = imm.testBit 5) (h3 : imm.testBit 6 = imm.testBit 7) :
    mm_blend_epi16 (d4 a b c d) (d4 a' b' c' d') imm =
      d4 (if imm.testBit 0 then a' else a) (if imm.testBit 2 then b' else b)
         (if imm.testBit 4 then c' else c) (if imm.testBit 6 then d' else d) := by
  apply d4_ext
  · rw [lane32_blend16 _ _ _ _ (by decide) h0]; simp
  · rw [lane32_blend16 _ _ _ _ (by decide) h1]; simp
  · rw [lane32_blend16 _ _ _ _ (by decide) h2]; simp
  · rw [lane32_blend16 _ _ _ _ (by decide) h3]; simp

theorem shufflehi_swap : mm_shufflehi_epi16 (d4 a b c d) (MM_SHUFFLE 1 0 3 2) = d4 a b d c := by
  have e : mm_shufflehi_epi16 (d4 a b c d) (MM_SHUFFLE 1 0 3 2) = ofLanes 16 128
    [lane 16 (d4 a b c d) 0, lane 16 (d4 a b c d) 1, lane 16 (d4 a b c d) 2, lane 16 (d4 a b c d) 3,
     lane 16 (d4 a b c d) 6, lane 16 (d4 a b c d) 7, lane 16 (d4 a b c d) 4, lane 16 (d4 a b c d) 5] := rfl
  rw [e]
  apply d4_ext <;> apply ext32 <;> rw [lane16_of32 _ _ _ (by decide), lane16_list _ _ (by simp) (by omega)] <;>
    simp only [List.getElem_cons_succ, List.getElem_cons_zero, lane_d4_0, lane_d4_1, lane_d4_2, lane_d4_3]
  · rw [← lane16_of32 _ 0 0 (by decide), lane_d4_0]; rfl
  · rw [← lane16_of32 _ 0 1 (by decide), lane_d4_0]; rfl
  · rw [← lane16_of32 _ 1 0 (by decide), lane_d4_1]
  · rw [← lane16_of32 _ 1 1 (by decide), lane_d4_1]
  · rw [← lane16_of32 _ 3 0 (by decide), lane_d4_3]
  · rw [← lane16_of32 _ 3 1 (by decide), lane_d4_3]
  · rw [← lane16_of32 _ 2 0 (by decide), lane_d4_2]
  · rw [← lane16_of32 _ 2 1 (by decide), lane_d4_2]

theorem lane_ushr (x : M128) (k i : Nat) : lane 32 (x >>> (32 * k)) i = lane 32 x (i + k) := by
  apply BitVec.eq_of_getLsbD_eq
  intro j hj
  simp only [lane, BitVec.getLsbD_extractLsb', BitVec.getLsbD_ushiftRight, hj, Nat.mul_add]
  congr 2; omega
theorem lane_out (x : M128) (i : Nat) (h : 4 ≤ i) : lane 32 x i = 0 := by
  apply BitVec.eq_of_getLsbD_eq
  intro j hj
  rw [lane, BitVec.getLsbD_extractLsb', BitVec.getLsbD_of_ge x _ (by omega)]
  simp
theorem lane_shl (x : M128) (k i : Nat) (hk : k ≤ i) (hi : i < 4) :
    lane 32 (x <<< (32 * k)) i = lane 32 x (i - k) := by
  apply BitVec.eq_of_getLsbD_eq
  intro j hj
  simp only [lane, BitVec.getLsbD_extractLsb', BitVec.getLsbD_shiftLeft, hj]
  have h1 : ¬ 32 * i + j < 32 * k := by omega
  have h2 : 32 * i + j < 128 := by omega
  have h3 : 32 * i + j - 32 * k = 32 * (i - k) + j := by omega
  simp [h1, h2, h3]
theorem lane_shl_lo (x : M128) (k i : Nat) (hk : i < k) : lane 32 (x <<< (32 * k)) i = 0 := by
  apply BitVec.eq_of_getLsbD_eq
  intro j hj
  simp only [lane, BitVec.getLsbD_extractLsb', BitVec.getLsbD_shiftLeft, hj]
  have h1 : 32 * i + j < 32 * k := by omega
  simp [h1]

theorem srli4_d4 : mm_srli_si128 (d4 a b c d) 4 = d4 b c d 0 := by
  apply d4_ext <;> rw [mm_srli_si128, show 8 * 4 = 32 * 1 from rfl, lane_ushr] <;> simp [lane_out]
theorem srli8_d4 : mm_srli_si128 (d4 a b c d) 8 = d4 c d 0 0 := by
  apply d4_ext <;> rw [mm_srli_si128, show 8 * 8 = 32 * 2 from rfl, lane_ushr] <;> simp [lane_out]
theorem srli12_d4 : mm_srli_si128 (d4 a b c d) 12 = d4 d 0 0 0 := by
  apply d4_ext <;> rw [mm_srli_si128, show 8 * 12 = 32 * 3 from rfl, lane_ushr] <;> simp [lane_out]
theorem slli4_d4 : mm_slli_si128 (d4 a b c d) 4 = d4 0 a b c := by
  apply d4_ext <;> rw [mm_slli_si128, show 8 * 4 = 32 * 1 from rfl] <;>
    first | rw [lane_shl_lo _ _ _ (by omega)] | rw [lane_shl _ _ _ (by omega) (by omega)]
  all_goals simp
theorem slli8_d4 : mm_slli_si128 (d4 a b c d) 8 = d4 0 0 a b := by
  apply d4_ext <;> rw [mm_slli_si128, show 8 * 8 = 32 * 2 from rfl] <;>
    first | rw [lane_shl_lo _ _ _ (by omega)] | rw [lane_shl _ _ _ (by omega) (by omega)]
  all_goals simp
theorem slli12_d4 : mm_slli_si128 (d4 a b c d) 12 = d4 0 0 0 a := by
  apply d4_ext <;> rw [mm_slli_si128, show 8 * 12 = 32 * 3 from rfl] <;>
    first | rw [lane_shl_lo _ _ _ (by omega)] | rw [lane_shl _ _ _ (by omega) (by omega)]
  all_goals simp
theorem alignr4_d4 : mm_alignr_epi8 (d4 a b c d) (d4 a' b' c' d') 4 = d4 b' c' d' a := by
  apply d4_ext
  · rw [lane_alignr_lo _ _ _ _ 1 (by omega) (by omega)]; simp
  · rw [lane_alignr_lo _ _ _ _ 2 (by omega) (by omega)]; simp
  · rw [lane_alignr_lo _ _ _ _ 3 (by omega) (by omega)]; simp
  · rw [lane_alignr_hi _ _ _ _ 0 (by omega) (by omega)]; simp
end

section
variable (a b c d e f g h a' b' c' d' e' f' g' h' : BitVec 32)
theorem unpacklo32_d8 : mm256_unpacklo_epi32 (d8 a b c d e f g h) (d8 a' b' c' d' e' f' g' h') = d8 a a' b b' e e' f f' := by
  simp [mm256_unpacklo_epi32, perHalf, half0_d8, half1_d8, unpacklo32_d4, ofHalves_d]
theorem unpackhi32_d8 : mm256_unpackhi_epi32 (d8 a b c d e f g h) (d8 a' b' c' d' e' f' g' h') = d8 c c' d d' g g' h h' := by
  simp [mm256_unpackhi_epi32, perHalf, half0_d8, half1_d8, unpackhi32_d4, ofHalves_d]
theorem unpacklo64_d8 : mm256_unpacklo_epi64 (d8 a b c d e f g h) (d8 a' b' c' d' e' f' g' h') = d8 a b a' b' e f e' f' := by
  simp [mm256_unpacklo_epi64, perHalf, half0_d8, half1_d8, unpacklo64_d4, ofHalves_d]
theorem unpackhi64_d8 : mm256_unpackhi_epi64 (d8 a b c d e f g h) (d8 a' b' c' d' e' f' g' h') = d8 c d c' d' g h g' h' := by
  simp [mm256_unpackhi_epi64, perHalf, half0_d8, half1_d8, unpackhi64_d4, ofHalves_d]
theorem permute2x128_20_d8 : mm256_permute2x128_si256 (d8 a b c d e f g h) (d8 a' b' c' d' e' f' g' h') 0x20 =
    d8 a b c d a' b' c' d' := by
  simp [mm256_permute2x128_si256, select4, half0_d8, ofHalves_d, Nat.testBit]
theorem permute2x128_31_d8 : mm256_permute2x128_si256 (d8 a b c d e f g h) (d8 a' b' c' d' e' f' g' h') 0x31 =
    d8 e f g h e' f' g' h' := by
  simp [mm256_permute2x128_si256, select4, half1_d8, ofHalves_d, Nat.testBit]
end

/-! ## Loads -/

theorem lane_leNat {n m : Nat} (l : List Byte) (nb i : Nat) (hn : n = 8 * nb) (h : n * (i + 1) ≤ m) :
    lane n (BitVec.ofNat m (leNat l)) i = fromLE n ((l.drop (nb * i)).take nb) := by
  rw [lane_ofNat _ _ h, fromLE, leNat_take, leNat_drop]
  apply BitVec.eq_of_toNat_eq
  subst hn
  rw [BitVec.toNat_ofNat, BitVec.toNat_ofNat, show (256 : Nat) = 2 ^ 8 from rfl, ← Nat.pow_mul, ← Nat.pow_mul,
    Nat.mod_mod, Nat.mul_assoc]

end Blake2.X86
