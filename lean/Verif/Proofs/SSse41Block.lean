import Verif.Proofs.SSse41Laws
/-! # The single-block `compress_block` of SSse41 computes the same function as the portable one -/
namespace Blake2.SSse41
open X86
set_option linter.unusedSimpArgs false

theorem blend_03 (x y z w x' y' z' w' : BitVec 32) :
    mm_blend_epi16 (d4 x y z w) (d4 x' y' z' w') 0x03 = d4 x' y z w := by
  rw [blend16_d4 _ _ _ _ _ _ _ _ _ (by decide) (by decide) (by decide) (by decide)]; rfl
theorem blend_0C (x y z w x' y' z' w' : BitVec 32) :
    mm_blend_epi16 (d4 x y z w) (d4 x' y' z' w') 0x0C = d4 x y' z w := by
  rw [blend16_d4 _ _ _ _ _ _ _ _ _ (by decide) (by decide) (by decide) (by decide)]; rfl
theorem blend_0F (x y z w x' y' z' w' : BitVec 32) :
    mm_blend_epi16 (d4 x y z w) (d4 x' y' z' w') 0x0F = d4 x' y' z w := by
  rw [blend16_d4 _ _ _ _ _ _ _ _ _ (by decide) (by decide) (by decide) (by decide)]; rfl
theorem blend_30 (x y z w x' y' z' w' : BitVec 32) :
    mm_blend_epi16 (d4 x y z w) (d4 x' y' z' w') 0x30 = d4 x y z' w := by
  rw [blend16_d4 _ _ _ _ _ _ _ _ _ (by decide) (by decide) (by decide) (by decide)]; rfl
theorem blend_33 (x y z w x' y' z' w' : BitVec 32) :
    mm_blend_epi16 (d4 x y z w) (d4 x' y' z' w') 0x33 = d4 x' y z' w := by
  rw [blend16_d4 _ _ _ _ _ _ _ _ _ (by decide) (by decide) (by decide) (by decide)]; rfl
theorem blend_3C (x y z w x' y' z' w' : BitVec 32) :
    mm_blend_epi16 (d4 x y z w) (d4 x' y' z' w') 0x3C = d4 x y' z' w := by
  rw [blend16_d4 _ _ _ _ _ _ _ _ _ (by decide) (by decide) (by decide) (by decide)]; rfl
theorem blend_C0 (x y z w x' y' z' w' : BitVec 32) :
    mm_blend_epi16 (d4 x y z w) (d4 x' y' z' w') 0xC0 = d4 x y z w' := by
  rw [blend16_d4 _ _ _ _ _ _ _ _ _ (by decide) (by decide) (by decide) (by decide)]; rfl
theorem blend_C3 (x y z w x' y' z' w' : BitVec 32) :
    mm_blend_epi16 (d4 x y z w) (d4 x' y' z' w') 0xC3 = d4 x' y z w' := by
  rw [blend16_d4 _ _ _ _ _ _ _ _ _ (by decide) (by decide) (by decide) (by decide)]; rfl
theorem blend_F0 (x y z w x' y' z' w' : BitVec 32) :
    mm_blend_epi16 (d4 x y z w) (d4 x' y' z' w') 0xF0 = d4 x y z' w' := by
  rw [blend16_d4 _ _ _ _ _ _ _ _ _ (by decide) (by decide) (by decide) (by decide)]; rfl

/-- One round with its four message vectors already gathered. -/
def simdRound (x1 y1 x2 y2 : M128) (v : Rows) : Rows :=
  undiagonalize (g2 (g1 (diagonalize (g2 (g1 v x1) y1)) x2) y2)

/-- The rows holding a state of sixteen words. -/
def rowsOf (v : Vector (BitVec 32) 16) : Rows :=
  ⟨d4 v[0] v[1] v[2] v[3], d4 v[4] v[5] v[6] v[7], d4 v[8] v[9] v[10] v[11], d4 v[12] v[13] v[14] v[15]⟩

theorem half_eq (v : Rows) (x y : M128) :
    g2 (g1 v x) y = (let q := g4R impl v.row1 v.row2 v.row3 v.row4 x y; ⟨q.1, q.2.1, q.2.2.1, q.2.2.2⟩) := rfl

theorem half_rows (a0 a1 a2 a3 b0 b1 b2 b3 c0 c1 c2 c3 d0 d1 d2 d3 x0 x1 x2 x3 y0 y1 y2 y3 : BitVec 32) :
    g2 (g1 ⟨d4 a0 a1 a2 a3, d4 b0 b1 b2 b3, d4 c0 c1 c2 c3, d4 d0 d1 d2 d3⟩ (d4 x0 x1 x2 x3)) (d4 y0 y1 y2 y3) =
      ⟨d4 (g4 .s a0 b0 c0 d0 x0 y0).1 (g4 .s a1 b1 c1 d1 x1 y1).1 (g4 .s a2 b2 c2 d2 x2 y2).1 (g4 .s a3 b3 c3 d3 x3 y3).1,
       d4 (g4 .s a0 b0 c0 d0 x0 y0).2.1 (g4 .s a1 b1 c1 d1 x1 y1).2.1 (g4 .s a2 b2 c2 d2 x2 y2).2.1 (g4 .s a3 b3 c3 d3 x3 y3).2.1,
       d4 (g4 .s a0 b0 c0 d0 x0 y0).2.2.1 (g4 .s a1 b1 c1 d1 x1 y1).2.2.1 (g4 .s a2 b2 c2 d2 x2 y2).2.2.1 (g4 .s a3 b3 c3 d3 x3 y3).2.2.1,
       d4 (g4 .s a0 b0 c0 d0 x0 y0).2.2.2 (g4 .s a1 b1 c1 d1 x1 y1).2.2.2 (g4 .s a2 b2 c2 d2 x2 y2).2.2.2 (g4 .s a3 b3 c3 d3 x3 y3).2.2.2⟩ := by
  rw [half_eq]
  have h1 := fun i => g4R_lane1 laws i (d4 a0 a1 a2 a3) (d4 b0 b1 b2 b3) (d4 c0 c1 c2 c3) (d4 d0 d1 d2 d3) (d4 x0 x1 x2 x3) (d4 y0 y1 y2 y3)
  have h2 := fun i => g4R_lane2 laws i (d4 a0 a1 a2 a3) (d4 b0 b1 b2 b3) (d4 c0 c1 c2 c3) (d4 d0 d1 d2 d3) (d4 x0 x1 x2 x3) (d4 y0 y1 y2 y3)
  have h3 := fun i => g4R_lane3 laws i (d4 a0 a1 a2 a3) (d4 b0 b1 b2 b3) (d4 c0 c1 c2 c3) (d4 d0 d1 d2 d3) (d4 x0 x1 x2 x3) (d4 y0 y1 y2 y3)
  have h4 := fun i => g4R_lane4 laws i (d4 a0 a1 a2 a3) (d4 b0 b1 b2 b3) (d4 c0 c1 c2 c3) (d4 d0 d1 d2 d3) (d4 x0 x1 x2 x3) (d4 y0 y1 y2 y3)
  have e0 := fun x => ln_0 (by decide) x
  have e1 := fun x => ln_1 (by decide) x
  have e2 := fun x => ln_2 (by decide) x
  have e3 := fun x => ln_3 (by decide) x
  have r1 : (g4R impl (d4 a0 a1 a2 a3) (d4 b0 b1 b2 b3) (d4 c0 c1 c2 c3) (d4 d0 d1 d2 d3) (d4 x0 x1 x2 x3) (d4 y0 y1 y2 y3)).1 =
      d4 (g4 .s a0 b0 c0 d0 x0 y0).1 (g4 .s a1 b1 c1 d1 x1 y1).1 (g4 .s a2 b2 c2 d2 x2 y2).1 (g4 .s a3 b3 c3 d3 x3 y3).1 := by
    apply d4_ext
    · have := h1 ⟨0, by decide⟩; simp only [e0, lane_d4_0] at this; exact this.trans (lane_d4_0 _ _ _ _).symm
    · have := h1 ⟨1, by decide⟩; simp only [e1, lane_d4_1] at this; exact this.trans (lane_d4_1 _ _ _ _).symm
    · have := h1 ⟨2, by decide⟩; simp only [e2, lane_d4_2] at this; exact this.trans (lane_d4_2 _ _ _ _).symm
    · have := h1 ⟨3, by decide⟩; simp only [e3, lane_d4_3] at this; exact this.trans (lane_d4_3 _ _ _ _).symm
  have r2 : (g4R impl (d4 a0 a1 a2 a3) (d4 b0 b1 b2 b3) (d4 c0 c1 c2 c3) (d4 d0 d1 d2 d3) (d4 x0 x1 x2 x3) (d4 y0 y1 y2 y3)).2.1 =
      d4 (g4 .s a0 b0 c0 d0 x0 y0).2.1 (g4 .s a1 b1 c1 d1 x1 y1).2.1 (g4 .s a2 b2 c2 d2 x2 y2).2.1 (g4 .s a3 b3 c3 d3 x3 y3).2.1 := by
    apply d4_ext
    · have := h2 ⟨0, by decide⟩; simp only [e0, lane_d4_0] at this; exact this.trans (lane_d4_0 _ _ _ _).symm
    · have := h2 ⟨1, by decide⟩; simp only [e1, lane_d4_1] at this; exact this.trans (lane_d4_1 _ _ _ _).symm
    · have := h2 ⟨2, by decide⟩; simp only [e2, lane_d4_2] at this; exact this.trans (lane_d4_2 _ _ _ _).symm
    · have := h2 ⟨3, by decide⟩; simp only [e3, lane_d4_3] at this; exact this.trans (lane_d4_3 _ _ _ _).symm
  have r3 : (g4R impl (d4 a0 a1 a2 a3) (d4 b0 b1 b2 b3) (d4 c0 c1 c2 c3) (d4 d0 d1 d2 d3) (d4 x0 x1 x2 x3) (d4 y0 y1 y2 y3)).2.2.1 =
      d4 (g4 .s a0 b0 c0 d0 x0 y0).2.2.1 (g4 .s a1 b1 c1 d1 x1 y1).2.2.1 (g4 .s a2 b2 c2 d2 x2 y2).2.2.1 (g4 .s a3 b3 c3 d3 x3 y3).2.2.1 := by
    apply d4_ext
    · have := h3 ⟨0, by decide⟩; simp only [e0, lane_d4_0] at this; exact this.trans (lane_d4_0 _ _ _ _).symm
    · have := h3 ⟨1, by decide⟩; simp only [e1, lane_d4_1] at this; exact this.trans (lane_d4_1 _ _ _ _).symm
    · have := h3 ⟨2, by decide⟩; simp only [e2, lane_d4_2] at this; exact this.trans (lane_d4_2 _ _ _ _).symm
    · have := h3 ⟨3, by decide⟩; simp only [e3, lane_d4_3] at this; exact this.trans (lane_d4_3 _ _ _ _).symm
  have r4 : (g4R impl (d4 a0 a1 a2 a3) (d4 b0 b1 b2 b3) (d4 c0 c1 c2 c3) (d4 d0 d1 d2 d3) (d4 x0 x1 x2 x3) (d4 y0 y1 y2 y3)).2.2.2 =
      d4 (g4 .s a0 b0 c0 d0 x0 y0).2.2.2 (g4 .s a1 b1 c1 d1 x1 y1).2.2.2 (g4 .s a2 b2 c2 d2 x2 y2).2.2.2 (g4 .s a3 b3 c3 d3 x3 y3).2.2.2 := by
    apply d4_ext
    · have := h4 ⟨0, by decide⟩; simp only [e0, lane_d4_0] at this; exact this.trans (lane_d4_0 _ _ _ _).symm
    · have := h4 ⟨1, by decide⟩; simp only [e1, lane_d4_1] at this; exact this.trans (lane_d4_1 _ _ _ _).symm
    · have := h4 ⟨2, by decide⟩; simp only [e2, lane_d4_2] at this; exact this.trans (lane_d4_2 _ _ _ _).symm
    · have := h4 ⟨3, by decide⟩; simp only [e3, lane_d4_3] at this; exact this.trans (lane_d4_3 _ _ _ _).symm
  simp only [r1, r2, r3, r4]

theorem diag_eq (a0 a1 a2 a3 c0 c1 c2 c3 d0 d1 d2 d3 : BitVec 32) (b : M128) :
    diagonalize ⟨d4 a0 a1 a2 a3, b, d4 c0 c1 c2 c3, d4 d0 d1 d2 d3⟩ =
      ⟨d4 a3 a0 a1 a2, b, d4 c1 c2 c3 c0, d4 d2 d3 d0 d1⟩ := by
  simp [diagonalize, shuffle32_d4]

theorem undiag_eq (a0 a1 a2 a3 c0 c1 c2 c3 d0 d1 d2 d3 : BitVec 32) (b : M128) :
    undiagonalize ⟨d4 a0 a1 a2 a3, b, d4 c0 c1 c2 c3, d4 d0 d1 d2 d3⟩ =
      ⟨d4 a1 a2 a3 a0, b, d4 c3 c0 c1 c2, d4 d2 d3 d0 d1⟩ := by
  simp [undiagonalize, shuffle32_d4]

theorem simdRound_eq (m : Vector (BitVec 32) 16) (s : Vector (Fin 16) 16) (v : Vector (BitVec 32) 16) :
    simdRound (d4 m[s[0]] m[s[2]] m[s[4]] m[s[6]]) (d4 m[s[1]] m[s[3]] m[s[5]] m[s[7]])
      (d4 m[s[14]] m[s[8]] m[s[10]] m[s[12]]) (d4 m[s[15]] m[s[9]] m[s[11]] m[s[13]]) (rowsOf v) =
    rowsOf (roundG4 .s m s v) := by
  rw [simdRound, rowsOf, half_rows, diag_eq, half_rows, undiag_eq]
  rfl

section
variable (w0 w1 w2 w3 w4 w5 w6 w7 w8 w9 w10 w11 w12 w13 w14 w15 : BitVec 32) (v : Vector (BitVec 32) 16)

theorem round1_eq : round1 (d4 w0 w1 w2 w3) (d4 w4 w5 w6 w7) (d4 w8 w9 w10 w11) (d4 w12 w13 w14 w15) (rowsOf v) =
    rowsOf (roundG4 .s #v[w0, w1, w2, w3, w4, w5, w6, w7, w8, w9, w10, w11, w12, w13, w14, w15] (SIGMA .s)[0] v) := by
  rw [← simdRound_eq]
  simp only [round1, mm_castps_si128, mm_castsi128_ps, shuffle_ps_d4, shuffle32_d4, blend_03, blend_0C, blend_0F, blend_30, blend_33, blend_3C, blend_C0, blend_C3, blend_F0, unpacklo32_d4, unpackhi32_d4, unpacklo64_d4, unpackhi64_d4, shufflehi_swap, srli4_d4, srli8_d4, srli12_d4, slli4_d4, slli8_d4, slli12_d4, alignr4_d4, lane_d4_0, lane_d4_1, lane_d4_2, lane_d4_3, Nat.reduceLT]
  rfl

theorem round2_eq : round2 (d4 w0 w1 w2 w3) (d4 w4 w5 w6 w7) (d4 w8 w9 w10 w11) (d4 w12 w13 w14 w15) (rowsOf v) =
    rowsOf (roundG4 .s #v[w0, w1, w2, w3, w4, w5, w6, w7, w8, w9, w10, w11, w12, w13, w14, w15] (SIGMA .s)[1] v) := by
  rw [← simdRound_eq]
  simp only [round2, mm_castps_si128, mm_castsi128_ps, shuffle_ps_d4, shuffle32_d4, blend_03, blend_0C, blend_0F, blend_30, blend_33, blend_3C, blend_C0, blend_C3, blend_F0, unpacklo32_d4, unpackhi32_d4, unpacklo64_d4, unpackhi64_d4, shufflehi_swap, srli4_d4, srli8_d4, srli12_d4, slli4_d4, slli8_d4, slli12_d4, alignr4_d4, lane_d4_0, lane_d4_1, lane_d4_2, lane_d4_3, Nat.reduceLT]
  rfl

theorem round3_eq : round3 (d4 w0 w1 w2 w3) (d4 w4 w5 w6 w7) (d4 w8 w9 w10 w11) (d4 w12 w13 w14 w15) (rowsOf v) =
    rowsOf (roundG4 .s #v[w0, w1, w2, w3, w4, w5, w6, w7, w8, w9, w10, w11, w12, w13, w14, w15] (SIGMA .s)[2] v) := by
  rw [← simdRound_eq]
  simp only [round3, mm_castps_si128, mm_castsi128_ps, shuffle_ps_d4, shuffle32_d4, blend_03, blend_0C, blend_0F, blend_30, blend_33, blend_3C, blend_C0, blend_C3, blend_F0, unpacklo32_d4, unpackhi32_d4, unpacklo64_d4, unpackhi64_d4, shufflehi_swap, srli4_d4, srli8_d4, srli12_d4, slli4_d4, slli8_d4, slli12_d4, alignr4_d4, lane_d4_0, lane_d4_1, lane_d4_2, lane_d4_3, Nat.reduceLT]
  rfl

theorem round4_eq : round4 (d4 w0 w1 w2 w3) (d4 w4 w5 w6 w7) (d4 w8 w9 w10 w11) (d4 w12 w13 w14 w15) (rowsOf v) =
    rowsOf (roundG4 .s #v[w0, w1, w2, w3, w4, w5, w6, w7, w8, w9, w10, w11, w12, w13, w14, w15] (SIGMA .s)[3] v) := by
  rw [← simdRound_eq]
  simp only [round4, mm_castps_si128, mm_castsi128_ps, shuffle_ps_d4, shuffle32_d4, blend_03, blend_0C, blend_0F, blend_30, blend_33, blend_3C, blend_C0, blend_C3, blend_F0, unpacklo32_d4, unpackhi32_d4, unpacklo64_d4, unpackhi64_d4, shufflehi_swap, srli4_d4, srli8_d4, srli12_d4, slli4_d4, slli8_d4, slli12_d4, alignr4_d4, lane_d4_0, lane_d4_1, lane_d4_2, lane_d4_3, Nat.reduceLT]
  rfl

theorem round5_eq : round5 (d4 w0 w1 w2 w3) (d4 w4 w5 w6 w7) (d4 w8 w9 w10 w11) (d4 w12 w13 w14 w15) (rowsOf v) =
    rowsOf (roundG4 .s #v[w0, w1, w2, w3, w4, w5, w6, w7, w8, w9, w10, w11, w12, w13, w14, w15] (SIGMA .s)[4] v) := by
  rw [← simdRound_eq]
  simp only [round5, mm_castps_si128, mm_castsi128_ps, shuffle_ps_d4, shuffle32_d4, blend_03, blend_0C, blend_0F, blend_30, blend_33, blend_3C, blend_C0, blend_C3, blend_F0, unpacklo32_d4, unpackhi32_d4, unpacklo64_d4, unpackhi64_d4, shufflehi_swap, srli4_d4, srli8_d4, srli12_d4, slli4_d4, slli8_d4, slli12_d4, alignr4_d4, lane_d4_0, lane_d4_1, lane_d4_2, lane_d4_3, Nat.reduceLT]
  rfl

theorem round6_eq : round6 (d4 w0 w1 w2 w3) (d4 w4 w5 w6 w7) (d4 w8 w9 w10 w11) (d4 w12 w13 w14 w15) (rowsOf v) =
    rowsOf (roundG4 .s #v[w0, w1, w2, w3, w4, w5, w6, w7, w8, w9, w10, w11, w12, w13, w14, w15] (SIGMA .s)[5] v) := by
  rw [← simdRound_eq]
  simp only [round6, mm_castps_si128, mm_castsi128_ps, shuffle_ps_d4, shuffle32_d4, blend_03, blend_0C, blend_0F, blend_30, blend_33, blend_3C, blend_C0, blend_C3, blend_F0, unpacklo32_d4, unpackhi32_d4, unpacklo64_d4, unpackhi64_d4, shufflehi_swap, srli4_d4, srli8_d4, srli12_d4, slli4_d4, slli8_d4, slli12_d4, alignr4_d4, lane_d4_0, lane_d4_1, lane_d4_2, lane_d4_3, Nat.reduceLT]
  rfl

theorem round7_eq : round7 (d4 w0 w1 w2 w3) (d4 w4 w5 w6 w7) (d4 w8 w9 w10 w11) (d4 w12 w13 w14 w15) (rowsOf v) =
    rowsOf (roundG4 .s #v[w0, w1, w2, w3, w4, w5, w6, w7, w8, w9, w10, w11, w12, w13, w14, w15] (SIGMA .s)[6] v) := by
  rw [← simdRound_eq]
  simp only [round7, mm_castps_si128, mm_castsi128_ps, shuffle_ps_d4, shuffle32_d4, blend_03, blend_0C, blend_0F, blend_30, blend_33, blend_3C, blend_C0, blend_C3, blend_F0, unpacklo32_d4, unpackhi32_d4, unpacklo64_d4, unpackhi64_d4, shufflehi_swap, srli4_d4, srli8_d4, srli12_d4, slli4_d4, slli8_d4, slli12_d4, alignr4_d4, lane_d4_0, lane_d4_1, lane_d4_2, lane_d4_3, Nat.reduceLT]
  rfl

theorem round8_eq : round8 (d4 w0 w1 w2 w3) (d4 w4 w5 w6 w7) (d4 w8 w9 w10 w11) (d4 w12 w13 w14 w15) (rowsOf v) =
    rowsOf (roundG4 .s #v[w0, w1, w2, w3, w4, w5, w6, w7, w8, w9, w10, w11, w12, w13, w14, w15] (SIGMA .s)[7] v) := by
  rw [← simdRound_eq]
  simp only [round8, mm_castps_si128, mm_castsi128_ps, shuffle_ps_d4, shuffle32_d4, blend_03, blend_0C, blend_0F, blend_30, blend_33, blend_3C, blend_C0, blend_C3, blend_F0, unpacklo32_d4, unpackhi32_d4, unpacklo64_d4, unpackhi64_d4, shufflehi_swap, srli4_d4, srli8_d4, srli12_d4, slli4_d4, slli8_d4, slli12_d4, alignr4_d4, lane_d4_0, lane_d4_1, lane_d4_2, lane_d4_3, Nat.reduceLT]
  rfl

theorem round9_eq : round9 (d4 w0 w1 w2 w3) (d4 w4 w5 w6 w7) (d4 w8 w9 w10 w11) (d4 w12 w13 w14 w15) (rowsOf v) =
    rowsOf (roundG4 .s #v[w0, w1, w2, w3, w4, w5, w6, w7, w8, w9, w10, w11, w12, w13, w14, w15] (SIGMA .s)[8] v) := by
  rw [← simdRound_eq]
  simp only [round9, mm_castps_si128, mm_castsi128_ps, shuffle_ps_d4, shuffle32_d4, blend_03, blend_0C, blend_0F, blend_30, blend_33, blend_3C, blend_C0, blend_C3, blend_F0, unpacklo32_d4, unpackhi32_d4, unpacklo64_d4, unpackhi64_d4, shufflehi_swap, srli4_d4, srli8_d4, srli12_d4, slli4_d4, slli8_d4, slli12_d4, alignr4_d4, lane_d4_0, lane_d4_1, lane_d4_2, lane_d4_3, Nat.reduceLT]
  rfl

theorem round10_eq : round10 (d4 w0 w1 w2 w3) (d4 w4 w5 w6 w7) (d4 w8 w9 w10 w11) (d4 w12 w13 w14 w15) (rowsOf v) =
    rowsOf (roundG4 .s #v[w0, w1, w2, w3, w4, w5, w6, w7, w8, w9, w10, w11, w12, w13, w14, w15] (SIGMA .s)[9] v) := by
  rw [← simdRound_eq]
  simp only [round10, mm_castps_si128, mm_castsi128_ps, shuffle_ps_d4, shuffle32_d4, blend_03, blend_0C, blend_0F, blend_30, blend_33, blend_3C, blend_C0, blend_C3, blend_F0, unpacklo32_d4, unpackhi32_d4, unpacklo64_d4, unpackhi64_d4, shufflehi_swap, srli4_d4, srli8_d4, srli12_d4, slli4_d4, slli8_d4, slli12_d4, alignr4_d4, lane_d4_0, lane_d4_1, lane_d4_2, lane_d4_3, Nat.reduceLT]
  rfl
end

theorem rounds_eq (m v : Vector (BitVec 32) 16) :
    rounds (d4 m[0] m[1] m[2] m[3]) (d4 m[4] m[5] m[6] m[7]) (d4 m[8] m[9] m[10] m[11]) (d4 m[12] m[13] m[14] m[15]) (rowsOf v) =
      rowsOf ((Portable.roundNumbers .s).foldl (Portable.round .s m) v) := by
  have e : m = #v[m[0], m[1], m[2], m[3], m[4], m[5], m[6], m[7], m[8], m[9], m[10], m[11], m[12], m[13], m[14], m[15]] := vec16_eta m
  have h : ∀ (v : Vector (BitVec 32) 16) (s : Vector (Fin 16) 16), roundG4 .s m s v =
      roundG4 .s #v[m[0], m[1], m[2], m[3], m[4], m[5], m[6], m[7], m[8], m[9], m[10], m[11], m[12], m[13], m[14], m[15]] s v := fun v s => by rw [← e]
  simp only [rounds, round1_eq, round2_eq, round3_eq, round4_eq, round5_eq, round6_eq, round7_eq, round8_eq, round9_eq, round10_eq]
  simp only [Portable.roundNumbers, List.foldl_cons, List.foldl_nil, portable_round_eq, h]
  rfl

theorem loadBlock_eq (block : List Byte) (k : Nat) :
    loadBlock block k = d4 (fromLE 32 ((block.drop ((4 * k + 0) * 4)).take 4)) (fromLE 32 ((block.drop ((4 * k + 1) * 4)).take 4))
      (fromLE 32 ((block.drop ((4 * k + 2) * 4)).take 4)) (fromLE 32 ((block.drop ((4 * k + 3) * 4)).take 4)) := by
  rw [d4_eta (loadBlock block k), loadBlock_lane _ _ _ (by omega), loadBlock_lane _ _ _ (by omega),
    loadBlock_lane _ _ _ (by omega), loadBlock_lane _ _ _ (by omega)]

theorem rounds_block (block : List Byte) (v : Vector (BitVec 32) 16) :
    rounds (loadBlock block 0) (loadBlock block 1) (loadBlock block 2) (loadBlock block 3) (rowsOf v) =
      rowsOf ((Portable.roundNumbers .s).foldl (Portable.round .s (Portable.msgWords .s block)) v) := by
  rw [← rounds_eq]
  simp only [loadBlock_eq]
  rfl

theorem xor_regs (a0 a1 a2 a3 b0 b1 b2 b3 : BitVec 32) :
    xor (d4 a0 a1 a2 a3) (d4 b0 b1 b2 b3) = d4 (a0 ^^^ b0) (a1 ^^^ b1) (a2 ^^^ b2) (a3 ^^^ b3) := by
  have h := fun i => laws.xor i (d4 a0 a1 a2 a3) (d4 b0 b1 b2 b3)
  apply d4_ext
  · have := h ⟨0, by decide⟩; simp only [ln_0, lane_d4_0] at this; exact this.trans (lane_d4_0 _ _ _ _).symm
  · have := h ⟨1, by decide⟩; simp only [ln_1, lane_d4_1] at this; exact this.trans (lane_d4_1 _ _ _ _).symm
  · have := h ⟨2, by decide⟩; simp only [ln_2, lane_d4_2] at this; exact this.trans (lane_d4_2 _ _ _ _).symm
  · have := h ⟨3, by decide⟩; simp only [ln_3, lane_d4_3] at this; exact this.trans (lane_d4_3 _ _ _ _).symm

theorem storeu_regs (a0 a1 a2 a3 b0 b1 b2 b3 : BitVec 32) :
    storeu (d4 a0 a1 a2 a3) ++ storeu (d4 b0 b1 b2 b3) = #v[a0, a1, a2, a3, b0, b1, b2, b3] := by
  simp only [storeu, lane_d4_0, lane_d4_1, lane_d4_2, lane_d4_3]; rfl

theorem setN_regs (a0 a1 a2 a3 : BitVec 32) : setN #v[a0, a1, a2, a3] = d4 a0 a1 a2 a3 := rfl

/-- The SIMD `compress_block` is the portable one, for every input. -/
theorem compressBlock_eq : compressBlock = Portable.compressBlock .s := by
  funext block words count lastBlock lastNode
  rw [portable_compressWords, compressWords]
  simp only [compressBlock, loadu_eq, setN_regs, xor_regs]
  have h := rounds_block block #v[words[0], words[1], words[2], words[3], words[4], words[5], words[6], words[7],
    (IV .s)[0], (IV .s)[1], (IV .s)[2], (IV .s)[3],
    (IV .s)[4] ^^^ countLow .s count, (IV .s)[5] ^^^ countHigh .s count, (IV .s)[6] ^^^ lastBlock, (IV .s)[7] ^^^ lastNode]
  simp only [rowsOf] at h
  erw [h]
  generalize (Portable.roundNumbers .s).foldl _ _ = r
  simp only [xor_regs, storeu_regs, feedForward]
  try simp
  try exact ⟨BitVec.xor_comm _ _, BitVec.xor_comm _ _, BitVec.xor_comm _ _, BitVec.xor_comm _ _,
    BitVec.xor_comm _ _, BitVec.xor_comm _ _, BitVec.xor_comm _ _, BitVec.xor_comm _ _⟩

end Blake2.SSse41
