import Verif.Proofs.BAvx2Laws
/-! # The single-block `compress_block` of BAvx2 computes the same function as the portable one -/
namespace Blake2.BAvx2
open X86
set_option linter.unusedSimpArgs false

/-- One round with its four message vectors already gathered. -/
def simdRound (x1 y1 x2 y2 : M256) (v : Rows) : Rows :=
  undiagonalize (g2 (g1 (diagonalize (g2 (g1 v x1) y1)) x2) y2)

/-- The rows holding a state of sixteen words. -/
def rowsOf (v : Vector (BitVec 64) 16) : Rows :=
  ⟨q4 v[0] v[1] v[2] v[3], q4 v[4] v[5] v[6] v[7], q4 v[8] v[9] v[10] v[11], q4 v[12] v[13] v[14] v[15]⟩

theorem half_eq (v : Rows) (x y : M256) :
    g2 (g1 v x) y = (let q := g4R impl v.a v.b v.c v.d x y; ⟨q.1, q.2.1, q.2.2.1, q.2.2.2⟩) := rfl

theorem half_rows (a0 a1 a2 a3 b0 b1 b2 b3 c0 c1 c2 c3 d0 d1 d2 d3 x0 x1 x2 x3 y0 y1 y2 y3 : BitVec 64) :
    g2 (g1 ⟨q4 a0 a1 a2 a3, q4 b0 b1 b2 b3, q4 c0 c1 c2 c3, q4 d0 d1 d2 d3⟩ (q4 x0 x1 x2 x3)) (q4 y0 y1 y2 y3) =
      ⟨q4 (g4 .b a0 b0 c0 d0 x0 y0).1 (g4 .b a1 b1 c1 d1 x1 y1).1 (g4 .b a2 b2 c2 d2 x2 y2).1 (g4 .b a3 b3 c3 d3 x3 y3).1,
       q4 (g4 .b a0 b0 c0 d0 x0 y0).2.1 (g4 .b a1 b1 c1 d1 x1 y1).2.1 (g4 .b a2 b2 c2 d2 x2 y2).2.1 (g4 .b a3 b3 c3 d3 x3 y3).2.1,
       q4 (g4 .b a0 b0 c0 d0 x0 y0).2.2.1 (g4 .b a1 b1 c1 d1 x1 y1).2.2.1 (g4 .b a2 b2 c2 d2 x2 y2).2.2.1 (g4 .b a3 b3 c3 d3 x3 y3).2.2.1,
       q4 (g4 .b a0 b0 c0 d0 x0 y0).2.2.2 (g4 .b a1 b1 c1 d1 x1 y1).2.2.2 (g4 .b a2 b2 c2 d2 x2 y2).2.2.2 (g4 .b a3 b3 c3 d3 x3 y3).2.2.2⟩ := by
  rw [half_eq]
  have h1 := fun i => g4R_lane1 laws i (q4 a0 a1 a2 a3) (q4 b0 b1 b2 b3) (q4 c0 c1 c2 c3) (q4 d0 d1 d2 d3) (q4 x0 x1 x2 x3) (q4 y0 y1 y2 y3)
  have h2 := fun i => g4R_lane2 laws i (q4 a0 a1 a2 a3) (q4 b0 b1 b2 b3) (q4 c0 c1 c2 c3) (q4 d0 d1 d2 d3) (q4 x0 x1 x2 x3) (q4 y0 y1 y2 y3)
  have h3 := fun i => g4R_lane3 laws i (q4 a0 a1 a2 a3) (q4 b0 b1 b2 b3) (q4 c0 c1 c2 c3) (q4 d0 d1 d2 d3) (q4 x0 x1 x2 x3) (q4 y0 y1 y2 y3)
  have h4 := fun i => g4R_lane4 laws i (q4 a0 a1 a2 a3) (q4 b0 b1 b2 b3) (q4 c0 c1 c2 c3) (q4 d0 d1 d2 d3) (q4 x0 x1 x2 x3) (q4 y0 y1 y2 y3)
  have e0 := fun x => ln_0 (by decide) x
  have e1 := fun x => ln_1 (by decide) x
  have e2 := fun x => ln_2 (by decide) x
  have e3 := fun x => ln_3 (by decide) x
  have r1 : (g4R impl (q4 a0 a1 a2 a3) (q4 b0 b1 b2 b3) (q4 c0 c1 c2 c3) (q4 d0 d1 d2 d3) (q4 x0 x1 x2 x3) (q4 y0 y1 y2 y3)).1 =
      q4 (g4 .b a0 b0 c0 d0 x0 y0).1 (g4 .b a1 b1 c1 d1 x1 y1).1 (g4 .b a2 b2 c2 d2 x2 y2).1 (g4 .b a3 b3 c3 d3 x3 y3).1 := by
    apply q4_ext
    · have := h1 ⟨0, by decide⟩; simp only [e0, lane_q4_0] at this; exact this.trans (lane_q4_0 _ _ _ _).symm
    · have := h1 ⟨1, by decide⟩; simp only [e1, lane_q4_1] at this; exact this.trans (lane_q4_1 _ _ _ _).symm
    · have := h1 ⟨2, by decide⟩; simp only [e2, lane_q4_2] at this; exact this.trans (lane_q4_2 _ _ _ _).symm
    · have := h1 ⟨3, by decide⟩; simp only [e3, lane_q4_3] at this; exact this.trans (lane_q4_3 _ _ _ _).symm
  have r2 : (g4R impl (q4 a0 a1 a2 a3) (q4 b0 b1 b2 b3) (q4 c0 c1 c2 c3) (q4 d0 d1 d2 d3) (q4 x0 x1 x2 x3) (q4 y0 y1 y2 y3)).2.1 =
      q4 (g4 .b a0 b0 c0 d0 x0 y0).2.1 (g4 .b a1 b1 c1 d1 x1 y1).2.1 (g4 .b a2 b2 c2 d2 x2 y2).2.1 (g4 .b a3 b3 c3 d3 x3 y3).2.1 := by
    apply q4_ext
    · have := h2 ⟨0, by decide⟩; simp only [e0, lane_q4_0] at this; exact this.trans (lane_q4_0 _ _ _ _).symm
    · have := h2 ⟨1, by decide⟩; simp only [e1, lane_q4_1] at this; exact this.trans (lane_q4_1 _ _ _ _).symm
    · have := h2 ⟨2, by decide⟩; simp only [e2, lane_q4_2] at this; exact this.trans (lane_q4_2 _ _ _ _).symm
    · have := h2 ⟨3, by decide⟩; simp only [e3, lane_q4_3] at this; exact this.trans (lane_q4_3 _ _ _ _).symm
  have r3 : (g4R impl (q4 a0 a1 a2 a3) (q4 b0 b1 b2 b3) (q4 c0 c1 c2 c3) (q4 d0 d1 d2 d3) (q4 x0 x1 x2 x3) (q4 y0 y1 y2 y3)).2.2.1 =
      q4 (g4 .b a0 b0 c0 d0 x0 y0).2.2.1 (g4 .b a1 b1 c1 d1 x1 y1).2.2.1 (g4 .b a2 b2 c2 d2 x2 y2).2.2.1 (g4 .b a3 b3 c3 d3 x3 y3).2.2.1 := by
    apply q4_ext
    · have := h3 ⟨0, by decide⟩; simp only [e0, lane_q4_0] at this; exact this.trans (lane_q4_0 _ _ _ _).symm
    · have := h3 ⟨1, by decide⟩; simp only [e1, lane_q4_1] at this; exact this.trans (lane_q4_1 _ _ _ _).symm
    · have := h3 ⟨2, by decide⟩; simp only [e2, lane_q4_2] at this; exact this.trans (lane_q4_2 _ _ _ _).symm
    · have := h3 ⟨3, by decide⟩; simp only [e3, lane_q4_3] at this; exact this.trans (lane_q4_3 _ _ _ _).symm
  have r4 : (g4R impl (q4 a0 a1 a2 a3) (q4 b0 b1 b2 b3) (q4 c0 c1 c2 c3) (q4 d0 d1 d2 d3) (q4 x0 x1 x2 x3) (q4 y0 y1 y2 y3)).2.2.2 =
      q4 (g4 .b a0 b0 c0 d0 x0 y0).2.2.2 (g4 .b a1 b1 c1 d1 x1 y1).2.2.2 (g4 .b a2 b2 c2 d2 x2 y2).2.2.2 (g4 .b a3 b3 c3 d3 x3 y3).2.2.2 := by
    apply q4_ext
    · have := h4 ⟨0, by decide⟩; simp only [e0, lane_q4_0] at this; exact this.trans (lane_q4_0 _ _ _ _).symm
    · have := h4 ⟨1, by decide⟩; simp only [e1, lane_q4_1] at this; exact this.trans (lane_q4_1 _ _ _ _).symm
    · have := h4 ⟨2, by decide⟩; simp only [e2, lane_q4_2] at this; exact this.trans (lane_q4_2 _ _ _ _).symm
    · have := h4 ⟨3, by decide⟩; simp only [e3, lane_q4_3] at this; exact this.trans (lane_q4_3 _ _ _ _).symm
  simp only [r1, r2, r3, r4]

theorem diag_eq (a0 a1 a2 a3 c0 c1 c2 c3 d0 d1 d2 d3 : BitVec 64) (b : M256) :
    diagonalize ⟨q4 a0 a1 a2 a3, b, q4 c0 c1 c2 c3, q4 d0 d1 d2 d3⟩ =
      ⟨q4 a3 a0 a1 a2, b, q4 c1 c2 c3 c0, q4 d2 d3 d0 d1⟩ := by
  simp [diagonalize, permute4x64_q4]

theorem undiag_eq (a0 a1 a2 a3 c0 c1 c2 c3 d0 d1 d2 d3 : BitVec 64) (b : M256) :
    undiagonalize ⟨q4 a0 a1 a2 a3, b, q4 c0 c1 c2 c3, q4 d0 d1 d2 d3⟩ =
      ⟨q4 a1 a2 a3 a0, b, q4 c3 c0 c1 c2, q4 d2 d3 d0 d1⟩ := by
  simp [undiagonalize, permute4x64_q4]

theorem simdRound_eq (m : Vector (BitVec 64) 16) (s : Vector (Fin 16) 16) (v : Vector (BitVec 64) 16) :
    simdRound (q4 m[s[0]] m[s[2]] m[s[4]] m[s[6]]) (q4 m[s[1]] m[s[3]] m[s[5]] m[s[7]])
      (q4 m[s[14]] m[s[8]] m[s[10]] m[s[12]]) (q4 m[s[15]] m[s[9]] m[s[11]] m[s[13]]) (rowsOf v) =
    rowsOf (roundG4 .b m s v) := by
  rw [simdRound, rowsOf, half_rows, diag_eq, half_rows, undiag_eq]
  rfl

section
variable (w0 w1 w2 w3 w4 w5 w6 w7 w8 w9 w10 w11 w12 w13 w14 w15 : BitVec 64) (v : Vector (BitVec 64) 16)

theorem round1_eq : round1 (q4 w0 w1 w0 w1) (q4 w2 w3 w2 w3) (q4 w4 w5 w4 w5) (q4 w6 w7 w6 w7) (q4 w8 w9 w8 w9) (q4 w10 w11 w10 w11) (q4 w12 w13 w12 w13) (q4 w14 w15 w14 w15) (rowsOf v) =
    rowsOf (roundG4 .b #v[w0, w1, w2, w3, w4, w5, w6, w7, w8, w9, w10, w11, w12, w13, w14, w15] (SIGMA .b)[0] v) := by
  rw [← simdRound_eq]
  simp only [round1, unpacklo64_q4, unpackhi64_q4, blend32_F0, blend32_33, alignr8_q4, shuffle32_swap_q4]
  rfl

theorem round2_eq : round2 (q4 w0 w1 w0 w1) (q4 w2 w3 w2 w3) (q4 w4 w5 w4 w5) (q4 w6 w7 w6 w7) (q4 w8 w9 w8 w9) (q4 w10 w11 w10 w11) (q4 w12 w13 w12 w13) (q4 w14 w15 w14 w15) (rowsOf v) =
    rowsOf (roundG4 .b #v[w0, w1, w2, w3, w4, w5, w6, w7, w8, w9, w10, w11, w12, w13, w14, w15] (SIGMA .b)[1] v) := by
  rw [← simdRound_eq]
  simp only [round2, unpacklo64_q4, unpackhi64_q4, blend32_F0, blend32_33, alignr8_q4, shuffle32_swap_q4]
  rfl

theorem round3_eq : round3 (q4 w0 w1 w0 w1) (q4 w2 w3 w2 w3) (q4 w4 w5 w4 w5) (q4 w6 w7 w6 w7) (q4 w8 w9 w8 w9) (q4 w10 w11 w10 w11) (q4 w12 w13 w12 w13) (q4 w14 w15 w14 w15) (rowsOf v) =
    rowsOf (roundG4 .b #v[w0, w1, w2, w3, w4, w5, w6, w7, w8, w9, w10, w11, w12, w13, w14, w15] (SIGMA .b)[2] v) := by
  rw [← simdRound_eq]
  simp only [round3, unpacklo64_q4, unpackhi64_q4, blend32_F0, blend32_33, alignr8_q4, shuffle32_swap_q4]
  rfl

theorem round4_eq : round4 (q4 w0 w1 w0 w1) (q4 w2 w3 w2 w3) (q4 w4 w5 w4 w5) (q4 w6 w7 w6 w7) (q4 w8 w9 w8 w9) (q4 w10 w11 w10 w11) (q4 w12 w13 w12 w13) (q4 w14 w15 w14 w15) (rowsOf v) =
    rowsOf (roundG4 .b #v[w0, w1, w2, w3, w4, w5, w6, w7, w8, w9, w10, w11, w12, w13, w14, w15] (SIGMA .b)[3] v) := by
  rw [← simdRound_eq]
  simp only [round4, unpacklo64_q4, unpackhi64_q4, blend32_F0, blend32_33, alignr8_q4, shuffle32_swap_q4]
  rfl

theorem round5_eq : round5 (q4 w0 w1 w0 w1) (q4 w2 w3 w2 w3) (q4 w4 w5 w4 w5) (q4 w6 w7 w6 w7) (q4 w8 w9 w8 w9) (q4 w10 w11 w10 w11) (q4 w12 w13 w12 w13) (q4 w14 w15 w14 w15) (rowsOf v) =
    rowsOf (roundG4 .b #v[w0, w1, w2, w3, w4, w5, w6, w7, w8, w9, w10, w11, w12, w13, w14, w15] (SIGMA .b)[4] v) := by
  rw [← simdRound_eq]
  simp only [round5, unpacklo64_q4, unpackhi64_q4, blend32_F0, blend32_33, alignr8_q4, shuffle32_swap_q4]
  rfl

theorem round6_eq : round6 (q4 w0 w1 w0 w1) (q4 w2 w3 w2 w3) (q4 w4 w5 w4 w5) (q4 w6 w7 w6 w7) (q4 w8 w9 w8 w9) (q4 w10 w11 w10 w11) (q4 w12 w13 w12 w13) (q4 w14 w15 w14 w15) (rowsOf v) =
    rowsOf (roundG4 .b #v[w0, w1, w2, w3, w4, w5, w6, w7, w8, w9, w10, w11, w12, w13, w14, w15] (SIGMA .b)[5] v) := by
  rw [← simdRound_eq]
  simp only [round6, unpacklo64_q4, unpackhi64_q4, blend32_F0, blend32_33, alignr8_q4, shuffle32_swap_q4]
  rfl

theorem round7_eq : round7 (q4 w0 w1 w0 w1) (q4 w2 w3 w2 w3) (q4 w4 w5 w4 w5) (q4 w6 w7 w6 w7) (q4 w8 w9 w8 w9) (q4 w10 w11 w10 w11) (q4 w12 w13 w12 w13) (q4 w14 w15 w14 w15) (rowsOf v) =
    rowsOf (roundG4 .b #v[w0, w1, w2, w3, w4, w5, w6, w7, w8, w9, w10, w11, w12, w13, w14, w15] (SIGMA .b)[6] v) := by
  rw [← simdRound_eq]
  simp only [round7, unpacklo64_q4, unpackhi64_q4, blend32_F0, blend32_33, alignr8_q4, shuffle32_swap_q4]
  rfl

theorem round8_eq : round8 (q4 w0 w1 w0 w1) (q4 w2 w3 w2 w3) (q4 w4 w5 w4 w5) (q4 w6 w7 w6 w7) (q4 w8 w9 w8 w9) (q4 w10 w11 w10 w11) (q4 w12 w13 w12 w13) (q4 w14 w15 w14 w15) (rowsOf v) =
    rowsOf (roundG4 .b #v[w0, w1, w2, w3, w4, w5, w6, w7, w8, w9, w10, w11, w12, w13, w14, w15] (SIGMA .b)[7] v) := by
  rw [← simdRound_eq]
  simp only [round8, unpacklo64_q4, unpackhi64_q4, blend32_F0, blend32_33, alignr8_q4, shuffle32_swap_q4]
  rfl

theorem round9_eq : round9 (q4 w0 w1 w0 w1) (q4 w2 w3 w2 w3) (q4 w4 w5 w4 w5) (q4 w6 w7 w6 w7) (q4 w8 w9 w8 w9) (q4 w10 w11 w10 w11) (q4 w12 w13 w12 w13) (q4 w14 w15 w14 w15) (rowsOf v) =
    rowsOf (roundG4 .b #v[w0, w1, w2, w3, w4, w5, w6, w7, w8, w9, w10, w11, w12, w13, w14, w15] (SIGMA .b)[8] v) := by
  rw [← simdRound_eq]
  simp only [round9, unpacklo64_q4, unpackhi64_q4, blend32_F0, blend32_33, alignr8_q4, shuffle32_swap_q4]
  rfl

theorem round10_eq : round10 (q4 w0 w1 w0 w1) (q4 w2 w3 w2 w3) (q4 w4 w5 w4 w5) (q4 w6 w7 w6 w7) (q4 w8 w9 w8 w9) (q4 w10 w11 w10 w11) (q4 w12 w13 w12 w13) (q4 w14 w15 w14 w15) (rowsOf v) =
    rowsOf (roundG4 .b #v[w0, w1, w2, w3, w4, w5, w6, w7, w8, w9, w10, w11, w12, w13, w14, w15] (SIGMA .b)[9] v) := by
  rw [← simdRound_eq]
  simp only [round10, unpacklo64_q4, unpackhi64_q4, blend32_F0, blend32_33, alignr8_q4, shuffle32_swap_q4]
  rfl

theorem round11_eq : round11 (q4 w0 w1 w0 w1) (q4 w2 w3 w2 w3) (q4 w4 w5 w4 w5) (q4 w6 w7 w6 w7) (q4 w8 w9 w8 w9) (q4 w10 w11 w10 w11) (q4 w12 w13 w12 w13) (q4 w14 w15 w14 w15) (rowsOf v) =
    rowsOf (roundG4 .b #v[w0, w1, w2, w3, w4, w5, w6, w7, w8, w9, w10, w11, w12, w13, w14, w15] (SIGMA .b)[10] v) := by
  rw [← simdRound_eq]
  simp only [round11, unpacklo64_q4, unpackhi64_q4, blend32_F0, blend32_33, alignr8_q4, shuffle32_swap_q4]
  rfl

theorem round12_eq : round12 (q4 w0 w1 w0 w1) (q4 w2 w3 w2 w3) (q4 w4 w5 w4 w5) (q4 w6 w7 w6 w7) (q4 w8 w9 w8 w9) (q4 w10 w11 w10 w11) (q4 w12 w13 w12 w13) (q4 w14 w15 w14 w15) (rowsOf v) =
    rowsOf (roundG4 .b #v[w0, w1, w2, w3, w4, w5, w6, w7, w8, w9, w10, w11, w12, w13, w14, w15] (SIGMA .b)[11] v) := by
  rw [← simdRound_eq]
  simp only [round12, unpacklo64_q4, unpackhi64_q4, blend32_F0, blend32_33, alignr8_q4, shuffle32_swap_q4]
  rfl
end

theorem rounds_eq (m v : Vector (BitVec 64) 16) :
    rounds (q4 m[0] m[1] m[0] m[1]) (q4 m[2] m[3] m[2] m[3]) (q4 m[4] m[5] m[4] m[5]) (q4 m[6] m[7] m[6] m[7]) (q4 m[8] m[9] m[8] m[9]) (q4 m[10] m[11] m[10] m[11]) (q4 m[12] m[13] m[12] m[13]) (q4 m[14] m[15] m[14] m[15]) (rowsOf v) =
      rowsOf ((Portable.roundNumbers .b).foldl (Portable.round .b m) v) := by
  have e : m = #v[m[0], m[1], m[2], m[3], m[4], m[5], m[6], m[7], m[8], m[9], m[10], m[11], m[12], m[13], m[14], m[15]] := vec16_eta m
  have h : ∀ (v : Vector (BitVec 64) 16) (s : Vector (Fin 16) 16), roundG4 .b m s v =
      roundG4 .b #v[m[0], m[1], m[2], m[3], m[4], m[5], m[6], m[7], m[8], m[9], m[10], m[11], m[12], m[13], m[14], m[15]] s v := fun v s => by rw [← e]
  simp only [rounds, round1_eq, round2_eq, round3_eq, round4_eq, round5_eq, round6_eq, round7_eq, round8_eq, round9_eq, round10_eq, round11_eq, round12_eq]
  simp only [Portable.roundNumbers, List.foldl_cons, List.foldl_nil, portable_round_eq, h]
  rfl

theorem msgChunk_eq (block : List Byte) (k : Nat) :
    msgChunk block k = q4 (fromLE 64 ((block.drop (2 * k * 8)).take 8)) (fromLE 64 ((block.drop ((2 * k + 1) * 8)).take 8))
      (fromLE 64 ((block.drop (2 * k * 8)).take 8)) (fromLE 64 ((block.drop ((2 * k + 1) * 8)).take 8)) := by
  rw [msgChunk, q2_eta (mm_loadu_si128 _), broadcast_q2, mm_loadu_si128,
    lane_leNat _ 8 0 rfl (by omega), lane_leNat _ 8 1 rfl (by omega)]
  have e0 : (((block.drop (16 * k)).take 16).drop (8 * 0)).take 8 = (block.drop (2 * k * 8)).take 8 := by
    rw [List.drop_take, List.drop_drop, List.take_take]; congr 2; omega
  have e1 : (((block.drop (16 * k)).take 16).drop (8 * 1)).take 8 = (block.drop ((2 * k + 1) * 8)).take 8 := by
    rw [List.drop_take, List.drop_drop, List.take_take]; congr 2; omega
  rw [e0, e1]

theorem rounds_block (block : List Byte) (v : Vector (BitVec 64) 16) :
    rounds (msgChunk block 0) (msgChunk block 1) (msgChunk block 2) (msgChunk block 3) (msgChunk block 4) (msgChunk block 5) (msgChunk block 6) (msgChunk block 7) (rowsOf v) =
      rowsOf ((Portable.roundNumbers .b).foldl (Portable.round .b (Portable.msgWords .b block)) v) := by
  rw [← rounds_eq]
  simp only [msgChunk_eq]
  rfl

theorem xor_regs (a0 a1 a2 a3 b0 b1 b2 b3 : BitVec 64) :
    xor (q4 a0 a1 a2 a3) (q4 b0 b1 b2 b3) = q4 (a0 ^^^ b0) (a1 ^^^ b1) (a2 ^^^ b2) (a3 ^^^ b3) := by
  have h := fun i => laws.xor i (q4 a0 a1 a2 a3) (q4 b0 b1 b2 b3)
  apply q4_ext
  · have := h ⟨0, by decide⟩; simp only [ln_0, lane_q4_0] at this; exact this.trans (lane_q4_0 _ _ _ _).symm
  · have := h ⟨1, by decide⟩; simp only [ln_1, lane_q4_1] at this; exact this.trans (lane_q4_1 _ _ _ _).symm
  · have := h ⟨2, by decide⟩; simp only [ln_2, lane_q4_2] at this; exact this.trans (lane_q4_2 _ _ _ _).symm
  · have := h ⟨3, by decide⟩; simp only [ln_3, lane_q4_3] at this; exact this.trans (lane_q4_3 _ _ _ _).symm

theorem storeu_regs (a0 a1 a2 a3 b0 b1 b2 b3 : BitVec 64) :
    storeu (q4 a0 a1 a2 a3) ++ storeu (q4 b0 b1 b2 b3) = #v[a0, a1, a2, a3, b0, b1, b2, b3] := by
  simp only [storeu, lane_q4_0, lane_q4_1, lane_q4_2, lane_q4_3]; rfl

theorem setN_regs (a0 a1 a2 a3 : BitVec 64) : setN #v[a0, a1, a2, a3] = q4 a0 a1 a2 a3 := rfl

/-- The SIMD `compress_block` is the portable one, for every input. -/
theorem compressBlock_eq : compressBlock = Portable.compressBlock .b := by
  funext block words count lastBlock lastNode
  rw [portable_compressWords, compressWords]
  simp only [compressBlock, loadu_eq, setN_regs, xor_regs]
  have h := rounds_block block #v[words[0], words[1], words[2], words[3], words[4], words[5], words[6], words[7],
    (IV .b)[0], (IV .b)[1], (IV .b)[2], (IV .b)[3],
    (IV .b)[4] ^^^ countLow .b count, (IV .b)[5] ^^^ countHigh .b count, (IV .b)[6] ^^^ lastBlock, (IV .b)[7] ^^^ lastNode]
  simp only [rowsOf] at h
  erw [h]
  generalize (Portable.roundNumbers .b).foldl _ _ = r
  simp only [xor_regs, storeu_regs, feedForward]
  try simp
  try exact ⟨BitVec.xor_comm _ _, BitVec.xor_comm _ _, BitVec.xor_comm _ _, BitVec.xor_comm _ _,
    BitVec.xor_comm _ _, BitVec.xor_comm _ _, BitVec.xor_comm _ _, BitVec.xor_comm _ _⟩

end Blake2.BAvx2
