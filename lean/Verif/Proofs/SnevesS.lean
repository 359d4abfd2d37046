import Verif.Proofs.SnevesTree
/-! # The single compression of blake2sp.c is the compression of BLAKE2s -/
namespace Blake2.SnevesSp
open X86 Sneves
open SSse41 (Rows rowsOf blend_03 blend_0C blend_0F blend_30 blend_33 blend_3C blend_C0 blend_C3 blend_F0)
set_option linter.unusedSimpArgs false

theorem g1_eq : g1 = SSse41.g1 := by
  funext v m
  show (⟨_, rot12128 _, _, rot16128 _⟩ : Rows) = _
  rw [rot12128_eq, rot16128_eq]; rfl
theorem g2_eq : g2 = SSse41.g2 := by
  funext v m
  show (⟨_, rot7128 _, _, rot8128 _⟩ : Rows) = _
  rw [rot7128_eq, rot8128_eq]; rfl

theorem diag_eq (b0 b1 b2 b3 c0 c1 c2 c3 d0 d1 d2 d3 : BitVec 32) (a : M128) :
    diag ⟨a, d4 b0 b1 b2 b3, d4 c0 c1 c2 c3, d4 d0 d1 d2 d3⟩ = ⟨a, d4 b1 b2 b3 b0, d4 c2 c3 c0 c1, d4 d3 d0 d1 d2⟩ := by
  simp [diag, shuffle32_d4]
theorem undiag_eq (b0 b1 b2 b3 c0 c1 c2 c3 d0 d1 d2 d3 : BitVec 32) (a : M128) :
    undiag ⟨a, d4 b0 b1 b2 b3, d4 c0 c1 c2 c3, d4 d0 d1 d2 d3⟩ = ⟨a, d4 b3 b0 b1 b2, d4 c2 c3 c0 c1, d4 d1 d2 d3 d0⟩ := by
  simp [undiag, shuffle32_d4]

theorem roundV1_eq (m : Vector (BitVec 32) 16) (s : Vector (Fin 16) 16) (v : Vector (BitVec 32) 16) :
    roundV1 (d4 m[s[0]] m[s[2]] m[s[4]] m[s[6]]) (d4 m[s[1]] m[s[3]] m[s[5]] m[s[7]])
      (d4 m[s[8]] m[s[10]] m[s[12]] m[s[14]]) (d4 m[s[9]] m[s[11]] m[s[13]] m[s[15]]) (rowsOf v) =
    rowsOf (roundG4 .s m s v) := by
  have h : ∀ b1 b2 b3 b4 v, roundV1 b1 b2 b3 b4 v = undiag (SSse41.g2 (SSse41.g1 (diag (SSse41.g2 (SSse41.g1 v b1) b2)) b3) b4) := by
    intro b1 b2 b3 b4 v
    rw [← g1_eq, ← g2_eq]; rfl
  rw [h, rowsOf, SSse41.half_rows, diag_eq, SSse41.half_rows, undiag_eq]
  rfl

section
variable (w0 w1 w2 w3 w4 w5 w6 w7 w8 w9 w10 w11 w12 w13 w14 w15 : BitVec 32) (v : Vector (BitVec 32) 16)

theorem round_0 : roundV1 (loadMsg_0_1 (d4 w0 w1 w2 w3) (d4 w4 w5 w6 w7) (d4 w8 w9 w10 w11) (d4 w12 w13 w14 w15))
      (loadMsg_0_2 (d4 w0 w1 w2 w3) (d4 w4 w5 w6 w7) (d4 w8 w9 w10 w11) (d4 w12 w13 w14 w15))
      (loadMsg_0_3 (d4 w0 w1 w2 w3) (d4 w4 w5 w6 w7) (d4 w8 w9 w10 w11) (d4 w12 w13 w14 w15))
      (loadMsg_0_4 (d4 w0 w1 w2 w3) (d4 w4 w5 w6 w7) (d4 w8 w9 w10 w11) (d4 w12 w13 w14 w15)) (rowsOf v) =
    rowsOf (roundG4 .s #v[w0, w1, w2, w3, w4, w5, w6, w7, w8, w9, w10, w11, w12, w13, w14, w15] (SIGMA .s)[0] v) := by
  rw [← roundV1_eq]
  simp only [loadMsg_0_1, loadMsg_0_2, loadMsg_0_3, loadMsg_0_4, mm_castps_si128, mm_castsi128_ps, shuffle_ps_d4, shuffle32_d4, blend_03, blend_0C, blend_0F, blend_30, blend_33, blend_3C, blend_C0, blend_C3, blend_F0, unpacklo32_d4, unpackhi32_d4, unpacklo64_d4, unpackhi64_d4, shufflehi_swap, srli4_d4, srli8_d4, srli12_d4, slli4_d4, slli8_d4, slli12_d4, alignr4_d4, lane_d4_0, lane_d4_1, lane_d4_2, lane_d4_3, Nat.reduceLT]
  rfl

theorem round_1 : roundV1 (loadMsg_1_1 (d4 w0 w1 w2 w3) (d4 w4 w5 w6 w7) (d4 w8 w9 w10 w11) (d4 w12 w13 w14 w15))
      (loadMsg_1_2 (d4 w0 w1 w2 w3) (d4 w4 w5 w6 w7) (d4 w8 w9 w10 w11) (d4 w12 w13 w14 w15))
      (loadMsg_1_3 (d4 w0 w1 w2 w3) (d4 w4 w5 w6 w7) (d4 w8 w9 w10 w11) (d4 w12 w13 w14 w15))
      (loadMsg_1_4 (d4 w0 w1 w2 w3) (d4 w4 w5 w6 w7) (d4 w8 w9 w10 w11) (d4 w12 w13 w14 w15)) (rowsOf v) =
    rowsOf (roundG4 .s #v[w0, w1, w2, w3, w4, w5, w6, w7, w8, w9, w10, w11, w12, w13, w14, w15] (SIGMA .s)[1] v) := by
  rw [← roundV1_eq]
  simp only [loadMsg_1_1, loadMsg_1_2, loadMsg_1_3, loadMsg_1_4, mm_castps_si128, mm_castsi128_ps, shuffle_ps_d4, shuffle32_d4, blend_03, blend_0C, blend_0F, blend_30, blend_33, blend_3C, blend_C0, blend_C3, blend_F0, unpacklo32_d4, unpackhi32_d4, unpacklo64_d4, unpackhi64_d4, shufflehi_swap, srli4_d4, srli8_d4, srli12_d4, slli4_d4, slli8_d4, slli12_d4, alignr4_d4, lane_d4_0, lane_d4_1, lane_d4_2, lane_d4_3, Nat.reduceLT]
  rfl

theorem round_2 : roundV1 (loadMsg_2_1 (d4 w0 w1 w2 w3) (d4 w4 w5 w6 w7) (d4 w8 w9 w10 w11) (d4 w12 w13 w14 w15))
      (loadMsg_2_2 (d4 w0 w1 w2 w3) (d4 w4 w5 w6 w7) (d4 w8 w9 w10 w11) (d4 w12 w13 w14 w15))
      (loadMsg_2_3 (d4 w0 w1 w2 w3) (d4 w4 w5 w6 w7) (d4 w8 w9 w10 w11) (d4 w12 w13 w14 w15))
      (loadMsg_2_4 (d4 w0 w1 w2 w3) (d4 w4 w5 w6 w7) (d4 w8 w9 w10 w11) (d4 w12 w13 w14 w15)) (rowsOf v) =
    rowsOf (roundG4 .s #v[w0, w1, w2, w3, w4, w5, w6, w7, w8, w9, w10, w11, w12, w13, w14, w15] (SIGMA .s)[2] v) := by
  rw [← roundV1_eq]
  simp only [loadMsg_2_1, loadMsg_2_2, loadMsg_2_3, loadMsg_2_4, mm_castps_si128, mm_castsi128_ps, shuffle_ps_d4, shuffle32_d4, blend_03, blend_0C, blend_0F, blend_30, blend_33, blend_3C, blend_C0, blend_C3, blend_F0, unpacklo32_d4, unpackhi32_d4, unpacklo64_d4, unpackhi64_d4, shufflehi_swap, srli4_d4, srli8_d4, srli12_d4, slli4_d4, slli8_d4, slli12_d4, alignr4_d4, lane_d4_0, lane_d4_1, lane_d4_2, lane_d4_3, Nat.reduceLT]
  rfl

theorem round_3 : roundV1 (loadMsg_3_1 (d4 w0 w1 w2 w3) (d4 w4 w5 w6 w7) (d4 w8 w9 w10 w11) (d4 w12 w13 w14 w15))
      (loadMsg_3_2 (d4 w0 w1 w2 w3) (d4 w4 w5 w6 w7) (d4 w8 w9 w10 w11) (d4 w12 w13 w14 w15))
      (loadMsg_3_3 (d4 w0 w1 w2 w3) (d4 w4 w5 w6 w7) (d4 w8 w9 w10 w11) (d4 w12 w13 w14 w15))
      (loadMsg_3_4 (d4 w0 w1 w2 w3) (d4 w4 w5 w6 w7) (d4 w8 w9 w10 w11) (d4 w12 w13 w14 w15)) (rowsOf v) =
    rowsOf (roundG4 .s #v[w0, w1, w2, w3, w4, w5, w6, w7, w8, w9, w10, w11, w12, w13, w14, w15] (SIGMA .s)[3] v) := by
  rw [← roundV1_eq]
  simp only [loadMsg_3_1, loadMsg_3_2, loadMsg_3_3, loadMsg_3_4, mm_castps_si128, mm_castsi128_ps, shuffle_ps_d4, shuffle32_d4, blend_03, blend_0C, blend_0F, blend_30, blend_33, blend_3C, blend_C0, blend_C3, blend_F0, unpacklo32_d4, unpackhi32_d4, unpacklo64_d4, unpackhi64_d4, shufflehi_swap, srli4_d4, srli8_d4, srli12_d4, slli4_d4, slli8_d4, slli12_d4, alignr4_d4, lane_d4_0, lane_d4_1, lane_d4_2, lane_d4_3, Nat.reduceLT]
  rfl

theorem round_4 : roundV1 (loadMsg_4_1 (d4 w0 w1 w2 w3) (d4 w4 w5 w6 w7) (d4 w8 w9 w10 w11) (d4 w12 w13 w14 w15))
      (loadMsg_4_2 (d4 w0 w1 w2 w3) (d4 w4 w5 w6 w7) (d4 w8 w9 w10 w11) (d4 w12 w13 w14 w15))
      (loadMsg_4_3 (d4 w0 w1 w2 w3) (d4 w4 w5 w6 w7) (d4 w8 w9 w10 w11) (d4 w12 w13 w14 w15))
      (loadMsg_4_4 (d4 w0 w1 w2 w3) (d4 w4 w5 w6 w7) (d4 w8 w9 w10 w11) (d4 w12 w13 w14 w15)) (rowsOf v) =
    rowsOf (roundG4 .s #v[w0, w1, w2, w3, w4, w5, w6, w7, w8, w9, w10, w11, w12, w13, w14, w15] (SIGMA .s)[4] v) := by
  rw [← roundV1_eq]
  simp only [loadMsg_4_1, loadMsg_4_2, loadMsg_4_3, loadMsg_4_4, mm_castps_si128, mm_castsi128_ps, shuffle_ps_d4, shuffle32_d4, blend_03, blend_0C, blend_0F, blend_30, blend_33, blend_3C, blend_C0, blend_C3, blend_F0, unpacklo32_d4, unpackhi32_d4, unpacklo64_d4, unpackhi64_d4, shufflehi_swap, srli4_d4, srli8_d4, srli12_d4, slli4_d4, slli8_d4, slli12_d4, alignr4_d4, lane_d4_0, lane_d4_1, lane_d4_2, lane_d4_3, Nat.reduceLT]
  rfl

theorem round_5 : roundV1 (loadMsg_5_1 (d4 w0 w1 w2 w3) (d4 w4 w5 w6 w7) (d4 w8 w9 w10 w11) (d4 w12 w13 w14 w15))
      (loadMsg_5_2 (d4 w0 w1 w2 w3) (d4 w4 w5 w6 w7) (d4 w8 w9 w10 w11) (d4 w12 w13 w14 w15))
      (loadMsg_5_3 (d4 w0 w1 w2 w3) (d4 w4 w5 w6 w7) (d4 w8 w9 w10 w11) (d4 w12 w13 w14 w15))
      (loadMsg_5_4 (d4 w0 w1 w2 w3) (d4 w4 w5 w6 w7) (d4 w8 w9 w10 w11) (d4 w12 w13 w14 w15)) (rowsOf v) =
    rowsOf (roundG4 .s #v[w0, w1, w2, w3, w4, w5, w6, w7, w8, w9, w10, w11, w12, w13, w14, w15] (SIGMA .s)[5] v) := by
  rw [← roundV1_eq]
  simp only [loadMsg_5_1, loadMsg_5_2, loadMsg_5_3, loadMsg_5_4, mm_castps_si128, mm_castsi128_ps, shuffle_ps_d4, shuffle32_d4, blend_03, blend_0C, blend_0F, blend_30, blend_33, blend_3C, blend_C0, blend_C3, blend_F0, unpacklo32_d4, unpackhi32_d4, unpacklo64_d4, unpackhi64_d4, shufflehi_swap, srli4_d4, srli8_d4, srli12_d4, slli4_d4, slli8_d4, slli12_d4, alignr4_d4, lane_d4_0, lane_d4_1, lane_d4_2, lane_d4_3, Nat.reduceLT]
  rfl

theorem round_6 : roundV1 (loadMsg_6_1 (d4 w0 w1 w2 w3) (d4 w4 w5 w6 w7) (d4 w8 w9 w10 w11) (d4 w12 w13 w14 w15))
      (loadMsg_6_2 (d4 w0 w1 w2 w3) (d4 w4 w5 w6 w7) (d4 w8 w9 w10 w11) (d4 w12 w13 w14 w15))
      (loadMsg_6_3 (d4 w0 w1 w2 w3) (d4 w4 w5 w6 w7) (d4 w8 w9 w10 w11) (d4 w12 w13 w14 w15))
      (loadMsg_6_4 (d4 w0 w1 w2 w3) (d4 w4 w5 w6 w7) (d4 w8 w9 w10 w11) (d4 w12 w13 w14 w15)) (rowsOf v) =
    rowsOf (roundG4 .s #v[w0, w1, w2, w3, w4, w5, w6, w7, w8, w9, w10, w11, w12, w13, w14, w15] (SIGMA .s)[6] v) := by
  rw [← roundV1_eq]
  simp only [loadMsg_6_1, loadMsg_6_2, loadMsg_6_3, loadMsg_6_4, mm_castps_si128, mm_castsi128_ps, shuffle_ps_d4, shuffle32_d4, blend_03, blend_0C, blend_0F, blend_30, blend_33, blend_3C, blend_C0, blend_C3, blend_F0, unpacklo32_d4, unpackhi32_d4, unpacklo64_d4, unpackhi64_d4, shufflehi_swap, srli4_d4, srli8_d4, srli12_d4, slli4_d4, slli8_d4, slli12_d4, alignr4_d4, lane_d4_0, lane_d4_1, lane_d4_2, lane_d4_3, Nat.reduceLT]
  rfl

theorem round_7 : roundV1 (loadMsg_7_1 (d4 w0 w1 w2 w3) (d4 w4 w5 w6 w7) (d4 w8 w9 w10 w11) (d4 w12 w13 w14 w15))
      (loadMsg_7_2 (d4 w0 w1 w2 w3) (d4 w4 w5 w6 w7) (d4 w8 w9 w10 w11) (d4 w12 w13 w14 w15))
      (loadMsg_7_3 (d4 w0 w1 w2 w3) (d4 w4 w5 w6 w7) (d4 w8 w9 w10 w11) (d4 w12 w13 w14 w15))
      (loadMsg_7_4 (d4 w0 w1 w2 w3) (d4 w4 w5 w6 w7) (d4 w8 w9 w10 w11) (d4 w12 w13 w14 w15)) (rowsOf v) =
    rowsOf (roundG4 .s #v[w0, w1, w2, w3, w4, w5, w6, w7, w8, w9, w10, w11, w12, w13, w14, w15] (SIGMA .s)[7] v) := by
  rw [← roundV1_eq]
  simp only [loadMsg_7_1, loadMsg_7_2, loadMsg_7_3, loadMsg_7_4, mm_castps_si128, mm_castsi128_ps, shuffle_ps_d4, shuffle32_d4, blend_03, blend_0C, blend_0F, blend_30, blend_33, blend_3C, blend_C0, blend_C3, blend_F0, unpacklo32_d4, unpackhi32_d4, unpacklo64_d4, unpackhi64_d4, shufflehi_swap, srli4_d4, srli8_d4, srli12_d4, slli4_d4, slli8_d4, slli12_d4, alignr4_d4, lane_d4_0, lane_d4_1, lane_d4_2, lane_d4_3, Nat.reduceLT]
  rfl

theorem round_8 : roundV1 (loadMsg_8_1 (d4 w0 w1 w2 w3) (d4 w4 w5 w6 w7) (d4 w8 w9 w10 w11) (d4 w12 w13 w14 w15))
      (loadMsg_8_2 (d4 w0 w1 w2 w3) (d4 w4 w5 w6 w7) (d4 w8 w9 w10 w11) (d4 w12 w13 w14 w15))
      (loadMsg_8_3 (d4 w0 w1 w2 w3) (d4 w4 w5 w6 w7) (d4 w8 w9 w10 w11) (d4 w12 w13 w14 w15))
      (loadMsg_8_4 (d4 w0 w1 w2 w3) (d4 w4 w5 w6 w7) (d4 w8 w9 w10 w11) (d4 w12 w13 w14 w15)) (rowsOf v) =
    rowsOf (roundG4 .s #v[w0, w1, w2, w3, w4, w5, w6, w7, w8, w9, w10, w11, w12, w13, w14, w15] (SIGMA .s)[8] v) := by
  rw [← roundV1_eq]
  simp only [loadMsg_8_1, loadMsg_8_2, loadMsg_8_3, loadMsg_8_4, mm_castps_si128, mm_castsi128_ps, shuffle_ps_d4, shuffle32_d4, blend_03, blend_0C, blend_0F, blend_30, blend_33, blend_3C, blend_C0, blend_C3, blend_F0, unpacklo32_d4, unpackhi32_d4, unpacklo64_d4, unpackhi64_d4, shufflehi_swap, srli4_d4, srli8_d4, srli12_d4, slli4_d4, slli8_d4, slli12_d4, alignr4_d4, lane_d4_0, lane_d4_1, lane_d4_2, lane_d4_3, Nat.reduceLT]
  rfl

theorem round_9 : roundV1 (loadMsg_9_1 (d4 w0 w1 w2 w3) (d4 w4 w5 w6 w7) (d4 w8 w9 w10 w11) (d4 w12 w13 w14 w15))
      (loadMsg_9_2 (d4 w0 w1 w2 w3) (d4 w4 w5 w6 w7) (d4 w8 w9 w10 w11) (d4 w12 w13 w14 w15))
      (loadMsg_9_3 (d4 w0 w1 w2 w3) (d4 w4 w5 w6 w7) (d4 w8 w9 w10 w11) (d4 w12 w13 w14 w15))
      (loadMsg_9_4 (d4 w0 w1 w2 w3) (d4 w4 w5 w6 w7) (d4 w8 w9 w10 w11) (d4 w12 w13 w14 w15)) (rowsOf v) =
    rowsOf (roundG4 .s #v[w0, w1, w2, w3, w4, w5, w6, w7, w8, w9, w10, w11, w12, w13, w14, w15] (SIGMA .s)[9] v) := by
  rw [← roundV1_eq]
  simp only [loadMsg_9_1, loadMsg_9_2, loadMsg_9_3, loadMsg_9_4, mm_castps_si128, mm_castsi128_ps, shuffle_ps_d4, shuffle32_d4, blend_03, blend_0C, blend_0F, blend_30, blend_33, blend_3C, blend_C0, blend_C3, blend_F0, unpacklo32_d4, unpackhi32_d4, unpacklo64_d4, unpackhi64_d4, shufflehi_swap, srli4_d4, srli8_d4, srli12_d4, slli4_d4, slli8_d4, slli12_d4, alignr4_d4, lane_d4_0, lane_d4_1, lane_d4_2, lane_d4_3, Nat.reduceLT]
  rfl
end

theorem roundsV1_eq (m v : Vector (BitVec 32) 16) :
    roundsV1 (d4 m[0] m[1] m[2] m[3]) (d4 m[4] m[5] m[6] m[7]) (d4 m[8] m[9] m[10] m[11]) (d4 m[12] m[13] m[14] m[15]) (rowsOf v) =
      rowsOf ((Portable.roundNumbers .s).foldl (Portable.round .s m) v) := by
  have e : m = #v[m[0], m[1], m[2], m[3], m[4], m[5], m[6], m[7], m[8], m[9], m[10], m[11], m[12], m[13], m[14], m[15]] := vec16_eta m
  have h : ∀ (v : Vector (BitVec 32) 16) (s : Vector (Fin 16) 16), roundG4 .s m s v =
      roundG4 .s #v[m[0], m[1], m[2], m[3], m[4], m[5], m[6], m[7], m[8], m[9], m[10], m[11], m[12], m[13], m[14], m[15]] s v := fun v s => by rw [← e]
  simp only [roundsV1, round_0, round_1, round_2, round_3, round_4, round_5, round_6, round_7, round_8, round_9]
  simp only [Portable.roundNumbers, List.foldl_cons, List.foldl_nil, portable_round_eq, h]
  rfl

theorem roundsV1_block (block : List Byte) (v : Vector (BitVec 32) 16) :
    roundsV1 (SSse41.loadBlock block 0) (SSse41.loadBlock block 1) (SSse41.loadBlock block 2) (SSse41.loadBlock block 3) (rowsOf v) =
      rowsOf ((Portable.roundNumbers .s).foldl (Portable.round .s (Portable.msgWords .s block)) v) := by
  rw [← roundsV1_eq]
  simp only [SSse41.loadBlock_eq]
  rfl

/-- The two registers of a state. -/
def regs (h : Vector (BitVec 32) 8) : M128 × M128 := (d4 h[0] h[1] h[2] h[3], d4 h[4] h[5] h[6] h[7])

theorem loadu128At_eq (m : List Byte) (k : Nat) (h : 16 * k + 16 ≤ m.length) :
    loadu128At m (16 * k) = .ok (SSse41.loadBlock m k) := by
  rw [loadu128At, rawRef, if_pos h]; rfl

/-- The words of a row, in the order of the lanes of the four message vectors. -/
def laneOrder (s : Vector (Fin 16) 16) : Vector (Fin 16) 16 :=
  #v[s[0], s[2], s[4], s[6], s[1], s[3], s[5], s[7], s[8], s[10], s[12], s[14], s[9], s[11], s[13], s[15]]

theorem roundSimd_eq (w : Vector (BitVec 32) 16) (r : Fin 10) (v : Vector (BitVec 32) 16) :
    let s := laneOrder (SIGMA .s)[r]
    roundV1 (d4 w[s[0]] w[s[1]] w[s[2]] w[s[3]]) (d4 w[s[4]] w[s[5]] w[s[6]] w[s[7]]) (d4 w[s[8]] w[s[9]] w[s[10]] w[s[11]])
      (d4 w[s[12]] w[s[13]] w[s[14]] w[s[15]]) (rowsOf v) = rowsOf (Portable.round .s w v r) := by
  intro s
  rw [portable_round_eq, ← roundV1_eq]
  rfl

/-! ### The loads by gathers -/

/-- The row of `indices` for a round. -/
def indexRow (r : Fin 10) : Vector (BitVec 32) 16 := (laneOrder (SIGMA .s)[r]).map fun i => BitVec.ofNat 32 i.val

theorem indices_eq : indices.toList.take 10 = (Portable.roundNumbers .s).map indexRow := by decide +kernel

theorem roundGather_eq (m : List Byte) (hm : 64 ≤ m.length) (v : Vector (BitVec 32) 16) (r : Fin 10) :
    roundGather m (rowsOf v) (indexRow r) = .ok (rowsOf (Portable.round .s (Portable.msgWords .s m) v r)) := by
  rw [← roundSimd_eq]
  have hv : ∀ k : Fin 4, indexVec (indexRow r) k =
      d4 (BitVec.ofNat 32 (laneOrder (SIGMA .s)[r])[4 * k.val].val) (BitVec.ofNat 32 (laneOrder (SIGMA .s)[r])[4 * k.val + 1].val)
        (BitVec.ofNat 32 (laneOrder (SIGMA .s)[r])[4 * k.val + 2].val) (BitVec.ofNat 32 (laneOrder (SIGMA .s)[r])[4 * k.val + 3].val) := by
    intro k
    rw [indexVec, indexRow]
    simp only [Vector.getElem_map]
    rfl
  rw [roundGather, hv, hv, hv, hv]
  rw [show ∀ (i j k l : Fin 16), mm_i32gather_epi32 m 0 (d4 (BitVec.ofNat 32 i.val) (BitVec.ofNat 32 j.val) (BitVec.ofNat 32 k.val)
    (BitVec.ofNat 32 l.val)) 4 = _ from gatherS_eq m hm]
  rw [show ∀ (i j k l : Fin 16), mm_i32gather_epi32 m 0 (d4 (BitVec.ofNat 32 i.val) (BitVec.ofNat 32 j.val) (BitVec.ofNat 32 k.val)
    (BitVec.ofNat 32 l.val)) 4 = _ from gatherS_eq m hm]
  rw [show ∀ (i j k l : Fin 16), mm_i32gather_epi32 m 0 (d4 (BitVec.ofNat 32 i.val) (BitVec.ofNat 32 j.val) (BitVec.ofNat 32 k.val)
    (BitVec.ofNat 32 l.val)) 4 = _ from gatherS_eq m hm]
  rw [show ∀ (i j k l : Fin 16), mm_i32gather_epi32 m 0 (d4 (BitVec.ofNat 32 i.val) (BitVec.ofNat 32 j.val) (BitVec.ofNat 32 k.val)
    (BitVec.ofNat 32 l.val)) 4 = _ from gatherS_eq m hm]
  rfl

/-! ### The loads one by one -/

/-- The arguments of the four loads of a round: each vector is set from its most significant lane. -/
def simpleRow (r : Fin 10) : Vector (Vector (Fin 16) 4) 4 :=
  let s := laneOrder (SIGMA .s)[r]
  #v[#v[s[3], s[2], s[1], s[0]], #v[s[7], s[6], s[5], s[4]], #v[s[11], s[10], s[9], s[8]], #v[s[15], s[14], s[13], s[12]]]

theorem simpleMsg_eq : simpleMsg.toList = (Portable.roundNumbers .s).map simpleRow := by decide +kernel

theorem messageWords_eq (m : List Byte) (hm : 64 ≤ m.length) : messageWords m = .ok (Portable.msgWords .s m) := by
  have h := fun off h => loadu32At_eq m off h
  rw [messageWords, h 0 (by omega), h 4 (by omega), h 8 (by omega), h 12 (by omega), h 16 (by omega), h 20 (by omega), h 24 (by omega),
    h 28 (by omega), h 32 (by omega), h 36 (by omega), h 40 (by omega), h 44 (by omega), h 48 (by omega), h 52 (by omega),
    h 56 (by omega), h 60 (by omega)]
  rfl

theorem roundSimple_eq (w v : Vector (BitVec 32) 16) (r : Fin 10) :
    (fun (v : Rows) (e : Vector (Vector (Fin 16) 4) 4) =>
      roundV1 (loadSimple w e[0]) (loadSimple w e[1]) (loadSimple w e[2]) (loadSimple w e[3]) v) (rowsOf v) (simpleRow r) =
      rowsOf (Portable.round .s w v r) := by
  rw [← roundSimd_eq]
  rfl

/-- The message loads and the rounds, with each way of loading the message. -/
theorem messageRounds_eq (p : Permute) (m : List Byte) (v : Vector (BitVec 32) 16) (hm : 64 ≤ m.length) :
    messageRounds p m (rowsOf v) =
      .ok (rowsOf ((Portable.roundNumbers .s).foldl (Portable.round .s (Portable.msgWords .s m)) v)) := by
  cases p with
  | shuffles =>
    have l0 := loadu128At_eq m 0 (by omega)
    have l1 := loadu128At_eq m 1 (by omega)
    have l2 := loadu128At_eq m 2 (by omega)
    have l3 := loadu128At_eq m 3 (by omega)
    unfold messageRounds
    simp only
    rw [show loadu128At m 0 = _ from l0, show loadu128At m 16 = _ from l1, show loadu128At m 32 = _ from l2,
      show loadu128At m 48 = _ from l3]
    simp only [bind, Except.bind]
    rw [roundsV1_block]
  | gather =>
    show (indices.toList.take 10).foldlM (roundGather m) (rowsOf v) = _
    rw [indices_eq]
    exact foldlM_map _ _ rowsOf indexRow (roundGather_eq m hm) _ _
  | none =>
    unfold messageRounds
    simp only
    rw [messageWords_eq m hm, simpleMsg_eq]
    exact congrArg Except.ok (foldl_map _ _ rowsOf simpleRow (roundSimple_eq _) _ _)

/-- One compression, for a message of at least one block. -/
theorem compressV1_eq (p : Permute) (h : Vector (BitVec 32) 8) (m : List Byte) (t0 t1 f0 f1 : BitVec 32) (hm : 64 ≤ m.length) :
    compressV1 p (regs h).1 (regs h).2 m t0 t1 f0 f1 =
      .ok (regs (compressWords .s (Portable.msgWords .s m) h t0 t1 f0 f1)) := by
  unfold compressV1
  have hx : xor128 = SSse41.xor := rfl
  have hiv4 : loadIV4 = d4 (IV .s)[4] (IV .s)[5] (IV .s)[6] (IV .s)[7] := rfl
  have hiv0 : loadIV0 = d4 (IV .s)[0] (IV .s)[1] (IV .s)[2] (IV .s)[3] := rfl
  have hset : mm_set_epi32 f1 f0 t1 t0 = d4 t0 t1 f0 f1 := rfl
  rw [hx, hiv4, hset, hiv0, SSse41.xor_regs]
  have hr := messageRounds_eq p m #v[h[0], h[1], h[2], h[3], h[4], h[5], h[6], h[7],
    (IV .s)[0], (IV .s)[1], (IV .s)[2], (IV .s)[3], (IV .s)[4] ^^^ t0, (IV .s)[5] ^^^ t1, (IV .s)[6] ^^^ f0, (IV .s)[7] ^^^ f1] hm
  simp only [bind, Except.bind]
  rw [show messageRounds p m
      ⟨(regs h).1, (regs h).2, d4 (IV .s)[0] (IV .s)[1] (IV .s)[2] (IV .s)[3],
        d4 ((IV .s)[4] ^^^ t0) ((IV .s)[5] ^^^ t1) ((IV .s)[6] ^^^ f0) ((IV .s)[7] ^^^ f1)⟩ = _ from hr, compressWords]
  generalize (Portable.roundNumbers .s).foldl _ _ = r
  refine congrArg Except.ok ?_
  simp only [rowsOf, regs, SSse41.xor_regs, feedForward]
  simp [BitVec.xor_comm]

/-- The two halves of a byte count. -/
theorem countLow_s (n : Nat) : countLow .s (BitVec.ofNat _ n) = BitVec.ofNat 32 n := by
  rw [countLow_ofNat]
  apply BitVec.eq_of_toNat_eq
  rw [BitVec.toNat_ofNat, BitVec.toNat_ofNat]
  show n % 2 ^ 32 % 2 ^ 32 = n % 2 ^ 32
  omega
theorem countHigh_s (n : Nat) : countHigh .s (BitVec.ofNat _ n) = BitVec.ofNat 32 (n / 2 ^ 32) := by
  rw [countHigh_ofNat]

/-- One compression with a byte count. -/
theorem compressV1_count (p : Permute) (h : Vector (BitVec 32) 8) (m : List Byte) (n : Nat) (f0 f1 : BitVec 32) (hm : 64 ≤ m.length) :
    compressV1 p (regs h).1 (regs h).2 m (BitVec.ofNat 32 n) (BitVec.ofNat 32 (n / 2 ^ 32)) f0 f1 =
      .ok (regs (Portable.compressBlock .s m h (BitVec.ofNat _ n) f0 f1)) := by
  rw [compressV1_eq _ _ _ _ _ _ _ hm, portable_compressWords, countLow_s, countHigh_s]

theorem compressBlock_take (m : List Byte) (h : Vector (BitVec 32) 8) (c : Count .s) (f0 f1 : BitVec 32) :
    Portable.compressBlock .s (m.take 64) h c f0 f1 = Portable.compressBlock .s m h c f0 f1 := by
  rw [portable_compressWords, portable_compressWords, SnevesB.msgWords_take .s m 64 (by decide)]

/-- The bytes of a register of four 32-bit lanes. -/
theorem leBytes_d4 (a b c d : BitVec 32) :
    leBytes 16 (d4 a b c d).toNat = leBytes 4 a.toNat ++ leBytes 4 b.toNat ++ leBytes 4 c.toNat ++ leBytes 4 d.toNat := by
  have ha := a.isLt; have hb := b.isLt; have hc := c.isLt; have hd := d.isLt
  have hq : (d4 a b c d).toNat = a.toNat + 2 ^ 32 * (b.toNat + 2 ^ 32 * (c.toNat + 2 ^ 32 * d.toNat)) := by
    rw [d4, ofLanes, BitVec.toNat_ofNat]
    simp only [lanesNat, Nat.mul_zero, Nat.add_zero]
    exact Nat.mod_eq_of_lt (by omega)
  have h8 : ∀ (x : BitVec 32) (y : Nat), leBytes 4 (x.toNat + 2 ^ 32 * y) = leBytes 4 x.toNat := by
    intro x y
    rw [← SnevesB.leBytes_mod 4 (x.toNat + 2 ^ 32 * y), ← SnevesB.leBytes_mod 4 x.toNat]
    congr 1
    exact Nat.add_mul_mod_self_left _ _ _
  have hd8 : ∀ (x : BitVec 32) (y : Nat), (x.toNat + 2 ^ 32 * y) / 256 ^ 4 = y := by
    intro x y
    have := x.isLt
    omega
  rw [hq, show (16 : Nat) = 4 + (4 + (4 + 4)) from rfl, SnevesB.leBytes_add, SnevesB.leBytes_add 4 (4 + 4), SnevesB.leBytes_add 4 4, h8, hd8, h8, hd8, h8, hd8]
  simp only [List.append_assoc]

theorem regs_bytes (h : Vector (BitVec 32) 8) :
    leBytes 16 (regs h).1.toNat ++ leBytes 16 (regs h).2.toNat = Spec.wordsToBytes .s h := by
  rw [regs, leBytes_d4, leBytes_d4, Spec.wordsToBytes]
  conv => rhs; rw [vec8_eta h]
  simp [Alg.wb]

/-- The two stores to an array of 32 bytes. -/
theorem store_regs (out : List Byte) (h : Vector (BitVec 32) 8) (ho : out.length = 32) :
    (do let out ← storeu128At out 0 (regs h).1
        storeu128At out 16 (regs h).2) = .ok (Spec.wordsToBytes .s h) := by
  rw [storeu128At, if_pos (by omega)]
  simp only [bind, Except.bind]
  rw [storeu128At, if_pos (by simp; omega), ← regs_bytes]
  refine congrArg Except.ok ?_
  simp only [List.take_zero, List.nil_append]
  rw [List.take_left' (by simp), List.drop_eq_nil_of_le (by simp; omega), List.append_nil]

theorem root_regs : (xor128 loadIV0 (mm_set_epi32 0x20010000 0 0 0x02080020), loadIV4) =
    regs (Spec.initH .s (Spec.rootConfig .s 32 [])) := by
  decide +kernel

end Blake2.SnevesSp
