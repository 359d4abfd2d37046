import Verif.Proofs.SnevesRot
import Verif.Proofs.Portable
/-! # The gathers and the single loads of benches/blake2-avx2-sneves -/
namespace Blake2.Sneves
open X86
set_option linter.unusedSimpArgs false

theorem gatherAt_eq (off i scale : Nat) (hi : i < 2 ^ 31) : gatherAt off (BitVec.ofNat 32 i) scale = .ok (off + i * scale) := by
  have h : (BitVec.ofNat 32 i).toInt = i := by
    rw [BitVec.toInt_eq_toNat_cond, BitVec.toNat_ofNat, Nat.mod_eq_of_lt (by omega), if_pos (by omega)]
  rw [gatherAt, h]
  have h2 : (off : Int) + (i : Int) * (scale : Int) = ((off + i * scale : Nat) : Int) := by push_cast; rfl
  simp only [h2]
  rw [if_pos (Int.natCast_nonneg _), Int.toNat_natCast]

theorem loadu64At_eq (m : List Byte) (off : Nat) (h : off + 8 ≤ m.length) :
    loadu64At m off = .ok (fromLE 64 ((m.drop off).take 8)) := by
  rw [loadu64At, rawRef, if_pos h]; rfl
theorem loadu32At_eq (m : List Byte) (off : Nat) (h : off + 4 ≤ m.length) :
    loadu32At m off = .ok (fromLE 32 ((m.drop off).take 4)) := by
  rw [loadu32At, rawRef, if_pos h]; rfl

/-- Four 64-bit words. -/
theorem gather64_eq (m : List Byte) (off i0 i1 i2 i3 : Nat) (h0 : off + i0 * 8 + 8 ≤ m.length) (h1 : off + i1 * 8 + 8 ≤ m.length)
    (h2 : off + i2 * 8 + 8 ≤ m.length) (h3 : off + i3 * 8 + 8 ≤ m.length) (k0 : i0 < 2 ^ 31) (k1 : i1 < 2 ^ 31) (k2 : i2 < 2 ^ 31)
    (k3 : i3 < 2 ^ 31) :
    mm256_i32gather_epi64 m off (d4 (BitVec.ofNat 32 i0) (BitVec.ofNat 32 i1) (BitVec.ofNat 32 i2) (BitVec.ofNat 32 i3)) 8 =
      .ok (q4 (fromLE 64 ((m.drop (off + i0 * 8)).take 8)) (fromLE 64 ((m.drop (off + i1 * 8)).take 8))
        (fromLE 64 ((m.drop (off + i2 * 8)).take 8)) (fromLE 64 ((m.drop (off + i3 * 8)).take 8))) := by
  rw [mm256_i32gather_epi64]
  simp only [List.mapM_cons, List.mapM_nil, lane_d4_0, lane_d4_1, lane_d4_2, lane_d4_3, gatherAt_eq _ _ _ k0, gatherAt_eq _ _ _ k1,
    gatherAt_eq _ _ _ k2, gatherAt_eq _ _ _ k3, bind, Except.bind, loadu64At_eq _ _ h0, loadu64At_eq _ _ h1, loadu64At_eq _ _ h2,
    loadu64At_eq _ _ h3, pure, Except.pure]
  rfl

/-- Four 32-bit words. -/
theorem gather32_eq (m : List Byte) (off i0 i1 i2 i3 : Nat) (h0 : off + i0 * 4 + 4 ≤ m.length) (h1 : off + i1 * 4 + 4 ≤ m.length)
    (h2 : off + i2 * 4 + 4 ≤ m.length) (h3 : off + i3 * 4 + 4 ≤ m.length) (k0 : i0 < 2 ^ 31) (k1 : i1 < 2 ^ 31) (k2 : i2 < 2 ^ 31)
    (k3 : i3 < 2 ^ 31) :
    mm_i32gather_epi32 m off (d4 (BitVec.ofNat 32 i0) (BitVec.ofNat 32 i1) (BitVec.ofNat 32 i2) (BitVec.ofNat 32 i3)) 4 =
      .ok (d4 (fromLE 32 ((m.drop (off + i0 * 4)).take 4)) (fromLE 32 ((m.drop (off + i1 * 4)).take 4))
        (fromLE 32 ((m.drop (off + i2 * 4)).take 4)) (fromLE 32 ((m.drop (off + i3 * 4)).take 4))) := by
  rw [mm_i32gather_epi32]
  simp only [List.mapM_cons, List.mapM_nil, lane_d4_0, lane_d4_1, lane_d4_2, lane_d4_3, gatherAt_eq _ _ _ k0, gatherAt_eq _ _ _ k1,
    gatherAt_eq _ _ _ k2, gatherAt_eq _ _ _ k3, bind, Except.bind, loadu32At_eq _ _ h0, loadu32At_eq _ _ h1, loadu32At_eq _ _ h2,
    loadu32At_eq _ _ h3, pure, Except.pure]
  rfl

/-- Eight 32-bit words. -/
theorem gather256_eq (m : List Byte) (off i0 i1 i2 i3 i4 i5 i6 i7 : Nat)
    (h0 : off + i0 * 4 + 4 ≤ m.length) (h1 : off + i1 * 4 + 4 ≤ m.length) (h2 : off + i2 * 4 + 4 ≤ m.length) (h3 : off + i3 * 4 + 4 ≤ m.length) (h4 : off + i4 * 4 + 4 ≤ m.length) (h5 : off + i5 * 4 + 4 ≤ m.length) (h6 : off + i6 * 4 + 4 ≤ m.length) (h7 : off + i7 * 4 + 4 ≤ m.length)
    (k0 : i0 < 2 ^ 31) (k1 : i1 < 2 ^ 31) (k2 : i2 < 2 ^ 31) (k3 : i3 < 2 ^ 31) (k4 : i4 < 2 ^ 31) (k5 : i5 < 2 ^ 31) (k6 : i6 < 2 ^ 31) (k7 : i7 < 2 ^ 31) :
    mm256_i32gather_epi32 m off (d8 (BitVec.ofNat 32 i0) (BitVec.ofNat 32 i1) (BitVec.ofNat 32 i2) (BitVec.ofNat 32 i3) (BitVec.ofNat 32 i4) (BitVec.ofNat 32 i5) (BitVec.ofNat 32 i6) (BitVec.ofNat 32 i7)) 4 =
      .ok (d8 (fromLE 32 ((m.drop (off + i0 * 4)).take 4)) (fromLE 32 ((m.drop (off + i1 * 4)).take 4)) (fromLE 32 ((m.drop (off + i2 * 4)).take 4)) (fromLE 32 ((m.drop (off + i3 * 4)).take 4)) (fromLE 32 ((m.drop (off + i4 * 4)).take 4)) (fromLE 32 ((m.drop (off + i5 * 4)).take 4)) (fromLE 32 ((m.drop (off + i6 * 4)).take 4)) (fromLE 32 ((m.drop (off + i7 * 4)).take 4))) := by
  rw [mm256_i32gather_epi32]
  simp only [List.mapM_cons, List.mapM_nil, lane_d8_0, lane_d8_1, lane_d8_2, lane_d8_3, lane_d8_4, lane_d8_5, lane_d8_6, lane_d8_7,
    gatherAt_eq _ _ _ k0, gatherAt_eq _ _ _ k1, gatherAt_eq _ _ _ k2, gatherAt_eq _ _ _ k3, gatherAt_eq _ _ _ k4, gatherAt_eq _ _ _ k5, gatherAt_eq _ _ _ k6, gatherAt_eq _ _ _ k7, bind, Except.bind,
    loadu32At_eq _ _ h0, loadu32At_eq _ _ h1, loadu32At_eq _ _ h2, loadu32At_eq _ _ h3, loadu32At_eq _ _ h4, loadu32At_eq _ _ h5, loadu32At_eq _ _ h6, loadu32At_eq _ _ h7, pure, Except.pure]
  rfl

/-- A word of a block. -/
theorem msgWords_get (a : Alg) (block : List Byte) (i : Fin 16) :
    (Portable.msgWords a block)[i] = fromLE a.w ((block.drop (i.val * a.wb)).take a.wb) := by
  match i with
  | ⟨0, _⟩ => rfl
  | ⟨1, _⟩ => rfl
  | ⟨2, _⟩ => rfl
  | ⟨3, _⟩ => rfl
  | ⟨4, _⟩ => rfl
  | ⟨5, _⟩ => rfl
  | ⟨6, _⟩ => rfl
  | ⟨7, _⟩ => rfl
  | ⟨8, _⟩ => rfl
  | ⟨9, _⟩ => rfl
  | ⟨10, _⟩ => rfl
  | ⟨11, _⟩ => rfl
  | ⟨12, _⟩ => rfl
  | ⟨13, _⟩ => rfl
  | ⟨14, _⟩ => rfl
  | ⟨15, _⟩ => rfl
  | ⟨k + 16, hk⟩ => exact absurd hk (by omega)

/-- The four words of a block that a gather of its words names. -/
theorem gatherB_eq (m : List Byte) (hm : 128 ≤ m.length) (i0 i1 i2 i3 : Fin 16) :
    let w := Portable.msgWords .b m
    mm256_i32gather_epi64 m 0 (d4 (BitVec.ofNat 32 i0) (BitVec.ofNat 32 i1) (BitVec.ofNat 32 i2) (BitVec.ofNat 32 i3)) 8 =
      .ok (q4 w[i0] w[i1] w[i2] w[i3]) := by
  intro w
  have := i0.isLt; have := i1.isLt; have := i2.isLt; have := i3.isLt
  rw [gather64_eq m 0 i0 i1 i2 i3 (by omega) (by omega) (by omega) (by omega) (by omega) (by omega) (by omega) (by omega)]
  have hw : ∀ i : Fin 16, w[i] = fromLE 64 ((m.drop (i.val * 8)).take 8) := msgWords_get .b m
  rw [hw, hw, hw, hw]
  simp only [Nat.zero_add]
theorem gatherS_eq (m : List Byte) (hm : 64 ≤ m.length) (i0 i1 i2 i3 : Fin 16) :
    let w := Portable.msgWords .s m
    mm_i32gather_epi32 m 0 (d4 (BitVec.ofNat 32 i0) (BitVec.ofNat 32 i1) (BitVec.ofNat 32 i2) (BitVec.ofNat 32 i3)) 4 =
      .ok (d4 w[i0] w[i1] w[i2] w[i3]) := by
  intro w
  have := i0.isLt; have := i1.isLt; have := i2.isLt; have := i3.isLt
  rw [gather32_eq m 0 i0 i1 i2 i3 (by omega) (by omega) (by omega) (by omega) (by omega) (by omega) (by omega) (by omega)]
  have hw : ∀ i : Fin 16, w[i] = fromLE 32 ((m.drop (i.val * 4)).take 4) := msgWords_get .s m
  rw [hw, hw, hw, hw]
  simp only [Nat.zero_add]

/-- A fold of steps that succeed on the states in question. -/
theorem foldlM_map {α β γ δ : Type} (f : α → β → Res α) (g : γ → δ → γ) (e : γ → α) (t : δ → β) (h : ∀ v r, f (e v) (t r) = .ok (e (g v r)))
    (l : List δ) (v : γ) : (l.map t).foldlM f (e v) = .ok (e (l.foldl g v)) := by
  induction l generalizing v with
  | nil => rfl
  | cons r l ih =>
    show (f (e v) (t r) >>= fun s => (l.map t).foldlM f s) = _
    rw [h]
    exact ih _

theorem foldl_map {α β γ δ : Type} (f : α → β → α) (g : γ → δ → γ) (e : γ → α) (t : δ → β) (h : ∀ v r, f (e v) (t r) = e (g v r))
    (l : List δ) (v : γ) : (l.map t).foldl f (e v) = e (l.foldl g v) := by
  induction l generalizing v with
  | nil => rfl
  | cons r l ih =>
    rw [List.map_cons, List.foldl_cons, List.foldl_cons, h]
    exact ih _

end Blake2.Sneves
