import Verif.Proofs.Bytes
import Verif.Model.Portable
/-! # The portable compression function is the RFC's F -/
namespace Blake2

/-- G on a quadruple of words: the mixing function without the vector around it. -/
def g4 (al : Alg) (A B C D x y : Word al) : Word al × Word al × Word al × Word al :=
  let a1 := A + B + x
  let d1 := (D ^^^ a1).rotateRight (Portable.rots al).1
  let c1 := C + d1
  let b1 := (B ^^^ c1).rotateRight (Portable.rots al).2.1
  let a2 := a1 + b1 + y
  let d2 := (d1 ^^^ a2).rotateRight (Portable.rots al).2.2.1
  let c2 := c1 + d2
  let b2 := (b1 ^^^ c2).rotateRight (Portable.rots al).2.2.2
  (a2, b2, c2, d2)

/-- A round as eight independent applications of `g4`. -/
def roundG4 (al : Alg) (m : Vector (Word al) 16) (s : Vector (Fin 16) 16) (v : Vector (Word al) 16) : Vector (Word al) 16 :=
  let c0 := g4 al v[0] v[4] v[8] v[12] m[s[0]] m[s[1]]
  let c1 := g4 al v[1] v[5] v[9] v[13] m[s[2]] m[s[3]]
  let c2 := g4 al v[2] v[6] v[10] v[14] m[s[4]] m[s[5]]
  let c3 := g4 al v[3] v[7] v[11] v[15] m[s[6]] m[s[7]]
  let e0 := g4 al c0.1 c1.2.1 c2.2.2.1 c3.2.2.2 m[s[8]] m[s[9]]
  let e1 := g4 al c1.1 c2.2.1 c3.2.2.1 c0.2.2.2 m[s[10]] m[s[11]]
  let e2 := g4 al c2.1 c3.2.1 c0.2.2.1 c1.2.2.2 m[s[12]] m[s[13]]
  let e3 := g4 al c3.1 c0.2.1 c1.2.2.1 c2.2.2.2 m[s[14]] m[s[15]]
  #v[e0.1, e1.1, e2.1, e3.1, e3.2.1, e0.2.1, e1.2.1, e2.2.1,
     e2.2.2.1, e3.2.2.1, e0.2.2.1, e1.2.2.1, e1.2.2.2, e2.2.2.2, e3.2.2.2, e0.2.2.2]

theorem vec16_eta {α : Type} (v : Vector α 16) :
    v = #v[v[0], v[1], v[2], v[3], v[4], v[5], v[6], v[7], v[8], v[9], v[10], v[11], v[12], v[13], v[14], v[15]] := by
  apply Vector.ext
  intro i hi
  have : i = 0 ∨ i = 1 ∨ i = 2 ∨ i = 3 ∨ i = 4 ∨ i = 5 ∨ i = 6 ∨ i = 7 ∨
    i = 8 ∨ i = 9 ∨ i = 10 ∨ i = 11 ∨ i = 12 ∨ i = 13 ∨ i = 14 ∨ i = 15 := by omega
  rcases this with h | h | h | h | h | h | h | h | h | h | h | h | h | h | h | h <;> subst h <;> rfl

theorem vec8_eta {α : Type} (v : Vector α 8) :
    v = #v[v[0], v[1], v[2], v[3], v[4], v[5], v[6], v[7]] := by
  apply Vector.ext
  intro i hi
  have : i = 0 ∨ i = 1 ∨ i = 2 ∨ i = 3 ∨ i = 4 ∨ i = 5 ∨ i = 6 ∨ i = 7 := by omega
  rcases this with h | h | h | h | h | h | h | h <;> subst h <;> rfl

section
variable {al : Alg} (x0 x1 x2 x3 x4 x5 x6 x7 x8 x9 x10 x11 x12 x13 x14 x15 x y : Word al)

local notation "V" => (#v[x0, x1, x2, x3, x4, x5, x6, x7, x8, x9, x10, x11, x12, x13, x14, x15] : Vector (Word al) 16)

theorem g_0_4_8_12 : Portable.g al V 0 4 8 12 x y =
    let q := g4 al x0 x4 x8 x12 x y
    #v[q.1, x1, x2, x3, q.2.1, x5, x6, x7, q.2.2.1, x9, x10, x11, q.2.2.2, x13, x14, x15] := rfl
theorem g_1_5_9_13 : Portable.g al V 1 5 9 13 x y =
    let q := g4 al x1 x5 x9 x13 x y
    #v[x0, q.1, x2, x3, x4, q.2.1, x6, x7, x8, q.2.2.1, x10, x11, x12, q.2.2.2, x14, x15] := rfl
theorem g_2_6_10_14 : Portable.g al V 2 6 10 14 x y =
    let q := g4 al x2 x6 x10 x14 x y
    #v[x0, x1, q.1, x3, x4, x5, q.2.1, x7, x8, x9, q.2.2.1, x11, x12, x13, q.2.2.2, x15] := rfl
theorem g_3_7_11_15 : Portable.g al V 3 7 11 15 x y =
    let q := g4 al x3 x7 x11 x15 x y
    #v[x0, x1, x2, q.1, x4, x5, x6, q.2.1, x8, x9, x10, q.2.2.1, x12, x13, x14, q.2.2.2] := rfl
theorem g_0_5_10_15 : Portable.g al V 0 5 10 15 x y =
    let q := g4 al x0 x5 x10 x15 x y
    #v[q.1, x1, x2, x3, x4, q.2.1, x6, x7, x8, x9, q.2.2.1, x11, x12, x13, x14, q.2.2.2] := rfl
theorem g_1_6_11_12 : Portable.g al V 1 6 11 12 x y =
    let q := g4 al x1 x6 x11 x12 x y
    #v[x0, q.1, x2, x3, x4, x5, q.2.1, x7, x8, x9, x10, q.2.2.1, q.2.2.2, x13, x14, x15] := rfl
theorem g_2_7_8_13 : Portable.g al V 2 7 8 13 x y =
    let q := g4 al x2 x7 x8 x13 x y
    #v[x0, x1, q.1, x3, x4, x5, x6, q.2.1, q.2.2.1, x9, x10, x11, x12, q.2.2.2, x14, x15] := rfl
theorem g_3_4_9_14 : Portable.g al V 3 4 9 14 x y =
    let q := g4 al x3 x4 x9 x14 x y
    #v[x0, x1, x2, q.1, q.2.1, x5, x6, x7, x8, q.2.2.1, x10, x11, x12, x13, q.2.2.2, x15] := rfl
end

theorem portable_round_eq (al : Alg) (m v : Vector (Word al) 16) (r : Fin al.rows) :
    Portable.round al m v r = roundG4 al m (SIGMA al)[r] v := by
  conv => lhs; rw [vec16_eta v]
  simp only [Portable.round, g_0_4_8_12, g_1_5_9_13, g_2_6_10_14, g_3_7_11_15, g_0_5_10_15, g_1_6_11_12,
    g_2_7_8_13, g_3_4_9_14, roundG4]

theorem spec_G_eq (al : Alg) (v : Vector (Word al) 16) (a b c d : Fin 16) (x y : Word al) :
    Spec.G al v a b c d x y = Portable.g al v a b c d x y := by
  cases al <;> rfl

theorem sigma_b (r : Fin 12) : (SIGMA .b)[r] = Spec.sigma[r.val % 10]'(Nat.mod_lt _ (by decide)) := by
  revert r; decide
theorem sigma_s (r : Fin 10) : (SIGMA .s)[r] = Spec.sigma[r.val % 10]'(Nat.mod_lt _ (by decide)) := by
  revert r; decide

theorem sigma_eq (al : Alg) (r : Fin al.rows) :
    (SIGMA al)[r] = Spec.sigma[r.val % 10]'(Nat.mod_lt _ (by decide)) := by
  cases al
  · exact sigma_b r
  · exact sigma_s r

theorem spec_round_eq (al : Alg) (m v : Vector (Word al) 16) (r : Fin al.rows) :
    Spec.round al m v r.val = Portable.round al m v r := by
  simp only [Spec.round, Portable.round, spec_G_eq, ← sigma_eq]

theorem roundNumbers_val (al : Alg) : (Portable.roundNumbers al).map Fin.val = List.range (Spec.rounds al) := by
  cases al <;> decide

theorem rounds_eq (al : Alg) (m v : Vector (Word al) 16) :
    (List.range (Spec.rounds al)).foldl (Spec.round al m) v = (Portable.roundNumbers al).foldl (Portable.round al m) v := by
  have h : (fun v (r : Fin al.rows) => Spec.round al m v r.val) = Portable.round al m := by
    funext v r
    exact spec_round_eq al m v r
  rw [← roundNumbers_val, List.foldl_map, h]

theorem msgWords_eq (al : Alg) (block : List Byte) : Spec.msgWords al block = Portable.msgWords al block := by
  rw [vec16_eta (Spec.msgWords al block)]
  simp [Spec.msgWords, Portable.msgWords, fromLE]

theorem iv_eq (al : Alg) : Spec.iv al = IV al := by cases al <;> rfl

theorem w_eq (al : Alg) : al.w = 8 * al.wb := by cases al <;> rfl

theorem countLow_ofNat (al : Alg) (t : Nat) : countLow al (BitVec.ofNat _ t) = BitVec.ofNat al.w (t % 2 ^ al.w) := by
  apply BitVec.eq_of_toNat_eq
  simp only [countLow, BitVec.toNat_setWidth, BitVec.toNat_ofNat]
  rw [Nat.mod_mod_of_dvd _ (Nat.pow_dvd_pow 2 (by omega)), Nat.mod_mod]

theorem countHigh_ofNat (al : Alg) (t : Nat) : countHigh al (BitVec.ofNat _ t) = BitVec.ofNat al.w (t / 2 ^ al.w) := by
  apply BitVec.eq_of_toNat_eq
  simp only [countHigh, BitVec.toNat_setWidth, BitVec.toNat_ushiftRight, BitVec.toNat_ofNat, ← w_eq,
    Nat.shiftRight_eq_div_pow]
  rw [Nat.two_mul, Nat.pow_add, Nat.mod_mul_right_div_self, Nat.mod_mod]

theorem flagWord_eq (al : Alg) (f : Bool) : flagWord al f = Spec.flag al f := by
  cases f
  · rfl
  · simp [flagWord, Spec.flag]

/-- `portable::compress_block` is the compression function `F` of the RFC. -/
theorem portable_compressBlock_eq (al : Alg) (block : List Byte) (h : Vector (Word al) 8) (t : Nat) (f f1 : Bool) :
    Portable.compressBlock al block h (BitVec.ofNat _ t) (flagWord al f) (flagWord al f1) =
      Spec.F al h block t f f1 := by
  simp only [Portable.compressBlock, Spec.F, rounds_eq, msgWords_eq, iv_eq, countLow_ofNat, countHigh_ofNat, flagWord_eq,
    BitVec.xor_assoc]

end Blake2
