import Verif.Proofs.NWayLaws
import Verif.Proofs.Absorb
/-! # Vectorised byte counters -/
namespace Blake2

variable {a : Alg} {N : Nat} {R : Type}

theorem w_pow (a : Alg) : 2 ^ (8 * a.wb) = 2 ^ a.w := by cases a <;> rfl
theorem w_eq8 (a : Alg) : 8 * a.wb = a.w := by cases a <;> rfl

theorem assembleCount_toNat (lo hi : Word a) : (assembleCount a lo hi).toNat = lo.toNat + hi.toNat * 2 ^ a.w := by
  have hlo := lo.isLt
  have hhi := hi.isLt
  have h2 : 2 ^ (2 * a.w) = 2 ^ a.w * 2 ^ a.w := by rw [← Nat.pow_add]; congr 1; omega
  have hb : lo.toNat + hi.toNat * 2 ^ a.w < 2 ^ (2 * a.w) := by
    rw [h2]
    calc lo.toNat + hi.toNat * 2 ^ a.w < 2 ^ a.w + hi.toNat * 2 ^ a.w := by omega
      _ = (hi.toNat + 1) * 2 ^ a.w := by rw [Nat.add_mul]; omega
      _ ≤ _ := Nat.mul_le_mul_right _ hhi
  have hlo' : lo.toNat < 2 ^ (2 * a.w) := by omega
  have hhi1 : hi.toNat * 2 ^ a.w < 2 ^ (2 * a.w) := by omega
  have hhi' : hi.toNat < 2 ^ (2 * a.w) := by
    have : 0 < 2 ^ a.w := Nat.two_pow_pos _
    have := Nat.le_mul_of_pos_right hi.toNat this
    omega
  rw [assembleCount, BitVec.toNat_add, BitVec.toNat_shiftLeft, BitVec.toNat_setWidth, BitVec.toNat_setWidth,
    Nat.shiftLeft_eq, w_eq8, Nat.mod_eq_of_lt hlo', Nat.mod_eq_of_lt hhi', Nat.mod_eq_of_lt hhi1, Nat.mod_eq_of_lt hb]

theorem countLow_assemble (lo hi : Word a) : countLow a (assembleCount a lo hi) = lo := by
  apply BitVec.eq_of_toNat_eq
  rw [countLow, BitVec.toNat_setWidth, assembleCount_toNat, Nat.add_mul_mod_self_right, Nat.mod_eq_of_lt lo.isLt]

theorem countHigh_assemble (lo hi : Word a) : countHigh a (assembleCount a lo hi) = hi := by
  apply BitVec.eq_of_toNat_eq
  rw [countHigh, BitVec.toNat_setWidth, BitVec.toNat_ushiftRight, assembleCount_toNat, Nat.shiftRight_eq_div_pow, w_eq8,
    Nat.add_mul_div_right _ _ (Nat.two_pow_pos _), Nat.div_eq_of_lt lo.isLt, Nat.zero_add, Nat.mod_eq_of_lt hi.isLt]

theorem assemble_parts (c : Count a) : assembleCount a (countLow a c) (countHigh a c) = c := by
  apply BitVec.eq_of_toNat_eq
  have h2 : 2 ^ (2 * a.w) = 2 ^ a.w * 2 ^ a.w := by rw [← Nat.pow_add]; congr 1; omega
  have hc := c.isLt
  have hd : c.toNat / 2 ^ a.w < 2 ^ a.w := Nat.div_lt_of_lt_mul (by rw [← h2]; exact hc)
  rw [assembleCount_toNat, countLow, countHigh, BitVec.toNat_setWidth, BitVec.toNat_setWidth, BitVec.toNat_ushiftRight,
    Nat.shiftRight_eq_div_pow, w_eq8, Nat.mod_eq_of_lt hd]
  have := Nat.div_add_mod c.toNat (2 ^ a.w)
  rw [Nat.mul_comm] at this; omega

/-- The vectorised carry: lane-wise, `add_to_counts` is double-word addition, if the counter is a multiple of the block
length and the increment at most one block. -/
theorem addToCounts_lane {o : VImpl a N R} (L : LaneLaws o) (i : Fin N) (lo hi delta : R) (d : Nat)
    (hd : o.ln i delta = BitVec.ofNat a.w d) (hdb : d ≤ a.bb)
    (hc : (assembleCount a (o.ln i lo) (o.ln i hi)).toNat % a.bb = 0) :
    assembleCount a (o.ln i (NWay.addToCounts o lo hi delta).1) (o.ln i (NWay.addToCounts o lo hi delta).2) =
      assembleCount a (o.ln i lo) (o.ln i hi) + BitVec.ofNat (2 * a.w) d := by
  have hbw := bb_lt a
  have hbpos := bb_pos a
  obtain ⟨q, hq⟩ := bb_dvd a
  simp only [NWay.addToCounts, L.add, L.eq, L.and, L.negateAnd, L.set1, hd]
  generalize o.ln i lo = l at *
  generalize o.ln i hi = g at *
  have hlm : l.toNat % a.bb = 0 := by
    rw [assembleCount_toNat, hq, ← Nat.mul_assoc, Nat.mul_comm _ a.bb, Nat.mul_assoc, Nat.add_mul_mod_self_left] at hc
    exact hc
  have hll := l.isLt
  have hle : l.toNat + a.bb ≤ 2 ^ a.w := by
    have h1 := Nat.div_add_mod l.toNat a.bb
    rw [hlm] at h1
    have h3 : l.toNat / a.bb < q := by
      apply Nat.lt_of_mul_lt_mul_left (a := a.bb); omega
    have h4 : a.bb * (l.toNat / a.bb + 1) ≤ a.bb * q := Nat.mul_le_mul_left _ h3
    rw [Nat.mul_add] at h4; omega
  have hdn : (BitVec.ofNat a.w d).toNat = d := by
    rw [BitVec.toNat_ofNat]; exact Nat.mod_eq_of_lt (by omega)
  have hsum : (l + BitVec.ofNat a.w d).toNat = (l.toNat + d) % 2 ^ a.w := by
    rw [BitVec.toNat_add, hdn]
  have h2 : 2 ^ (2 * a.w) = 2 ^ a.w * 2 ^ a.w := by rw [← Nat.pow_add]; congr 1; omega
  have hd2 : d % 2 ^ (2 * a.w) = d := Nat.mod_eq_of_lt (by
    have : 2 ^ a.w ≤ 2 ^ (2 * a.w) := Nat.pow_le_pow_right (by decide) (by omega)
    omega)
  apply BitVec.eq_of_toNat_eq
  rw [BitVec.toNat_add, assembleCount_toNat, assembleCount_toNat, hsum, BitVec.toNat_ofNat, hd2]
  by_cases hcarry : l.toNat + d = 2 ^ a.w
  · have hd0 : d ≠ 0 := by omega
    have e1 : l + BitVec.ofNat a.w d = 0#a.w := BitVec.eq_of_toNat_eq (by rw [hsum, hcarry]; simp)
    have e2 : BitVec.ofNat a.w d ≠ 0#a.w := by
      intro h; have := congrArg BitVec.toNat h; rw [hdn] at this; simp at this; exact hd0 this
    have e3 : (g + (1#a.w &&& (~~~ X86.cmpeq (BitVec.ofNat a.w d) 0#a.w &&& X86.cmpeq (l + BitVec.ofNat a.w d) 0#a.w))).toNat
        = (g.toNat + 1) % 2 ^ a.w := by
      rw [X86.cmpeq, X86.cmpeq, if_neg e2, if_pos e1]
      simp only [BitVec.not_zero, BitVec.and_self, BitVec.toNat_add]
      congr 2
      cases a <;> rfl
    have e3' := e3
    simp only [BitVec.ofNat_eq_ofNat] at *
    rw [e3, hcarry, Nat.mod_self, Nat.zero_add]
    have : l.toNat + g.toNat * 2 ^ a.w + d = (g.toNat + 1) * 2 ^ a.w := by rw [Nat.add_mul]; omega
    rw [this, h2]
    rw [Nat.mul_comm (g.toNat + 1), Nat.mul_mod_mul_left, Nat.mul_comm]
  · have hlt : l.toNat + d < 2 ^ a.w := by omega
    have e3 : (1#a.w &&& (~~~ X86.cmpeq (BitVec.ofNat a.w d) 0#a.w &&& X86.cmpeq (l + BitVec.ofNat a.w d) 0#a.w))
        = 0#a.w := by
      by_cases hd0 : d = 0
      · subst hd0; simp [X86.cmpeq]
      · have : l + BitVec.ofNat a.w d ≠ 0#a.w := by
          intro h; have := congrArg BitVec.toNat h
          rw [hsum, Nat.mod_eq_of_lt hlt] at this; simp at this; omega
        simp [X86.cmpeq, this]
    simp only [BitVec.ofNat_eq_ofNat] at *
    rw [e3, BitVec.add_zero, Nat.mod_eq_of_lt hlt]
    rw [Nat.mod_eq_of_lt]
    · omega
    · rw [h2]
      have hg := g.isLt
      calc l.toNat + g.toNat * 2 ^ a.w + d < 2 ^ a.w + g.toNat * 2 ^ a.w := by omega
        _ = (g.toNat + 1) * 2 ^ a.w := by rw [Nat.add_mul]; omega
        _ ≤ _ := Nat.mul_le_mul_right _ hg

theorem count_add_mod (c : Count a) (h : c.toNat % a.bb = 0) : (c + BitVec.ofNat (2 * a.w) a.bb).toNat % a.bb = 0 := by
  have hdvd : a.bb ∣ 2 ^ (2 * a.w) := Nat.dvd_trans (bb_dvd a) (Nat.pow_dvd_pow _ (by omega))
  rw [BitVec.toNat_add, Nat.mod_mod_of_dvd _ hdvd, BitVec.toNat_ofNat, Nat.add_mod, Nat.mod_mod_of_dvd _ hdvd, h]
  simp

end Blake2
