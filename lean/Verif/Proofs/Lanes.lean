import Verif.Proofs.Bytes
import Verif.Model.Intrinsics
/-! # Lanes of vector registers -/
namespace Blake2.X86

theorem lane_ofNat {n m : Nat} (x i : Nat) (h : n * (i + 1) ≤ m) :
    lane n (BitVec.ofNat m x) i = BitVec.ofNat n (x / 2 ^ (n * i)) := by
  apply BitVec.eq_of_getLsbD_eq
  intro j hj
  rw [lane, BitVec.getLsbD_extractLsb', BitVec.getLsbD_ofNat, BitVec.getLsbD_ofNat, Nat.testBit_div_two_pow]
  have : n * i + j < m := by rw [Nat.mul_add] at h; omega
  simp [hj, Nat.add_comm]; omega

theorem lanesNat_div {n : Nat} (l : List (BitVec n)) (i : Nat) (h : i < l.length) :
    BitVec.ofNat n (lanesNat l / 2 ^ (n * i)) = l[i] := by
  induction l generalizing i with
  | nil => simp at h
  | cons x xs ih =>
    cases i with
    | zero =>
      apply BitVec.eq_of_toNat_eq
      simp only [lanesNat, Nat.mul_zero, Nat.pow_zero, Nat.div_one, BitVec.toNat_ofNat, List.getElem_cons_zero]
      rw [Nat.add_mul_mod_self_left, Nat.mod_eq_of_lt x.isLt]
    | succ i =>
      simp only [lanesNat, List.getElem_cons_succ]
      rw [← ih i (by simpa using h), Nat.mul_add, Nat.mul_one, Nat.add_comm (n * i) n, Nat.pow_add,
        ← Nat.div_div_eq_div_mul, Nat.add_mul_div_left _ _ (Nat.two_pow_pos n),
        Nat.div_eq_of_lt x.isLt, Nat.zero_add]

theorem lane_ofLanes {n m : Nat} (l : List (BitVec n)) (i : Nat) (h : i < l.length) (hm : n * (i + 1) ≤ m) :
    lane n (ofLanes n m l) i = l[i] := by
  rw [ofLanes, lane_ofNat _ _ hm, lanesNat_div l i h]

theorem lane_mapLanes {n m : Nat} (f : BitVec n → BitVec n) (x : BitVec m) (i : Nat) (h : i < m / n) :
    lane n (mapLanes n f x) i = f (lane n x i) := by
  rw [mapLanes, lane_ofLanes _ _ (by simpa using h)]
  · simp
  · exact Nat.le_trans (Nat.mul_le_mul_left n h) (Nat.mul_div_le m n)

theorem lane_zipLanes {n m : Nat} (f : BitVec n → BitVec n → BitVec n) (x y : BitVec m) (i : Nat) (h : i < m / n) :
    lane n (zipLanes n f x y) i = f (lane n x i) (lane n y i) := by
  rw [zipLanes, lane_ofLanes _ _ (by simpa using h)]
  · simp
  · exact Nat.le_trans (Nat.mul_le_mul_left n h) (Nat.mul_div_le m n)

theorem lane_and {n m : Nat} (x y : BitVec m) (i : Nat) : lane n (x &&& y) i = lane n x i &&& lane n y i := by
  simp [lane, BitVec.extractLsb'_and]
theorem lane_or {n m : Nat} (x y : BitVec m) (i : Nat) : lane n (x ||| y) i = lane n x i ||| lane n y i := by
  simp [lane, BitVec.extractLsb'_or]
theorem lane_xor {n m : Nat} (x y : BitVec m) (i : Nat) : lane n (x ^^^ y) i = lane n x i ^^^ lane n y i := by
  simp [lane, BitVec.extractLsb'_xor]
theorem lane_not {n m : Nat} (x : BitVec m) (i : Nat) (h : n * (i + 1) ≤ m) : lane n (~~~x) i = ~~~ lane n x i := by
  apply BitVec.eq_of_getLsbD_eq
  intro j hj
  have : n * i + j < m := by rw [Nat.mul_add] at h; omega
  simp [lane, hj, this]

theorem lane_lane {n k m : Nat} (x : BitVec m) (i j : Nat) (h : n * (i + 1) ≤ k) :
    lane n (lane k x j) i = x.extractLsb' (k * j + n * i) n := by
  apply BitVec.eq_of_getLsbD_eq
  intro p hp
  have : n * i + p < k := by rw [Nat.mul_add] at h; omega
  simp [lane, hp, this, Nat.add_assoc]

/-- Two registers with the same lanes are equal. -/
theorem eq_of_lanes {n m : Nat} (hn : 0 < n) (k : Nat) (hk : n * k = m) {x y : BitVec m}
    (h : ∀ i, i < k → lane n x i = lane n y i) : x = y := by
  subst hk
  apply BitVec.eq_of_getLsbD_eq
  intro p hp
  have hlt : p / n < k := (Nat.div_lt_iff_lt_mul hn).2 (by rwa [Nat.mul_comm] at hp)
  have := congrArg (fun z => z.getLsbD (p % n)) (h (p / n) hlt)
  have hmod := Nat.mod_lt p hn
  simp only [lane, BitVec.getLsbD_extractLsb', hmod, decide_true, Bool.true_and, Nat.div_add_mod] at this
  exact this

/-! ## Lanes of every intrinsic -/

theorem lane64_lane128 (x : M256) (i j : Nat) (h : i < 2) : lane 64 (lane 128 x j) i = lane 64 x (2 * j + i) := by
  rw [lane_lane _ _ _ (by omega), lane]; congr 1; omega
theorem lane32_lane128 (x : M256) (i j : Nat) (h : i < 4) : lane 32 (lane 128 x j) i = lane 32 x (4 * j + i) := by
  rw [lane_lane _ _ _ (by omega), lane]; congr 1; omega

end Blake2.X86
