import Verif.Proofs.Absorb
/-! # Absorbing blocks is the RFC's loop over data blocks -/
namespace Blake2

variable {a : Alg}

theorem bb_eq (a : Alg) : Spec.bb a = a.bb := by cases a <;> rfl
theorem maxOut_eq (a : Alg) : Spec.maxOut a = a.outbytes := by cases a <;> rfl
theorem saltBytes_eq (a : Alg) : Spec.saltBytes a = a.saltbytes := by cases a <;> rfl
theorem degree_eq (a : Alg) : Spec.degree a = parDegree a := by cases a <;> rfl

/-- The chaining value after the first `k` (non-final) data blocks. -/
def chain (a : Alg) (h0 : Vector (Word a) 8) (D : List Byte) (k : Nat) : Vector (Word a) 8 :=
  (List.range k).foldl (fun h i => Spec.F a h (Spec.dataBlock a D i) ((i + 1) * Spec.bb a) false false) h0

theorem chain_zero (h0 : Vector (Word a) 8) (D : List Byte) : chain a h0 D 0 = h0 := rfl

theorem chain_succ (h0 : Vector (Word a) 8) (D : List Byte) (k : Nat) :
    chain a h0 D (k + 1) = Spec.F a (chain a h0 D k) (Spec.dataBlock a D k) ((k + 1) * Spec.bb a) false false := by
  simp [chain, List.range_succ]

theorem dataBlock_append (D x : List Byte) (k : Nat) (h : (k + 1) * a.bb ≤ D.length) :
    Spec.dataBlock a (D ++ x) k = Spec.dataBlock a D k := by
  rw [Nat.add_mul, Nat.one_mul] at h
  unfold Spec.dataBlock
  rw [bb_eq, List.drop_append_of_le_length (by omega), List.take_append_of_le_length (by simp; omega)]

theorem chain_append (h0 : Vector (Word a) 8) (D x : List Byte) (k : Nat) (h : k * a.bb ≤ D.length) :
    chain a h0 (D ++ x) k = chain a h0 D k := by
  induction k with
  | zero => rw [chain_zero, chain_zero]
  | succ k ih =>
    rw [chain_succ, chain_succ, dataBlock_append D x k h, ih (by rw [Nat.add_mul] at h; omega)]

theorem ofNat_mul_succ (n k b : Nat) : BitVec.ofNat n (k * b) + BitVec.ofNat n b = BitVec.ofNat n ((k + 1) * b) := by
  rw [← BitVec.ofNat_add, Nat.add_mul, Nat.one_mul]

/-- Final: the rest of the data, from any block on. -/
theorem absorb_final (h0 : Vector (Word a) 8) (D : List Byte) (ln : Bool) (n k : Nat) (hn : D.length - k * a.bb ≤ n)
    (hk : k = 0 ∨ k * a.bb < D.length) :
    absorb a .Serial true ln (chain a h0 D k) (BitVec.ofNat _ (k * a.bb)) (D.drop (k * a.bb)) =
      Spec.process a h0 D ln := by
  have hb := bb_pos a
  have hkle : k * a.bb ≤ D.length := by rcases hk with h | h <;> simp_all <;> omega
  induction n generalizing k with
  | zero =>
    have hlen0 : D.length = 0 := by rcases hk with h | h <;> simp_all; omega
    have hD : D = [] := List.eq_nil_of_length_eq_zero hlen0
    have hk0 : k = 0 := by rcases hk with h | h <;> simp_all
    subst hD hk0
    have hdd : Spec.numBlocks a ([] : List Byte).length = 1 := by cases a <;> rfl
    rw [absorb, if_pos (by simp)]
    unfold Spec.process
    simp only [hdd, chain_zero, Nat.sub_self, List.range_zero, List.foldl_nil]
    simp only [List.length_nil, Nat.min_zero, Nat.zero_mul, List.drop_nil, List.take_nil, ← BitVec.ofNat_add, Nat.add_zero,
      portable_compressBlock_eq, Bool.true_and]
    simp [Spec.dataBlock, bb_eq]
  | succ n ih =>
    rw [absorb]
    by_cases hle : (D.drop (k * a.bb)).length ≤ Stride.Serial.padded a
    · rw [if_pos hle]
      have hle' : D.length - k * a.bb ≤ a.bb := by simpa [Stride.padded] using hle
      have hdd : Spec.numBlocks a D.length = k + 1 := by
        unfold Spec.numBlocks
        rw [bb_eq]
        rcases Nat.eq_zero_or_pos D.length with h0 | h0
        · have hk0 : k = 0 := by rcases hk with h | h <;> simp_all
          rw [h0, hk0, Nat.zero_add, Nat.div_eq_of_lt (by omega)]; rfl
        · have hlt : k * a.bb < D.length := by rcases hk with h | h <;> simp_all
          have : (D.length + a.bb - 1) / a.bb = k + 1 := by
            rw [Nat.div_eq_iff hb, Nat.add_mul, Nat.one_mul]; omega
          rw [this]; omega
      unfold Spec.process
      simp only [hdd, Nat.add_sub_cancel]
      have e1 : (min a.bb (D.drop (k * a.bb)).length) = D.length - k * a.bb := by rw [List.length_drop]; omega
      have e2 : k * a.bb + (D.length - k * a.bb) = D.length := by omega
      simp only [e1, ← BitVec.ofNat_add, e2, portable_compressBlock_eq, Bool.true_and]
      rw [chain, Spec.dataBlock, bb_eq]
    · rw [if_neg hle]
      have hgt : a.bb < D.length - k * a.bb := by
        rw [List.length_drop] at hle; exact Nat.lt_of_not_le hle
      have hfull : ((D.drop (k * a.bb)).take a.bb).length = a.bb := by simp; omega
      have hblk : Spec.dataBlock a D k = (D.drop (k * a.bb)).take a.bb := by
        rw [Spec.dataBlock, bb_eq, Spec.pad, hfull]; simp
      have hs : k * a.bb + a.bb = (k + 1) * a.bb := by rw [Nat.add_mul, Nat.one_mul]
      have hpad : Stride.Serial.padded a = a.bb := rfl
      rw [ofNat_mul_succ, portable_compressBlock_eq, ← hblk, ← bb_eq, ← chain_succ, List.drop_drop, bb_eq, hpad, hs]
      exact ih (k + 1) (by rw [← hs]; omega) (.inr (by rw [← hs]; omega)) (by rw [← hs]; omega)

/-- Non-final: `m` whole blocks. -/
theorem absorb_nonfinal (h0 : Vector (Word a) 8) (D : List Byte) (ln : Bool) (m k : Nat) (hm : 0 < m)
    (hk : (k + m) * a.bb ≤ D.length) :
    absorb a .Serial false ln (chain a h0 D k) (BitVec.ofNat _ (k * a.bb)) ((D.drop (k * a.bb)).take (m * a.bb)) =
      chain a h0 D (k + m) := by
  have hb := bb_pos a
  induction m generalizing k with
  | zero => omega
  | succ m ih =>
    have hexp : (k + (m + 1)) * a.bb = k * a.bb + (m * a.bb + a.bb) := by rw [Nat.add_mul, Nat.add_mul m, Nat.one_mul]
    have hm1 : (m + 1) * a.bb = m * a.bb + a.bb := by rw [Nat.add_mul, Nat.one_mul]
    have hlen : ((D.drop (k * a.bb)).take ((m + 1) * a.bb)).length = m * a.bb + a.bb := by simp; omega
    have htk : ((D.drop (k * a.bb)).take ((m + 1) * a.bb)).take a.bb = (D.drop (k * a.bb)).take a.bb := by
      rw [List.take_take, Nat.min_eq_left (by omega)]
    have hfull : ((D.drop (k * a.bb)).take a.bb).length = a.bb := by simp; omega
    have hblk : Spec.dataBlock a D k = (D.drop (k * a.bb)).take a.bb := by
      rw [Spec.dataBlock, bb_eq, Spec.pad, hfull]; simp
    have hpad : Stride.Serial.padded a = a.bb := rfl
    have hs : k * a.bb + a.bb = (k + 1) * a.bb := by rw [Nat.add_mul, Nat.one_mul]
    rw [absorb, hlen, hpad, htk, ← hblk, ofNat_mul_succ]
    rcases Nat.eq_zero_or_pos m with rfl | hmpos
    · rw [if_pos (by omega)]
      have hp : Spec.pad a.bb (Spec.dataBlock a D k) = Spec.dataBlock a D k := by
        rw [hblk, Spec.pad, hfull]; simp
      have hmin : min a.bb (0 * a.bb + a.bb) = a.bb := by omega
      rw [hp, hmin, ofNat_mul_succ, Bool.false_and, portable_compressBlock_eq, chain_succ, bb_eq]
    · have : 0 < m * a.bb := Nat.mul_pos hmpos hb
      rw [if_neg (by omega), portable_compressBlock_eq, ← bb_eq, ← chain_succ, bb_eq, List.drop_take, List.drop_drop,
        hm1, Nat.add_sub_cancel, hs, ih (k + 1) hmpos (by rw [Nat.add_assoc, Nat.add_comm 1 m]; exact hk), Nat.add_assoc, Nat.add_comm 1 m]

/-! ## Striped inputs -/

/-- The first `bb` of every `P` bytes. -/
def gather (a : Alg) (P : Nat) (hP : 0 < P) (input : List Byte) : List Byte :=
  if input.length ≤ P then input.take a.bb else input.take a.bb ++ gather a P hP (input.drop P)
termination_by input.length
decreasing_by simp only [List.length_drop]; omega

theorem gather_ne_nil (P : Nat) (hP : 0 < P) (input : List Byte) (h : input ≠ []) : gather a P hP input ≠ [] := by
  have hb := bb_pos a
  have hl : 0 < input.length := List.length_pos_iff.2 h
  have : input.take a.bb ≠ [] := by
    intro he; have := congrArg List.length he; rw [List.length_take, List.length_nil] at this; omega
  rw [gather]
  split
  · exact this
  · simp [this]

/-- A strided absorption is the serial absorption of the gathered blocks. -/
theorem absorb_gather (s : Stride) (fin ln : Bool) (h : Vector (Word a) 8) (c : Count a) (input : List Byte) :
    absorb a s fin ln h c input = absorb a .Serial fin ln h c (gather a (s.padded a) (padded_pos a s) input) := by
  have hb := bb_pos a
  have hle := bb_le_padded a s
  have hpad : Stride.Serial.padded a = a.bb := rfl
  induction hn : input.length using Nat.strongRecOn generalizing h c input with
  | _ n ih =>
    subst hn
    rw [gather]
    by_cases hl : input.length ≤ s.padded a
    · rw [absorb, if_pos hl, if_pos hl, absorb, hpad, if_pos (by rw [List.length_take]; exact Nat.min_le_left _ _), List.take_take, Nat.min_self]
      have e : min a.bb (input.take a.bb).length = min a.bb input.length := by rw [List.length_take]; omega
      rw [e]
    · rw [absorb, if_neg hl, if_neg hl]
      have hdne : input.drop (s.padded a) ≠ [] := by
        intro he; have := congrArg List.length he; rw [List.length_drop, List.length_nil] at this; omega
      have hgl := List.length_pos_iff.2 (gather_ne_nil (a := a) _ (padded_pos a s) _ hdne)
      have htl : (input.take a.bb).length = a.bb := by simp; omega
      rw [ih _ (by simp; omega) _ _ _ rfl]
      conv => rhs; rw [absorb, hpad, if_neg (by rw [List.length_append, htl]; omega)]
      rw [List.take_left' htl, List.drop_left' htl]

end Blake2
