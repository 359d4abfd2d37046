import Verif.Proofs.SnevesGather
import Verif.Proofs.Chain
import Verif.Proofs.ParSpec
/-! # The C function `blake2b` of benches/blake2-avx2-sneves -/
namespace Blake2.SnevesB
open X86
set_option linter.unusedSimpArgs false

theorem g1_eq : g1 = BAvx2.g1 := by
  funext v m
  show (⟨_, rot24 _, _, rot32 _⟩ : BAvx2.Rows) = _
  rw [rot24_eq, rot32_eq]; rfl
theorem g2_eq : g2 = BAvx2.g2 := by
  funext v m
  show (⟨_, rot63 _, _, rot16 _⟩ : BAvx2.Rows) = _
  rw [rot63_eq, rot16_eq]; rfl
theorem roundV1_eq (b1 b2 b3 b4 : M256) (v : BAvx2.Rows) :
    roundV1 b1 b2 b3 b4 v = BAvx2.undiagonalize (BAvx2.g2 (BAvx2.g1 (BAvx2.diagonalize (BAvx2.g2 (BAvx2.g1 v b1) b2)) b3) b4) := by
  rw [← g1_eq, ← g2_eq]; rfl

theorem round_0 (m0 m1 m2 m3 m4 m5 m6 m7 : M256) (v : BAvx2.Rows) :
    roundV1 (loadMsg_0_1 m0 m1 m2 m3 m4 m5 m6 m7) (loadMsg_0_2 m0 m1 m2 m3 m4 m5 m6 m7) (loadMsg_0_3 m0 m1 m2 m3 m4 m5 m6 m7)
      (loadMsg_0_4 m0 m1 m2 m3 m4 m5 m6 m7) v = BAvx2.round1 m0 m1 m2 m3 m4 m5 m6 m7 v := by
  rw [roundV1_eq]; rfl
theorem round_1 (m0 m1 m2 m3 m4 m5 m6 m7 : M256) (v : BAvx2.Rows) :
    roundV1 (loadMsg_1_1 m0 m1 m2 m3 m4 m5 m6 m7) (loadMsg_1_2 m0 m1 m2 m3 m4 m5 m6 m7) (loadMsg_1_3 m0 m1 m2 m3 m4 m5 m6 m7)
      (loadMsg_1_4 m0 m1 m2 m3 m4 m5 m6 m7) v = BAvx2.round2 m0 m1 m2 m3 m4 m5 m6 m7 v := by
  rw [roundV1_eq]; rfl
theorem round_2 (m0 m1 m2 m3 m4 m5 m6 m7 : M256) (v : BAvx2.Rows) :
    roundV1 (loadMsg_2_1 m0 m1 m2 m3 m4 m5 m6 m7) (loadMsg_2_2 m0 m1 m2 m3 m4 m5 m6 m7) (loadMsg_2_3 m0 m1 m2 m3 m4 m5 m6 m7)
      (loadMsg_2_4 m0 m1 m2 m3 m4 m5 m6 m7) v = BAvx2.round3 m0 m1 m2 m3 m4 m5 m6 m7 v := by
  rw [roundV1_eq]; rfl
theorem round_3 (m0 m1 m2 m3 m4 m5 m6 m7 : M256) (v : BAvx2.Rows) :
    roundV1 (loadMsg_3_1 m0 m1 m2 m3 m4 m5 m6 m7) (loadMsg_3_2 m0 m1 m2 m3 m4 m5 m6 m7) (loadMsg_3_3 m0 m1 m2 m3 m4 m5 m6 m7)
      (loadMsg_3_4 m0 m1 m2 m3 m4 m5 m6 m7) v = BAvx2.round4 m0 m1 m2 m3 m4 m5 m6 m7 v := by
  rw [roundV1_eq]; rfl
theorem round_4 (m0 m1 m2 m3 m4 m5 m6 m7 : M256) (v : BAvx2.Rows) :
    roundV1 (loadMsg_4_1 m0 m1 m2 m3 m4 m5 m6 m7) (loadMsg_4_2 m0 m1 m2 m3 m4 m5 m6 m7) (loadMsg_4_3 m0 m1 m2 m3 m4 m5 m6 m7)
      (loadMsg_4_4 m0 m1 m2 m3 m4 m5 m6 m7) v = BAvx2.round5 m0 m1 m2 m3 m4 m5 m6 m7 v := by
  rw [roundV1_eq]; rfl
theorem round_5 (m0 m1 m2 m3 m4 m5 m6 m7 : M256) (v : BAvx2.Rows) :
    roundV1 (loadMsg_5_1 m0 m1 m2 m3 m4 m5 m6 m7) (loadMsg_5_2 m0 m1 m2 m3 m4 m5 m6 m7) (loadMsg_5_3 m0 m1 m2 m3 m4 m5 m6 m7)
      (loadMsg_5_4 m0 m1 m2 m3 m4 m5 m6 m7) v = BAvx2.round6 m0 m1 m2 m3 m4 m5 m6 m7 v := by
  rw [roundV1_eq]; rfl
theorem round_6 (m0 m1 m2 m3 m4 m5 m6 m7 : M256) (v : BAvx2.Rows) :
    roundV1 (loadMsg_6_1 m0 m1 m2 m3 m4 m5 m6 m7) (loadMsg_6_2 m0 m1 m2 m3 m4 m5 m6 m7) (loadMsg_6_3 m0 m1 m2 m3 m4 m5 m6 m7)
      (loadMsg_6_4 m0 m1 m2 m3 m4 m5 m6 m7) v = BAvx2.round7 m0 m1 m2 m3 m4 m5 m6 m7 v := by
  rw [roundV1_eq]; rfl
theorem round_7 (m0 m1 m2 m3 m4 m5 m6 m7 : M256) (v : BAvx2.Rows) :
    roundV1 (loadMsg_7_1 m0 m1 m2 m3 m4 m5 m6 m7) (loadMsg_7_2 m0 m1 m2 m3 m4 m5 m6 m7) (loadMsg_7_3 m0 m1 m2 m3 m4 m5 m6 m7)
      (loadMsg_7_4 m0 m1 m2 m3 m4 m5 m6 m7) v = BAvx2.round8 m0 m1 m2 m3 m4 m5 m6 m7 v := by
  rw [roundV1_eq]; rfl
theorem round_8 (m0 m1 m2 m3 m4 m5 m6 m7 : M256) (v : BAvx2.Rows) :
    roundV1 (loadMsg_8_1 m0 m1 m2 m3 m4 m5 m6 m7) (loadMsg_8_2 m0 m1 m2 m3 m4 m5 m6 m7) (loadMsg_8_3 m0 m1 m2 m3 m4 m5 m6 m7)
      (loadMsg_8_4 m0 m1 m2 m3 m4 m5 m6 m7) v = BAvx2.round9 m0 m1 m2 m3 m4 m5 m6 m7 v := by
  rw [roundV1_eq]; rfl
theorem round_9 (m0 m1 m2 m3 m4 m5 m6 m7 : M256) (v : BAvx2.Rows) :
    roundV1 (loadMsg_9_1 m0 m1 m2 m3 m4 m5 m6 m7) (loadMsg_9_2 m0 m1 m2 m3 m4 m5 m6 m7) (loadMsg_9_3 m0 m1 m2 m3 m4 m5 m6 m7)
      (loadMsg_9_4 m0 m1 m2 m3 m4 m5 m6 m7) v = BAvx2.round10 m0 m1 m2 m3 m4 m5 m6 m7 v := by
  rw [roundV1_eq]; rfl
theorem round_10 (m0 m1 m2 m3 m4 m5 m6 m7 : M256) (v : BAvx2.Rows) :
    roundV1 (loadMsg_10_1 m0 m1 m2 m3 m4 m5 m6 m7) (loadMsg_10_2 m0 m1 m2 m3 m4 m5 m6 m7) (loadMsg_10_3 m0 m1 m2 m3 m4 m5 m6 m7)
      (loadMsg_10_4 m0 m1 m2 m3 m4 m5 m6 m7) v = BAvx2.round11 m0 m1 m2 m3 m4 m5 m6 m7 v := by
  rw [roundV1_eq]; rfl
theorem round_11 (m0 m1 m2 m3 m4 m5 m6 m7 : M256) (v : BAvx2.Rows) :
    roundV1 (loadMsg_11_1 m0 m1 m2 m3 m4 m5 m6 m7) (loadMsg_11_2 m0 m1 m2 m3 m4 m5 m6 m7) (loadMsg_11_3 m0 m1 m2 m3 m4 m5 m6 m7)
      (loadMsg_11_4 m0 m1 m2 m3 m4 m5 m6 m7) v = BAvx2.round12 m0 m1 m2 m3 m4 m5 m6 m7 v := by
  rw [roundV1_eq]; rfl

theorem roundsV1_eq (m0 m1 m2 m3 m4 m5 m6 m7 : M256) (v : BAvx2.Rows) : roundsV1 m0 m1 m2 m3 m4 m5 m6 m7 v = BAvx2.rounds m0 m1 m2 m3 m4 m5 m6 m7 v := by
  simp only [roundsV1, round_0, round_1, round_2, round_3, round_4, round_5, round_6, round_7, round_8, round_9, round_10, round_11, BAvx2.rounds]

/-- The two registers that hold a chaining value. -/
def regs (h : Vector (BitVec 64) 8) : M256 × M256 := (q4 h[0] h[1] h[2] h[3], q4 h[4] h[5] h[6] h[7])

theorem loadBroadcast_eq (m : List Byte) (k : Nat) (h : 16 * k + 16 ≤ m.length) :
    loadBroadcast m (16 * k) = .ok (BAvx2.msgChunk m k) := by
  rw [loadBroadcast, loadu128At, rawRef, if_pos h]; rfl

/-- The words of a row, in the order of the lanes of the four message vectors. -/
def laneOrder (s : Vector (Fin 16) 16) : Vector (Fin 16) 16 :=
  #v[s[0], s[2], s[4], s[6], s[1], s[3], s[5], s[7], s[14], s[8], s[10], s[12], s[15], s[9], s[11], s[13]]

theorem roundSimd_eq (w : Vector (BitVec 64) 16) (r : Fin 12) (v : Vector (BitVec 64) 16) :
    let s := laneOrder (SIGMA .b)[r]
    roundV1 (q4 w[s[0]] w[s[1]] w[s[2]] w[s[3]]) (q4 w[s[4]] w[s[5]] w[s[6]] w[s[7]]) (q4 w[s[8]] w[s[9]] w[s[10]] w[s[11]])
      (q4 w[s[12]] w[s[13]] w[s[14]] w[s[15]]) (BAvx2.rowsOf v) = BAvx2.rowsOf (Portable.round .b w v r) := by
  intro s
  rw [portable_round_eq, ← BAvx2.simdRound_eq, roundV1_eq]
  rfl

/-! ### The loads by gathers -/

/-- The row of `indices` for a round. -/
def indexRow (r : Fin 12) : Vector (BitVec 32) 16 := (laneOrder (SIGMA .b)[r]).map fun i => BitVec.ofNat 32 i.val

theorem indices_eq : indices.toList = (Portable.roundNumbers .b).map indexRow := by decide +kernel

theorem roundGather_eq (m : List Byte) (hm : 128 ≤ m.length) (v : Vector (BitVec 64) 16) (r : Fin 12) :
    roundGather m (BAvx2.rowsOf v) (indexRow r) = .ok (BAvx2.rowsOf (Portable.round .b (Portable.msgWords .b m) v r)) := by
  rw [← roundSimd_eq]
  have hv : ∀ k : Fin 4, indexVec (indexRow r) k =
      d4 (BitVec.ofNat 32 (laneOrder (SIGMA .b)[r])[4 * k.val].val) (BitVec.ofNat 32 (laneOrder (SIGMA .b)[r])[4 * k.val + 1].val)
        (BitVec.ofNat 32 (laneOrder (SIGMA .b)[r])[4 * k.val + 2].val) (BitVec.ofNat 32 (laneOrder (SIGMA .b)[r])[4 * k.val + 3].val) := by
    intro k
    rw [indexVec, indexRow]
    simp only [Vector.getElem_map]
    rfl
  rw [roundGather, hv, hv, hv, hv]
  rw [show ∀ (i j k l : Fin 16), mm256_i32gather_epi64 m 0 (d4 (BitVec.ofNat 32 i.val) (BitVec.ofNat 32 j.val) (BitVec.ofNat 32 k.val)
    (BitVec.ofNat 32 l.val)) 8 = _ from Sneves.gatherB_eq m hm]
  rw [show ∀ (i j k l : Fin 16), mm256_i32gather_epi64 m 0 (d4 (BitVec.ofNat 32 i.val) (BitVec.ofNat 32 j.val) (BitVec.ofNat 32 k.val)
    (BitVec.ofNat 32 l.val)) 8 = _ from Sneves.gatherB_eq m hm]
  rw [show ∀ (i j k l : Fin 16), mm256_i32gather_epi64 m 0 (d4 (BitVec.ofNat 32 i.val) (BitVec.ofNat 32 j.val) (BitVec.ofNat 32 k.val)
    (BitVec.ofNat 32 l.val)) 8 = _ from Sneves.gatherB_eq m hm]
  rw [show ∀ (i j k l : Fin 16), mm256_i32gather_epi64 m 0 (d4 (BitVec.ofNat 32 i.val) (BitVec.ofNat 32 j.val) (BitVec.ofNat 32 k.val)
    (BitVec.ofNat 32 l.val)) 8 = _ from Sneves.gatherB_eq m hm]
  rfl

/-! ### The loads one by one -/

/-- The arguments of the four loads of a round: each vector is set from its most significant lane. -/
def simpleRow (r : Fin 12) : Vector (Vector (Fin 16) 4) 4 :=
  let s := laneOrder (SIGMA .b)[r]
  #v[#v[s[3], s[2], s[1], s[0]], #v[s[7], s[6], s[5], s[4]], #v[s[11], s[10], s[9], s[8]], #v[s[15], s[14], s[13], s[12]]]

theorem simpleMsg_eq : simpleMsg.toList = (Portable.roundNumbers .b).map simpleRow := by decide +kernel

theorem messageWords_eq (m : List Byte) (hm : 128 ≤ m.length) : messageWords m = .ok (Portable.msgWords .b m) := by
  have h := fun off h => Sneves.loadu64At_eq m off h
  rw [messageWords, h 0 (by omega), h 8 (by omega), h 16 (by omega), h 24 (by omega), h 32 (by omega), h 40 (by omega), h 48 (by omega),
    h 56 (by omega), h 64 (by omega), h 72 (by omega), h 80 (by omega), h 88 (by omega), h 96 (by omega), h 104 (by omega),
    h 112 (by omega), h 120 (by omega)]
  rfl

theorem roundSimple_eq (w v : Vector (BitVec 64) 16) (r : Fin 12) :
    (fun (v : BAvx2.Rows) (e : Vector (Vector (Fin 16) 4) 4) =>
      roundV1 (loadSimple w e[0]) (loadSimple w e[1]) (loadSimple w e[2]) (loadSimple w e[3]) v) (BAvx2.rowsOf v) (simpleRow r) =
      BAvx2.rowsOf (Portable.round .b w v r) := by
  rw [← roundSimd_eq]
  rfl

/-- The message loads and the rounds, with each way of loading the message. -/
theorem messageRounds_eq (p : Sneves.Permute) (m : List Byte) (v : Vector (BitVec 64) 16) (hm : 128 ≤ m.length) :
    messageRounds p m (BAvx2.rowsOf v) =
      .ok (BAvx2.rowsOf ((Portable.roundNumbers .b).foldl (Portable.round .b (Portable.msgWords .b m)) v)) := by
  cases p with
  | shuffles =>
    have l0 := loadBroadcast_eq m 0 (by omega)
    have l1 := loadBroadcast_eq m 1 (by omega)
    have l2 := loadBroadcast_eq m 2 (by omega)
    have l3 := loadBroadcast_eq m 3 (by omega)
    have l4 := loadBroadcast_eq m 4 (by omega)
    have l5 := loadBroadcast_eq m 5 (by omega)
    have l6 := loadBroadcast_eq m 6 (by omega)
    have l7 := loadBroadcast_eq m 7 (by omega)
    unfold messageRounds
    simp only
    rw [show loadBroadcast m 0 = _ from l0, show loadBroadcast m 16 = _ from l1, show loadBroadcast m 32 = _ from l2,
      show loadBroadcast m 48 = _ from l3, show loadBroadcast m 64 = _ from l4, show loadBroadcast m 80 = _ from l5,
      show loadBroadcast m 96 = _ from l6, show loadBroadcast m 112 = _ from l7]
    simp only [bind, Except.bind]
    rw [roundsV1_eq, BAvx2.rounds_block]
  | gather =>
    show indices.toList.foldlM (roundGather m) (BAvx2.rowsOf v) = _
    rw [indices_eq]
    exact Sneves.foldlM_map _ _ BAvx2.rowsOf indexRow (roundGather_eq m hm) _ _
  | none =>
    unfold messageRounds
    simp only
    rw [messageWords_eq m hm, simpleMsg_eq]
    exact congrArg Except.ok (Sneves.foldl_map _ _ BAvx2.rowsOf simpleRow (roundSimple_eq _) _ _)

/-- One compression, for a message of at least one block. -/
theorem compressV1_eq (p : Sneves.Permute) (h : Vector (BitVec 64) 8) (m : List Byte) (t0 t1 f0 f1 : BitVec 64) (hm : 128 ≤ m.length) :
    compressV1 p (regs h).1 (regs h).2 m t0 t1 f0 f1 =
      .ok (regs (compressWords .b (Portable.msgWords .b m) h t0 t1 f0 f1)) := by
  unfold compressV1
  have hx : xor = BAvx2.xor := rfl
  have hiv4 : loadIV4 = q4 (IV .b)[4] (IV .b)[5] (IV .b)[6] (IV .b)[7] := rfl
  have hiv0 : loadIV0 = q4 (IV .b)[0] (IV .b)[1] (IV .b)[2] (IV .b)[3] := rfl
  have hset : mm256_set_epi64x f1 f0 t1 t0 = q4 t0 t1 f0 f1 := rfl
  rw [hx, hiv4, hset, hiv0, BAvx2.xor_regs]
  have hr := messageRounds_eq p m #v[h[0], h[1], h[2], h[3], h[4], h[5], h[6], h[7],
    (IV .b)[0], (IV .b)[1], (IV .b)[2], (IV .b)[3], (IV .b)[4] ^^^ t0, (IV .b)[5] ^^^ t1, (IV .b)[6] ^^^ f0, (IV .b)[7] ^^^ f1] hm
  simp only [bind, Except.bind]
  rw [show messageRounds p m
      ⟨(regs h).1, (regs h).2, q4 (IV .b)[0] (IV .b)[1] (IV .b)[2] (IV .b)[3],
        q4 ((IV .b)[4] ^^^ t0) ((IV .b)[5] ^^^ t1) ((IV .b)[6] ^^^ f0) ((IV .b)[7] ^^^ f1)⟩ = _ from hr, compressWords]
  generalize (Portable.roundNumbers .b).foldl _ _ = r
  refine congrArg Except.ok ?_
  simp only [BAvx2.rowsOf, regs, BAvx2.xor_regs, feedForward]
  simp [BitVec.xor_comm]

/-! ## The loop -/

theorem msgWords_take (a : Alg) (m : List Byte) (n : Nat) (h : a.bb ≤ n) : Portable.msgWords a (m.take n) = Portable.msgWords a m := by
  have e : ∀ i, i < 16 → ((m.take n).drop (i * a.wb)).take a.wb = (m.drop (i * a.wb)).take a.wb := by
    intro i hi
    have : i * a.wb + a.wb ≤ n := by
      have : i * a.wb + a.wb ≤ a.bb := by cases a <;> simp [Alg.wb, Alg.bb] <;> omega
      omega
    rw [List.drop_take, List.take_take]; congr 1; omega
  simp only [Portable.msgWords, e 0 (by decide), e 1 (by decide), e 2 (by decide), e 3 (by decide), e 4 (by decide), e 5 (by decide),
    e 6 (by decide), e 7 (by decide), e 8 (by decide), e 9 (by decide), e 10 (by decide), e 11 (by decide), e 12 (by decide),
    e 13 (by decide), e 14 (by decide), e 15 (by decide)]

theorem copyPadded_eq (p : List Byte) (n size : Nat) (h1 : n ≤ p.length) (h2 : n ≤ size) :
    copyPadded p n size = .ok (Spec.pad size (p.take n)) := by
  rw [copyPadded, rawRef, if_pos (by omega)]
  simp only [bind, Except.bind, h2, if_true, Spec.pad, List.drop_zero, List.length_take, Nat.min_eq_left h1]

theorem pad_length' (n : Nat) (l : List Byte) : n ≤ (Spec.pad n l).length := by
  rw [Spec.pad, List.length_append, List.length_replicate]; omega

theorem countLow_b (n : Nat) : countLow .b (BitVec.ofNat _ n) = BitVec.ofNat 64 n := by
  apply BitVec.eq_of_toNat_eq
  simp only [countLow, BitVec.toNat_setWidth, BitVec.toNat_ofNat]
  show n % 2 ^ (2 * 64) % 2 ^ 64 = n % 2 ^ 64
  exact Nat.mod_mod_of_dvd _ (Nat.pow_dvd_pow 2 (by decide))
theorem countHigh_b (n : Nat) (h : n < 2 ^ 64) : countHigh .b (BitVec.ofNat _ n) = 0 := by
  apply BitVec.eq_of_toNat_eq
  simp only [countHigh, BitVec.toNat_setWidth, BitVec.toNat_ushiftRight, BitVec.toNat_ofNat]
  show (n % 2 ^ (2 * 64)) >>> 64 % 2 ^ 64 = 0
  rw [Nat.shiftRight_eq_div_pow, Nat.mod_eq_of_lt (Nat.lt_trans h (by decide)), Nat.div_eq_of_lt h]

/-- One compression with a byte count below 2^64. -/
theorem compressV1_count (p : Sneves.Permute) (h : Vector (BitVec 64) 8) (m : List Byte) (n : Nat) (f0 f1 : BitVec 64) (hm : 128 ≤ m.length)
    (hn : n < 2 ^ 64) :
    compressV1 p (regs h).1 (regs h).2 m (BitVec.ofNat 64 n) 0 f0 f1 =
      .ok (regs (Portable.compressBlock .b m h (BitVec.ofNat _ n) f0 f1)) := by
  rw [compressV1_eq _ _ _ _ _ _ _ hm, portable_compressWords, countLow_b, countHigh_b n hn]

theorem compressBlock_take (m : List Byte) (h : Vector (BitVec 64) 8) (c : Count .b) (f0 f1 : BitVec 64) :
    Portable.compressBlock .b (m.take 128) h c f0 f1 = Portable.compressBlock .b m h c f0 f1 := by
  rw [portable_compressWords, portable_compressWords, msgWords_take .b m 128 (by decide)]

theorem loop_eq (p : Sneves.Permute) (fuel : Nat) (in_ : List Byte) (n : Nat) (h : Vector (BitVec 64) 8) (hf : in_.length < fuel)
    (hn : n + in_.length < 2 ^ 64) :
    blake2bLoop p fuel in_ in_.length (BitVec.ofNat 64 n) (regs h).1 (regs h).2 =
      .ok (regs (absorb .b .Serial true false h (BitVec.ofNat _ n) in_)) := by
  induction fuel generalizing in_ n h with
  | zero => omega
  | succ fuel ih =>
    rw [blake2bLoop, absorb]
    have hpad : Stride.Serial.padded .b = 128 := rfl
    have hbb : Alg.bb .b = 128 := rfl
    rw [hpad, hbb]
    by_cases h1 : in_.length ≤ 128
    · rw [if_pos h1, if_pos h1]
      have hfin : flagWord .b true = BitVec.allOnes 64 := rfl
      have hfin0 : flagWord .b (true && false) = 0 := rfl
      have htk : in_.take 128 = in_ := List.take_of_length_le h1
      rw [hfin, hfin0, htk, Nat.min_eq_right h1, ← BitVec.ofNat_add]
      by_cases h2 : in_.length < 128
      · rw [if_pos h2, copyPadded_eq _ _ _ (Nat.le_refl _) h1, List.take_length]
        simp only [bind, Except.bind]
        rw [← BitVec.ofNat_add, compressV1_count _ _ _ _ _ _ (pad_length' _ _) (by omega)]
        simp
      · rw [if_neg h2]
        simp only [bind, Except.bind]
        have he : in_.length = 128 := by omega
        rw [← BitVec.ofNat_add, compressV1_count _ _ _ _ _ _ (by omega) (by omega)]
        have hp : Spec.pad 128 in_ = in_ := by simp [Spec.pad, he]
        simp [he, hp]
    · rw [if_neg h1, if_neg h1, if_neg (by omega)]
      simp only [bind, Except.bind]
      rw [← BitVec.ofNat_add, compressV1_count _ _ _ _ _ _ (by omega) (by omega)]
      simp only
      rw [if_pos (by omega), ← List.length_drop, ih _ _ _ (by rw [List.length_drop]; omega) (by rw [List.length_drop]; omega),
        compressBlock_take, ← BitVec.ofNat_add]
      have hf0 : flagWord .b false = 0 := rfl
      rw [hf0]

/-! ## The stores -/

theorem leBytes_add (n m x : Nat) : leBytes (n + m) x = leBytes n x ++ leBytes m (x / 256 ^ n) := by
  rw [leBytes_eq_range, leBytes_eq_range, leBytes_eq_range, List.range_add, List.map_append, List.map_map]
  refine congrArg _ (List.map_congr_left fun i _ => ?_)
  simp only [Function.comp, Nat.pow_add, Nat.div_div_eq_div_mul]

theorem leBytes_mod (n x : Nat) : leBytes n (x % 256 ^ n) = leBytes n x := by
  apply leNat_inj (by simp)
  rw [leNat_leBytes, leNat_leBytes, Nat.mod_mod]

/-- The bytes of a register of four 64-bit lanes. -/
theorem leBytes_q4 (a b c d : BitVec 64) :
    leBytes 32 (q4 a b c d).toNat = leBytes 8 a.toNat ++ leBytes 8 b.toNat ++ leBytes 8 c.toNat ++ leBytes 8 d.toNat := by
  have ha := a.isLt; have hb := b.isLt; have hc := c.isLt; have hd := d.isLt
  have hq : (q4 a b c d).toNat = a.toNat + 2 ^ 64 * (b.toNat + 2 ^ 64 * (c.toNat + 2 ^ 64 * d.toNat)) := by
    rw [q4, ofLanes, BitVec.toNat_ofNat]
    simp only [lanesNat, Nat.mul_zero, Nat.add_zero]
    exact Nat.mod_eq_of_lt (by omega)
  have h8 : ∀ (x : BitVec 64) (y : Nat), leBytes 8 (x.toNat + 2 ^ 64 * y) = leBytes 8 x.toNat := by
    intro x y
    rw [← leBytes_mod 8 (x.toNat + 2 ^ 64 * y), ← leBytes_mod 8 x.toNat]
    congr 1
    exact Nat.add_mul_mod_self_left _ _ _
  have hd8 : ∀ (x : BitVec 64) (y : Nat), (x.toNat + 2 ^ 64 * y) / 256 ^ 8 = y := by
    intro x y
    have := x.isLt
    omega
  rw [hq, show (32 : Nat) = 8 + (8 + (8 + 8)) from rfl, leBytes_add, leBytes_add 8 (8 + 8), leBytes_add 8 8, h8, hd8, h8, hd8, h8, hd8]
  simp only [List.append_assoc]

theorem regs_bytes (h : Vector (BitVec 64) 8) :
    leBytes 32 (regs h).1.toNat ++ leBytes 32 (regs h).2.toNat = Spec.wordsToBytes .b h := by
  rw [regs, leBytes_q4, leBytes_q4, Spec.wordsToBytes]
  conv => rhs; rw [vec8_eta h]
  simp [Alg.wb]

/-- The two stores to an array of 64 bytes. -/
theorem store_regs (out : List Byte) (h : Vector (BitVec 64) 8) (ho : out.length = 64) :
    (do let out ← storeu256At out 0 (regs h).1
        storeu256At out 32 (regs h).2) = .ok (Spec.wordsToBytes .b h) := by
  rw [storeu256At, if_pos (by omega)]
  simp only [bind, Except.bind]
  rw [storeu256At, if_pos (by simp; omega), ← regs_bytes]
  refine congrArg Except.ok ?_
  simp only [List.take_zero, List.nil_append]
  rw [List.take_left' (by simp), List.drop_eq_nil_of_le (by simp; omega), List.append_nil]

theorem init_regs : (xor loadIV0 (mm256_set_epi64x 0 0 0 0x01010040), loadIV4) = regs (Spec.initH .b (Spec.Config.default .b)) := by
  decide +kernel

/-- `blake2b` of the C library is BLAKE2b. -/
theorem blake2b_eq (p : Sneves.Permute) (out input : List Byte) (ho : out.length = 64) (hi : input.length < 2 ^ 64) :
    blake2b p out input input.length = .ok (Spec.hash .b (Spec.Config.default .b) input) := by
  unfold blake2b
  have h1 := congrArg Prod.fst init_regs
  have h2 := congrArg Prod.snd init_regs
  simp only at h1 h2
  simp only [h1, h2]
  have hl := loop_eq p (input.length + 1) input 0 (Spec.initH .b (Spec.Config.default .b)) (by omega) (by omega)
  simp only [BitVec.ofNat_eq_ofNat] at hl ⊢
  rw [hl]
  simp only [bind, Except.bind]
  have hs := store_regs out (absorb .b .Serial true false (Spec.initH .b (Spec.Config.default .b)) (BitVec.ofNat _ 0) input) ho
  simp only [bind, Except.bind] at hs
  rw [hs]
  have ha := absorb_final (a := .b) (Spec.initH .b (Spec.Config.default .b)) input false input.length 0 (by omega) (.inl rfl)
  rw [chain_zero, Nat.zero_mul, List.drop_zero] at ha
  rw [ha]
  rfl

end Blake2.SnevesB
