import Verif.Proofs.SnevesRound
/-! # One stripe at a time: the lanes of the C code and the leaves of the tree -/
namespace Blake2.Sneves
open Spec X86
variable {a : Alg}

/-- What one transposed compression does to leaf `i` when `x` is what is left of the input. -/
def laneStep (a : Alg) (i : Nat) (ln : Bool) (h : Vector (Word a) 8) (c : Count a) (x : List Byte) : Vector (Word a) 8 :=
  Portable.compressBlock a (pad a.bb ((x.drop (i * a.bb)).take a.bb)) h (c + BitVec.ofNat _ (min a.bb (x.length - i * a.bb)))
    (flagWord a (decide (x.length ≤ stripe a + i * a.bb))) (flagWord a (decide (x.length ≤ stripe a + i * a.bb) && ln))

theorem laneStep_final {i : Nat} (ln : Bool) (h : Vector (Word a) 8) (c : Count a) (x : List Byte)
    (hx : x.length ≤ stripe a + i * a.bb) : laneStep a i ln h c x = absorb a .Parallel true ln h c (x.drop (i * a.bb)) := by
  rw [laneStep, absorb, if_pos (by rw [List.length_drop, stripe_eq]; omega), decide_eq_true hx, List.length_drop]

theorem laneStep_more {i : Nat} (ln : Bool) (h : Vector (Word a) 8) (c : Count a) (x : List Byte)
    (hx : ¬ x.length ≤ stripe a + i * a.bb) :
    absorb a .Parallel true ln h c (x.drop (i * a.bb)) =
      absorb a .Parallel true ln (laneStep a i ln h c x) (c + BitVec.ofNat _ a.bb) ((x.drop (stripe a)).drop (i * a.bb)) := by
  have hb := bb_le_stripe a
  rw [laneStep, absorb, if_neg (by rw [List.length_drop, stripe_eq]; omega), decide_eq_false hx, Bool.false_and,
    Nat.min_eq_left (by omega), stripe_eq, List.drop_drop, List.drop_drop, Nat.add_comm (i * a.bb)]
  have hp : pad a.bb ((x.drop (i * a.bb)).take a.bb) = (x.drop (i * a.bb)).take a.bb := by
    have : ((x.drop (i * a.bb)).take a.bb).length = a.bb := by simp; omega
    simp [pad, this]
  rw [hp]

/-- The tree from the chaining values of its leaves. -/
theorem treeFull_leaves (n : Nat) (msg : List Byte) :
    wordsToBytes a (process a (initH a (rootConfig a n []))
      ((Vector.ofFn fun i : Fin (parDegree a) => absorb a .Parallel true (decide (i.val = parDegree a - 1))
        (initH a (leafConfig a n [] i)) 0 (msg.drop (i.val * a.bb))).toList.flatMap (wordsToBytes a)) true) = treeFull a n [] msg := by
  rw [treeFull, ← leaves_flatMap (a := a) (n := n) (key := []) (Nat.zero_le _) msg]
  refine congrArg (fun l => wordsToBytes a (process a (initH a (rootConfig a n [])) l true)) ?_
  refine congrArg (fun v : Vector (Vector (Word a) 8) (parDegree a) => v.toList.flatMap (wordsToBytes a)) ?_
  refine congrArg Vector.ofFn (funext fun i => ?_)
  have h := absorb_leaf_final (a := a) i.val (initH a (leafConfig a n [] i)) msg (decide (i.val = parDegree a - 1)) 0 (.inl rfl)
  simp only [Nat.zero_mul, List.drop_zero, chain_zero] at h
  have e0 : (BitVec.ofNat (2 * a.w) 0) = 0 := rfl
  rw [e0] at h
  rw [h]
  rfl

/-- A node without a key, from the start. -/
theorem process_absorb (h : Vector (Word a) 8) (msg : List Byte) (ln : Bool) :
    process a h msg ln = absorb a .Serial true ln h 0 msg := by
  have := absorb_final h msg ln _ 0 (Nat.le_refl _) (.inl rfl)
  simp only [Nat.zero_mul, List.drop_zero, chain_zero] at this
  exact this.symm

theorem slt_ofNat (x y : Nat) (hx : x < 2 ^ 63) (hy : y < 2 ^ 63) : (BitVec.ofNat 64 x).slt (BitVec.ofNat 64 y) = decide (x < y) := by
  rw [BitVec.slt, BitVec.toInt_ofNat', BitVec.toInt_ofNat', Int.bmod_eq_of_le (by omega) (by omega), Int.bmod_eq_of_le (by omega) (by omega)]
  simp

/-- A blend whose mask is all ones or all zeros in a 64-bit lane. -/
theorem lane_blendv (x y m : M256) (i : Nat) (hi : i < 4) (b : Bool) (h : lane 64 m i = if b then BitVec.allOnes 64 else 0) :
    lane 64 (mm256_blendv_epi8 x y m) i = if b then lane 64 y i else lane 64 x i := by
  have e : ∀ (z : M256) (j : Nat), j < 8 → lane 8 (lane 64 z i) j = lane 8 z (8 * i + j) := by
    intro z j hj
    rw [lane_lane _ _ _ (by omega), lane]; congr 1; omega
  refine eq_of_lanes (n := 8) (by decide) 8 rfl fun j hj => ?_
  rw [e _ j hj, mm256_blendv_epi8, lane_ofLanes _ _ (by simp; omega) (by omega), List.getElem_map, List.getElem_range]
  have hm : lane 8 m (8 * i + j) = if b then BitVec.allOnes 8 else 0 := by
    rw [← e m j hj, h]
    cases b
    · simp only [Bool.false_eq_true, if_false]
      rw [show (0 : BitVec 64) = BitVec.ofNat 64 0 from rfl, lane_ofNat _ _ (by omega), Nat.zero_div]; rfl
    · simp only [if_true]
      apply BitVec.eq_of_getLsbD_eq
      intro p hp
      have : 8 * j + p < 64 := by omega
      rw [lane, BitVec.getLsbD_extractLsb', BitVec.getLsbD_allOnes, BitVec.getLsbD_allOnes, decide_eq_true hp, decide_eq_true this]; rfl
  rw [hm]
  cases b
  · simp only [Bool.false_eq_true, if_false]
    rw [if_neg (by decide), e _ j hj]
  · simp only [if_true]
    rw [if_pos (by decide), e _ j hj]

end Blake2.Sneves

namespace Blake2.SnevesBp
open X86 SnevesB Sneves

theorem lane_c (a b c d : Nat) (i : Fin 4) (f : Nat → Nat) (h0 : f 0 = a) (h1 : f 1 = b) (h2 : f 2 = c) (h3 : f 3 = d) :
    lane 64 (mm256_set_epi64x (BitVec.ofNat 64 d) (BitVec.ofNat 64 c) (BitVec.ofNat 64 b) (BitVec.ofNat 64 a)) i.val = BitVec.ofNat 64 (f i.val) := by
  refine (lane_q4 _ _ _ _ i).trans ?_
  subst h0 h1 h2 h3
  match i with
  | ⟨0, _⟩ => rfl
  | ⟨1, _⟩ => rfl
  | ⟨2, _⟩ => rfl
  | ⟨3, _⟩ => rfl

theorem lane_set1 (x : BitVec 64) (i : Fin 4) : lane 64 (mm256_set1_epi64x x) i.val = x := by
  have h : mm256_set1_epi64x x = q4 x x x x := rfl
  rw [h, lane_q4]
  match i with
  | ⟨0, _⟩ => rfl
  | ⟨1, _⟩ => rfl
  | ⟨2, _⟩ => rfl
  | ⟨3, _⟩ => rfl

theorem lane_cmpgt (x y : M256) (i : Fin 4) :
    lane 64 (mm256_cmpgt_epi64 x y) i.val = if (lane 64 y i.val).slt (lane 64 x i.val) then BitVec.allOnes 64 else 0 :=
  lane_zipLanes _ _ _ _ (by have := i.isLt; omega)

/-- The counters and the flags of one turn of the loop. -/
theorem counters (L : Nat) (hL : L < 2 ^ 63) (i : Fin 4) :
    let c0 := mm256_set_epi64x 384 256 128 0
    let c1 := mm256_set_epi64x (512+384+1) (512+256+1) (512+128+1) (512+1)
    let c2 := mm256_setzero_si256
    let c3 := mm256_set1_epi64x 128
    let x0 := mm256_set1_epi64x (BitVec.ofNat 64 L)
    let x1 := mm256_cmpgt_epi64 x0 c0
    let x2 := mm256_blendv_epi8 c2 (mm256_sub_epi64 x0 c0) x1
    let x3 := mm256_cmpgt_epi64 x2 c3
    let x4 := mm256_blendv_epi8 x2 c3 x3
    let f0 := mm256_cmpgt_epi64 c1 x0
    lane 64 x4 i.val = BitVec.ofNat 64 (min 128 (L - i.val * 128)) ∧
      lane 64 f0 i.val = flagWord .b (decide (L ≤ 512 + i.val * 128)) := by
  intro c0 c1 c2 c3 x0 x1 x2 x3 x4 f0
  have hi := i.isLt
  have e0 : lane 64 c0 i.val = BitVec.ofNat 64 (i.val * 128) := lane_c 0 128 256 384 i (· * 128) rfl rfl rfl rfl
  have e1 : lane 64 c1 i.val = BitVec.ofNat 64 (513 + i.val * 128) := lane_c 513 641 769 897 i (513 + · * 128) rfl rfl rfl rfl
  have e2 : lane 64 c2 i.val = 0 := lane_zero i
  have e3 : lane 64 c3 i.val = BitVec.ofNat 64 128 := lane_set1 _ i
  have ex0 : lane 64 x0 i.val = BitVec.ofNat 64 L := lane_set1 _ i
  have ex1 : lane 64 x1 i.val = if decide (i.val * 128 < L) then BitVec.allOnes 64 else 0 := by
    rw [lane_cmpgt, ex0, e0, slt_ofNat _ _ (by omega) hL]
  have ex2 : lane 64 x2 i.val = BitVec.ofNat 64 (L - i.val * 128) := by
    rw [lane_blendv _ _ _ _ hi _ ex1, e2]
    have hs : lane 64 (mm256_sub_epi64 x0 c0) i.val = lane 64 x0 i.val - lane 64 c0 i.val := lane_zipLanes _ _ _ _ (by omega)
    rw [hs, ex0, e0]
    by_cases h : i.val * 128 < L
    · rw [decide_eq_true h, if_pos rfl]
      apply BitVec.eq_of_toNat_eq
      rw [BitVec.toNat_sub, BitVec.toNat_ofNat, BitVec.toNat_ofNat, BitVec.toNat_ofNat]
      omega
    · rw [decide_eq_false h, Nat.sub_eq_zero_of_le (by omega)]; rfl
  have ex3 : lane 64 x3 i.val = if decide (128 < L - i.val * 128) then BitVec.allOnes 64 else 0 := by
    rw [lane_cmpgt, ex2, e3, slt_ofNat _ _ (by omega) (by omega)]
  refine ⟨?_, ?_⟩
  · rw [lane_blendv _ _ _ _ hi _ ex3, e3, ex2]
    by_cases h : 128 < L - i.val * 128
    · rw [decide_eq_true h, if_pos rfl, Nat.min_eq_left (by omega)]
    · rw [decide_eq_false h, Nat.min_eq_right (by omega)]; rfl
  · rw [lane_cmpgt, ex0, e1, slt_ofNat _ _ hL (by omega), flagWord]
    have : decide (L < 513 + i.val * 128) = decide (L ≤ 512 + i.val * 128) := decide_eq_decide.2 (by omega)
    rw [this]
    rfl

theorem pad_drop_take (x : List Byte) (n i b : Nat) (h : i * b + b ≤ n) (hx : x.length ≤ n) :
    ((Spec.pad n x).drop (i * b)).take b = Spec.pad b ((x.drop (i * b)).take b) := by
  apply List.ext_getElem
  · simp [Spec.pad]; omega
  · intro k h1 h2
    simp only [Spec.pad, List.getElem_take, List.getElem_drop, List.getElem_append, List.length_take, List.length_drop,
      List.getElem_replicate]
    by_cases hk : i * b + k < x.length
    · rw [dif_pos hk, dif_pos (by simp [Spec.pad] at h1; omega)]
    · rw [dif_neg hk, dif_neg (by omega)]

/-- One turn of the loop, up to the new state. -/
theorem step_eq (p : Permute) (in_ ptr : List Byte) (n : Nat) (v : Vector M256 8) (counter x4 f0 : M256)
    (hp : ptr = if in_.length < 512 then Spec.pad 512 in_ else in_) (hn : n + in_.length < 2 ^ 64)
    (hc : ∀ i : Fin 4, lane 64 counter i.val = BitVec.ofNat 64 n)
    (hx : ∀ i : Fin 4, lane 64 x4 i.val = BitVec.ofNat 64 (min 128 (in_.length - i.val * 128)))
    (hf : ∀ i : Fin 4, lane 64 f0 i.val = flagWord .b (decide (in_.length ≤ 512 + i.val * 128))) :
    ∃ r, compressV4 p v ptr (mm256_add_epi64 counter x4) f0 = .ok r ∧
      (∀ i : Fin 4, r.map (BAvx2.impl.ln i) =
        laneStep .b i.val (decide (i.val = 3)) (v.map (BAvx2.impl.ln i)) (BitVec.ofNat _ n) in_) ∧
      ∀ i : Fin 4, lane 64 (mm256_add_epi64 counter x4) i.val = BitVec.ofNat 64 (n + min 128 (in_.length - i.val * 128)) := by
  have hl : 512 ≤ ptr.length := by
    rw [hp]
    by_cases h : in_.length < 512
    · rw [if_pos h]; exact pad_length' _ _
    · rw [if_neg h]; omega
  have hct : ∀ i : Fin 4, lane 64 (mm256_add_epi64 counter x4) i.val = BitVec.ofNat 64 (n + min 128 (in_.length - i.val * 128)) := by
    intro i
    have : lane 64 (mm256_add_epi64 counter x4) i.val = lane 64 counter i.val + lane 64 x4 i.val := lane_zipLanes _ _ _ _ (by omega)
    rw [this, hc, hx, ← BitVec.ofNat_add]
  obtain ⟨r, hr, h⟩ := compressV4_eq p v ptr (mm256_add_epi64 counter x4) f0 hl
  refine ⟨r, hr, fun i => ?_, hct⟩
  have hi := i.isLt
  rw [h i, laneStep, portable_compressWords, hct, hf, ← BitVec.ofNat_add]
  have hbb : Alg.bb .b = 128 := rfl
  have hst : stripe .b = 512 := rfl
  have hm : Portable.msgWords .b (ptr.drop (i.val * 128)) = Portable.msgWords .b (Spec.pad 128 ((in_.drop (i.val * 128)).take 128)) := by
    rw [← msgWords_take .b (ptr.drop (i.val * 128)) 128 (by decide)]
    refine congrArg _ ?_
    rw [hp]
    by_cases hlt : in_.length < 512
    · rw [if_pos hlt, pad_drop_take _ _ _ _ (by omega) (by omega)]
    · rw [if_neg hlt]
      have : ((in_.drop (i.val * 128)).take 128).length = 128 := by simp; omega
      simp [Spec.pad, this]
  rw [hbb, hst, hm, countLow_b, countHigh_b _ (by omega)]
  refine congrArg (compressWords .b _ _ _ _ _) ?_
  by_cases h3 : i.val = 3
  · rw [if_pos h3, decide_eq_true h3, Bool.and_true]
  · rw [if_neg h3, decide_eq_false h3, Bool.and_false]; rfl

/-- What the first loop leaves: lanes that have input left are not finished, the others are. -/
structure LoopPost (h : Fin 4 → Vector (BitVec 64) 8) (n : Nat) (in_ : List Byte) (v : Vector M256 8) (counter : M256) (rest : List Byte) : Prop where
  short : rest.length < 512
  done : ∀ i : Fin 4, rest.length ≤ i.val * 128 →
    v.map (BAvx2.impl.ln i) = absorb .b .Parallel true (decide (i.val = 3)) (h i) (BitVec.ofNat _ n) (in_.drop (i.val * 128))
  more : ∀ i : Fin 4, i.val * 128 < rest.length → ∃ k, k + rest.length ≤ n + in_.length ∧ lane 64 counter i.val = BitVec.ofNat 64 k ∧
    absorb .b .Parallel true (decide (i.val = 3)) (v.map (BAvx2.impl.ln i)) (BitVec.ofNat _ k) (rest.drop (i.val * 128)) =
      absorb .b .Parallel true (decide (i.val = 3)) (h i) (BitVec.ofNat _ n) (in_.drop (i.val * 128))

theorem loop_eq (p : Permute) (fuel : Nat) (in_ : List Byte) (n : Nat) (v : Vector M256 8) (counter : M256) (hf : in_.length < fuel)
    (hL : in_.length < 2 ^ 63) (hn : n + in_.length < 2 ^ 64) (hc : ∀ i : Fin 4, lane 64 counter i.val = BitVec.ofNat 64 n) :
    ∃ v' counter' rest, blake2bpLoop p fuel in_ in_.length counter v = .ok (v', counter', rest, rest.length) ∧
      LoopPost (fun i => v.map (BAvx2.impl.ln i)) n in_ v' counter' rest := by
  induction fuel generalizing in_ n v counter with
  | zero => omega
  | succ fuel ih =>
    have hcs := counters in_.length hL
    have hst : stripe .b = 512 := rfl
    have hbb : Alg.bb .b = 128 := rfl
    by_cases h1 : in_.length < 512
    · obtain ⟨r, hr, hlane, hct⟩ := step_eq p in_ (Spec.pad 512 in_) n v counter _ _ (by rw [if_pos h1]) hn hc
        (fun i => (hcs i).1) (fun i => (hcs i).2)
      rw [blake2bpLoop, if_pos h1, copyPadded_eq _ _ _ (Nat.le_refl _) (by omega), List.take_length]
      simp only [bind, Except.bind]
      rw [hr]
      simp only
      rw [if_neg (by omega), ← List.length_drop]
      refine ⟨r, _, in_.drop in_.length, rfl, by simp, fun i _ => ?_, fun i hi => ?_⟩
      · rw [hlane i, laneStep_final _ _ _ _ (by rw [hst, hbb]; omega)]
        rfl
      · simp at hi
    · obtain ⟨r, hr, hlane, hct⟩ := step_eq p in_ in_ n v counter _ _ (by rw [if_neg h1]) hn hc
        (fun i => (hcs i).1) (fun i => (hcs i).2)
      have hct' : ∀ i : Fin 4, lane 64 (mm256_add_epi64 counter _) i.val = BitVec.ofNat 64 (n + 128) := fun i => by
        have := i.isLt
        rw [hct i, Nat.min_eq_left (by omega)]
      have hdl : (in_.drop 512).length = in_.length - 512 := List.length_drop ..
      rw [blake2bpLoop, if_neg h1]
      simp only [bind, Except.bind]
      rw [hr]
      simp only
      by_cases h2 : in_.length - 4 * 128 ≥ 4 * 128
      · rw [if_pos h2]
        obtain ⟨v', counter', rest, hrec, hpost⟩ := ih (in_.drop 512) (n + 128) r _ (by omega) (by omega) (by omega) hct'
        rw [hdl] at hrec
        refine ⟨v', counter', rest, hrec, hpost.short, fun i hi => ?_, fun i hi => ?_⟩
        · rw [hpost.done i hi, hlane i, BitVec.ofNat_add]
          have := i.isLt
          exact (laneStep_more (a := .b) (i := i.val) _ _ _ in_ (by rw [hst, hbb]; omega)).symm
        · obtain ⟨k, hk, hck, hab⟩ := hpost.more i hi
          refine ⟨k, by omega, hck, hab.trans ?_⟩
          rw [hlane i, BitVec.ofNat_add]
          have := i.isLt
          exact (laneStep_more (a := .b) (i := i.val) _ _ _ in_ (by rw [hst, hbb]; omega)).symm
      · rw [if_neg h2]
        refine ⟨r, _, in_.drop 512, by rw [hdl], by omega, fun i hi => ?_, fun i hi => ⟨n + 128, by omega, hct' i, ?_⟩⟩
        · rw [hlane i, laneStep_final _ _ _ _ (by rw [hst, hbb]; omega)]
          rfl
        · rw [hlane i, BitVec.ofNat_add]
          exact (laneStep_more (a := .b) (i := i.val) _ _ _ in_ (by rw [hst, hbb]; omega)).symm

end Blake2.SnevesBp
