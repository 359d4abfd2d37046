import Verif.Proofs.SnevesSp8
/-! # `blake2sp` of the C library: the loops -/
namespace Blake2.SnevesSp
open X86 Sneves
open SnevesBp (pad_drop_take)
open SnevesB (copyPadded_eq pad_length' msgWords_take)

/-- One turn of the loop, up to the new state. -/
theorem step_eq (pm : Permute) (in_ ptr : List Byte) (n : Nat) (v : Vector M256 8) (cl ch x5 f0 : M256)
    (hp : ptr = if in_.length < 512 then Spec.pad 512 in_ else in_)
    (hc : ∀ i : Fin 8, lane 32 cl i.val = BitVec.ofNat 32 n ∧ lane 32 ch i.val = BitVec.ofNat 32 (n / 2 ^ 32))
    (hx : ∀ i : Fin 8, lane 32 x5 i.val = BitVec.ofNat 32 (min 64 (in_.length - i.val * 64)))
    (hf : ∀ i : Fin 8, lane 32 f0 i.val = flagWord .s (decide (in_.length ≤ 512 + i.val * 64))) :
    ∃ r, compressV8 pm v ptr (mm256_add_epi32 cl x5) (mm256_sub_epi32 ch (cmplt (mm256_add_epi32 cl x5) x5)) f0 = .ok r ∧
      (∀ i : Fin 8, r.map (SAvx2.impl.ln i) =
        laneStep .s i.val (decide (i.val = 7)) (v.map (SAvx2.impl.ln i)) (BitVec.ofNat _ n) in_) ∧
      ∀ i : Fin 8, lane 32 (mm256_add_epi32 cl x5) i.val = BitVec.ofNat 32 (n + min 64 (in_.length - i.val * 64)) ∧
        lane 32 (mm256_sub_epi32 ch (cmplt (mm256_add_epi32 cl x5) x5)) i.val =
          BitVec.ofNat 32 ((n + min 64 (in_.length - i.val * 64)) / 2 ^ 32) := by
  have hl : 512 ≤ ptr.length := by
    rw [hp]
    by_cases h : in_.length < 512
    · rw [if_pos h]; exact pad_length' _ _
    · rw [if_neg h]; omega
  have hct := fun i : Fin 8 => counter_add n (min 64 (in_.length - i.val * 64)) (by omega) cl ch x5 i (hc i).1 (hc i).2 (hx i)
  obtain ⟨r, hr, h⟩ := compressV8_eq pm v ptr (mm256_add_epi32 cl x5) (mm256_sub_epi32 ch (cmplt (mm256_add_epi32 cl x5) x5)) f0 hl
  refine ⟨r, hr, fun i => ?_, hct⟩
  have hi := i.isLt
  rw [h i, laneStep, portable_compressWords, (hct i).1, (hct i).2, hf, ← BitVec.ofNat_add]
  have hbb : Alg.bb .s = 64 := rfl
  have hst : stripe .s = 512 := rfl
  have hm : Portable.msgWords .s (ptr.drop (i.val * 64)) = Portable.msgWords .s (Spec.pad 64 ((in_.drop (i.val * 64)).take 64)) := by
    rw [← msgWords_take .s (ptr.drop (i.val * 64)) 64 (by decide)]
    refine congrArg _ ?_
    rw [hp]
    by_cases hlt : in_.length < 512
    · rw [if_pos hlt, pad_drop_take _ _ _ _ (by omega) (by omega)]
    · rw [if_neg hlt]
      have : ((in_.drop (i.val * 64)).take 64).length = 64 := by simp; omega
      simp [Spec.pad, this]
  rw [hbb, hst, hm, countLow_s, countHigh_s]
  refine congrArg (compressWords .s _ _ _ _ _) ?_
  by_cases h3 : i.val = 7
  · rw [if_pos h3, decide_eq_true h3, Bool.and_true]
  · rw [if_neg h3, decide_eq_false h3, Bool.and_false]; rfl

/-- What the first loop leaves: lanes that have input left are not finished, the others are. -/
structure LoopPost (h : Fin 8 → Vector (BitVec 32) 8) (n : Nat) (in_ : List Byte) (v : Vector M256 8) (cl ch : M256) (rest : List Byte) : Prop where
  short : rest.length < 512
  done : ∀ i : Fin 8, rest.length ≤ i.val * 64 →
    v.map (SAvx2.impl.ln i) = absorb .s .Parallel true (decide (i.val = 7)) (h i) (BitVec.ofNat _ n) (in_.drop (i.val * 64))
  more : ∀ i : Fin 8, i.val * 64 < rest.length → ∃ k, (lane 32 cl i.val = BitVec.ofNat 32 k ∧ lane 32 ch i.val = BitVec.ofNat 32 (k / 2 ^ 32)) ∧
    absorb .s .Parallel true (decide (i.val = 7)) (v.map (SAvx2.impl.ln i)) (BitVec.ofNat _ k) (rest.drop (i.val * 64)) =
      absorb .s .Parallel true (decide (i.val = 7)) (h i) (BitVec.ofNat _ n) (in_.drop (i.val * 64))

theorem loop_eq (pm : Permute) (fuel : Nat) (in_ : List Byte) (n : Nat) (v : Vector M256 8) (cl ch : M256) (hf : in_.length < fuel)
    (hL : in_.length < 2 ^ 64)
    (hc : ∀ i : Fin 8, lane 32 cl i.val = BitVec.ofNat 32 n ∧ lane 32 ch i.val = BitVec.ofNat 32 (n / 2 ^ 32)) :
    ∃ v' cl' ch' rest, blake2spLoop pm fuel in_ in_.length cl ch v = .ok (v', cl', ch', rest, rest.length) ∧
      LoopPost (fun i => v.map (SAvx2.impl.ln i)) n in_ v' cl' ch' rest := by
  induction fuel generalizing in_ n v cl ch with
  | zero => omega
  | succ fuel ih =>
    have hcs := increments in_.length hL
    have hst : stripe .s = 512 := rfl
    have hbb : Alg.bb .s = 64 := rfl
    by_cases h1 : in_.length < 512
    · obtain ⟨r, hr, hlane, hct⟩ := step_eq pm in_ (Spec.pad 512 in_) n v cl ch _ _ (by rw [if_pos h1]) hc
        (fun i => (hcs i).1) (fun i => (hcs i).2)
      rw [blake2spLoop, if_pos h1, copyPadded_eq _ _ _ (Nat.le_refl _) (by omega), List.take_length]
      simp only [bind, Except.bind]
      rw [hr]
      simp only
      rw [if_neg (by omega), ← List.length_drop]
      refine ⟨r, _, _, in_.drop in_.length, rfl, by simp, fun i _ => ?_, fun i hi => ?_⟩
      · rw [hlane i, laneStep_final _ _ _ _ (by rw [hst, hbb]; omega)]
        rfl
      · simp at hi
    · obtain ⟨r, hr, hlane, hct⟩ := step_eq pm in_ in_ n v cl ch _ _ (by rw [if_neg h1]) hc
        (fun i => (hcs i).1) (fun i => (hcs i).2)
      have hmin : ∀ i : Fin 8, min 64 (in_.length - i.val * 64) = 64 := fun i => by
        have := i.isLt
        omega
      have hct' := fun i : Fin 8 => hmin i ▸ hct i
      have hdl : (in_.drop 512).length = in_.length - 512 := List.length_drop ..
      rw [blake2spLoop, if_neg h1]
      simp only [bind, Except.bind]
      rw [hr]
      simp only
      by_cases h2 : in_.length - 8 * 64 ≥ 8 * 64
      · rw [if_pos h2]
        obtain ⟨v', cl', ch', rest, hrec, hpost⟩ := ih (in_.drop 512) (n + 64) r _ _ (by omega) (by omega) hct'
        rw [hdl] at hrec
        refine ⟨v', cl', ch', rest, hrec, hpost.short, fun i hi => ?_, fun i hi => ?_⟩
        · rw [hpost.done i hi, hlane i, BitVec.ofNat_add]
          have := i.isLt
          exact (laneStep_more (a := .s) (i := i.val) _ _ _ in_ (by rw [hst, hbb]; omega)).symm
        · obtain ⟨k, hck, hab⟩ := hpost.more i hi
          refine ⟨k, hck, hab.trans ?_⟩
          rw [hlane i, BitVec.ofNat_add]
          have := i.isLt
          exact (laneStep_more (a := .s) (i := i.val) _ _ _ in_ (by rw [hst, hbb]; omega)).symm
      · rw [if_neg h2]
        refine ⟨r, _, _, in_.drop 512, by rw [hdl], by omega, fun i hi => ?_, fun i hi => ⟨n + 64, hct' i, ?_⟩⟩
        · rw [hlane i, laneStep_final _ _ _ _ (by rw [hst, hbb]; omega)]
          rfl
        · rw [hlane i, BitVec.ofNat_add]
          exact (laneStep_more (a := .s) (i := i.val) _ _ _ in_ (by rw [hst, hbb]; omega)).symm


theorem tail_carry (n x : Nat) (hx : x ≤ 64) :
    BitVec.ofNat 32 (n / 2 ^ 32) + (if (BitVec.ofNat 32 n + BitVec.ofNat 32 x).toNat < x then 1 else 0) =
      BitVec.ofNat 32 ((n + x) / 2 ^ 32) := by
  rw [← BitVec.ofNat_add, BitVec.toNat_ofNat]
  have e : (n + x) % 2 ^ 32 < x ↔ (n + x) / 2 ^ 32 = n / 2 ^ 32 + 1 := by omega
  have e' : ¬ (n + x) % 2 ^ 32 < x ↔ (n + x) / 2 ^ 32 = n / 2 ^ 32 := by omega
  by_cases h : (n + x) % 2 ^ 32 < x
  · rw [if_pos h, e.1 h, BitVec.ofNat_add]; rfl
  · rw [if_neg h, e'.1 h]; exact BitVec.add_zero _

/-- The second loop, from lane `l` on: the lanes with input left are finished. -/
theorem tail_eq (pm : Permute) (rest : List Byte) (cl ch : M256) (h : Fin 8 → Vector (BitVec 32) 8) (k : Fin 8 → Nat) (hr : rest.length < 512)
    (hk : ∀ i : Fin 8, i.val * 64 < rest.length → lane 32 cl i.val = BitVec.ofNat 32 (k i) ∧ lane 32 ch i.val = BitVec.ofNat 32 (k i / 2 ^ 32))
    (m l : Nat) (hl : m + l = 8) (s : Vector (M128 × M128) 8) (hs : ∀ i : Fin 8, l ≤ i.val → s[i] = regs (h i)) :
    ∃ s', blake2spTail pm cl ch ((List.finRange 8).drop l) (rest.drop (l * 64)) (rest.drop (l * 64)).length s = .ok s' ∧
      ∀ i : Fin 8, s'[i] = if l ≤ i.val ∧ i.val * 64 < rest.length then
        regs (absorb .s .Parallel true (decide (i.val = 7)) (h i) (BitVec.ofNat _ (k i)) (rest.drop (i.val * 64))) else s[i] := by
  induction m generalizing l s with
  | zero =>
    obtain rfl : l = 8 := by omega
    refine ⟨s, rfl, fun i => ?_⟩
    rw [if_neg (by omega)]
  | succ m ih =>
    have hl4 : l < 8 := by omega
    have hcons : (List.finRange 8).drop l = ⟨l, hl4⟩ :: (List.finRange 8).drop (l + 1) := by
      rw [List.drop_eq_getElem_cons (by simpa using hl4)]; simp
    have hlen : (rest.drop (l * 64)).length = rest.length - l * 64 := List.length_drop ..
    rw [hcons, blake2spTail]
    by_cases h0 : (rest.drop (l * 64)).length = 0
    · rw [if_pos h0]
      refine ⟨s, rfl, fun i => ?_⟩
      rw [if_neg (by omega)]
    · rw [if_neg h0]
      obtain ⟨hk1, hk2⟩ := hk ⟨l, hl4⟩ (by show l * 64 < _; omega)
      simp only at hk1 hk2
      have hsl := hs ⟨l, hl4⟩ (Nat.le_refl _)
      have habs : ∀ (p : List Byte), p.take 64 = Spec.pad 64 ((rest.drop (l * 64)).take 64) → 64 ≤ p.length →
          compressV1 pm s[(⟨l, hl4⟩ : Fin 8)].1 s[(⟨l, hl4⟩ : Fin 8)].2 p
            (lane 32 cl l + BitVec.ofNat 32 (min 64 (rest.drop (l * 64)).length))
            (lane 32 ch l + (if (lane 32 cl l + BitVec.ofNat 32 (min 64 (rest.drop (l * 64)).length)).toNat <
              min 64 (rest.drop (l * 64)).length then 1 else 0)) (BitVec.allOnes 32)
            (if l = 7 then BitVec.allOnes 32 else 0) =
          .ok (regs (absorb .s .Parallel true (decide (l = 7)) (h ⟨l, hl4⟩) (BitVec.ofNat _ (k ⟨l, hl4⟩)) (rest.drop (l * 64)))) := by
        intro p hp hp'
        have hf : (if l = 7 then BitVec.allOnes 32 else 0) = flagWord .s (decide (l = 7)) := by
          by_cases h3 : l = 7
          · rw [if_pos h3, decide_eq_true h3]; rfl
          · rw [if_neg h3, decide_eq_false h3]; rfl
        rw [hf, hsl, hk1, hk2, tail_carry _ _ (Nat.min_le_left _ _), ← BitVec.ofNat_add, compressV1_count _ _ _ _ _ _ hp', ← compressBlock_take, hp, absorb]
        have hpd : Stride.Parallel.padded .s = 512 := rfl
        have hbb : Alg.bb .s = 64 := rfl
        rw [hpd, hbb, if_pos (by omega), ← BitVec.ofNat_add, Bool.true_and]
        rfl
      have hfin : ∀ (bs : Nat), bs = min 64 (rest.drop (l * 64)).length → ∃ s',
          blake2spTail pm cl ch ((List.finRange 8).drop (l + 1)) ((rest.drop (l * 64)).drop bs) ((rest.drop (l * 64)).length - bs)
            (s.set l (regs (absorb .s .Parallel true (decide (l = 7)) (h ⟨l, hl4⟩) (BitVec.ofNat _ (k ⟨l, hl4⟩)) (rest.drop (l * 64))))) = .ok s' ∧
          ∀ i : Fin 8, s'[i] = if l ≤ i.val ∧ i.val * 64 < rest.length then
            regs (absorb .s .Parallel true (decide (i.val = 7)) (h i) (BitVec.ofNat _ (k i)) (rest.drop (i.val * 64))) else s[i] := by
        intro bs hbs
        have hd : (rest.drop (l * 64)).drop bs = rest.drop ((l + 1) * 64) := by
          rw [List.drop_drop]
          by_cases hlt : rest.length - l * 64 < 64
          · rw [List.drop_eq_nil_of_le (by omega), List.drop_eq_nil_of_le (by omega)]
          · congr 1; omega
        rw [← List.length_drop, hd]
        generalize hX : regs (absorb .s .Parallel true (decide (l = 7)) (h ⟨l, hl4⟩) (BitVec.ofNat _ (k ⟨l, hl4⟩)) (rest.drop (l * 64))) = X
        have hX' : ∀ i : Fin 8, l + 1 ≤ i.val → (s.set l X)[i] = regs (h i) := by
          intro i hi
          show (s.set l X)[i.val] = _
          rw [Vector.getElem_set_ne _ _ (by omega)]
          exact hs i (by omega)
        obtain ⟨s', h1, h2⟩ := ih (l + 1) (by omega) (s.set l X) hX'
        · refine ⟨s', h1, fun i => ?_⟩
          rw [h2 i]
          by_cases hil : i.val = l
          · have hi' : i = ⟨l, hl4⟩ := Fin.ext hil
            subst hi'
            rw [if_neg (fun h => absurd h.1 (Nat.not_succ_le_self l)), if_pos ⟨Nat.le_refl _, by show l * 64 < _; omega⟩]
            show (s.set l X)[l] = _
            rw [Vector.getElem_set_self, ← hX]
          · have hset : ∀ x, (s.set l x)[i] = s[i] := by
              intro x
              show (s.set l x)[i.val] = s[i.val]
              rw [Vector.getElem_set_ne _ _ (fun h => hil h.symm)]
            rw [hset]
            by_cases hc : l + 1 ≤ i.val ∧ i.val * 64 < rest.length
            · rw [if_pos hc, if_pos ⟨by omega, hc.2⟩]
            · rw [if_neg hc, if_neg (by omega)]
      by_cases h1 : (rest.drop (l * 64)).length < 64
      · rw [if_pos h1, copyPadded_eq _ _ _ (Nat.le_refl _) (by omega), List.take_length]
        simp only [bind, Except.bind]
        have hp := habs (Spec.pad 64 (rest.drop (l * 64))) ?_ (pad_length' _ _)
        · rw [Nat.min_eq_right (by omega)] at hp
          rw [hp]
          exact hfin _ (Nat.min_eq_right (by omega)).symm
        · have := pad_drop_take (rest.drop (l * 64)) 64 0 64 (by omega) (by omega)
          simpa using this
      · rw [if_neg h1]
        simp only [bind, Except.bind]
        have hp := habs (rest.drop (l * 64)) ?_ (by omega)
        · rw [Nat.min_eq_left (by omega)] at hp
          rw [hp]
          exact hfin _ (Nat.min_eq_left (by omega)).symm
        · have : ((rest.drop (l * 64)).take 64).length = 64 := by rw [List.length_take]; omega
          simp only [Spec.pad, this, Nat.sub_self, List.replicate_zero, List.append_nil]

/-- One block of the root, and the turns after it. -/
theorem rootLoop_step (pm : Permute) (j : Nat) (is : List Nat) (in_ : List Byte) (h : Vector (BitVec 32) 8) (hi : 64 ≤ in_.length) :
    blake2sRootLoop pm (j :: is) in_ (regs h).1 (regs h).2 =
      (let h' := Portable.compressBlock .s in_ h (BitVec.ofNat _ (64 * (j + 1))) (if j = 3 then BitVec.allOnes 32 else 0)
        (if j = 3 then BitVec.allOnes 32 else 0)
       blake2sRootLoop pm is (in_.drop 64) (regs h').1 (regs h').2) := by
  have e1 : ((BitVec.ofNat 64 (64 * (j + 1)) &&& 0xFFFFFFFF).setWidth 32 : BitVec 32) = BitVec.ofNat 32 (64 * (j + 1)) := by
    apply BitVec.eq_of_toNat_eq
    rw [BitVec.toNat_setWidth, BitVec.toNat_and, BitVec.toNat_ofNat, BitVec.toNat_ofNat]
    have : (0xFFFFFFFF : BitVec 64).toNat = 2 ^ 32 - 1 := rfl
    rw [this, Nat.and_two_pow_sub_one_eq_mod]
    omega
  have e2 : ((BitVec.ofNat 64 (64 * (j + 1)) >>> 32).setWidth 32 : BitVec 32) = BitVec.ofNat 32 (64 * (j + 1) / 2 ^ 32) := by
    apply BitVec.eq_of_toNat_eq
    rw [BitVec.toNat_setWidth, BitVec.toNat_ushiftRight, BitVec.toNat_ofNat, BitVec.toNat_ofNat, Nat.shiftRight_eq_div_pow]
    omega
  rw [blake2sRootLoop, e1, e2, compressV1_count _ _ _ _ _ _ hi]
  rfl

/-- The root of the tree: four blocks. -/
theorem root_eq (pm : Permute) (out in_ : List Byte) (ho : out.length = 32) (hi : in_.length = 256) :
    blake2sRoot pm out in_ = .ok (Spec.wordsToBytes .s (Spec.process .s (Spec.initH .s (Spec.rootConfig .s 32 [])) in_ true)) := by
  unfold blake2sRoot
  have h1 := congrArg Prod.fst root_regs
  have h2 := congrArg Prod.snd root_regs
  simp only at h1 h2
  simp only [h1, h2]
  rw [rootLoop_step _ _ _ _ _ (by omega)]
  simp only
  rw [rootLoop_step _ _ _ _ _ (by rw [List.length_drop]; omega)]
  simp only
  rw [rootLoop_step _ _ _ _ _ (by rw [List.length_drop, List.length_drop]; omega)]
  simp only
  rw [rootLoop_step _ _ _ _ _ (by rw [List.length_drop, List.length_drop, List.length_drop]; omega)]
  simp only
  rw [blake2sRootLoop]
  simp only [bind, Except.bind]
  have hs := fun h => store_regs out h ho
  simp only [bind, Except.bind] at hs
  rw [hs]
  refine congrArg (fun x => Except.ok (Spec.wordsToBytes .s x)) ?_
  have hp : Stride.Serial.padded .s = 64 := rfl
  have hbb : Alg.bb .s = 64 := rfl
  have hd3 : (((in_.drop 64).drop 64).drop 64).length = 64 := by rw [List.length_drop, List.length_drop, List.length_drop]; omega
  have ht : (((in_.drop 64).drop 64).drop 64).take 64 = ((in_.drop 64).drop 64).drop 64 := List.take_of_length_le (by omega)
  have hpd : Spec.pad 64 (((in_.drop 64).drop 64).drop 64) = ((in_.drop 64).drop 64).drop 64 := by simp only [Spec.pad, hd3]; simp
  rw [process_absorb]
  generalize Spec.initH .s (Spec.rootConfig .s 32 []) = h0
  refine Eq.symm ?_
  rw [absorb, hp, hbb, if_neg (by omega), absorb, hp, hbb, if_neg (by rw [List.length_drop]; omega),
    absorb, hp, hbb, if_neg (by rw [List.length_drop, List.length_drop]; omega),
    absorb, hp, hbb, if_pos (by omega), ht, hpd, hd3]
  rw [← compressBlock_take in_, ← compressBlock_take (in_.drop 64), ← compressBlock_take ((in_.drop 64).drop 64)]
  rfl

/-- The state of the leaves at the start. -/
def initV : Vector M256 8 :=
  let v := blake2s_IV.map mm256_set1_epi32
  let v := v.set 0 (xor v[0] (mm256_set1_epi32 0x02080020))
  let v := v.set 2 (xor v[2] (mm256_set_epi32 7 6 5 4 3 2 1 0))
  v.set 3 (xor v[3] (mm256_set1_epi32 0x20000000))

theorem init_lanes : ∀ i : Fin 8, initV.map (SAvx2.impl.ln i) = Spec.initH .s (Spec.leafConfig .s 32 [] i.val) := by
  decide +kernel

/-- `blake2sp` of the C library is BLAKE2sp. -/
theorem blake2sp_eq (pm : Permute) (out input : List Byte) (ho : out.length = 32) (hi : input.length < 2 ^ 64) :
    blake2sp pm out input input.length = .ok (Spec.hashP .s 32 [] input) := by
  have hinit := init_lanes
  unfold blake2sp
  show (do
    let (v, counterl, counterh, in_, inlen) ← blake2spLoop pm (input.length + 1) input input.length 0 0 initV
    let t := unpackStateV8 v
    let s ← blake2spTail pm counterl counterh [0, 1, 2, 3, 4, 5, 6, 7] in_ inlen (t.map fun x => (lane 128 x 0, lane 128 x 1))
    blake2sRoot pm out (s.toList.flatMap fun p : M128 × M128 => leBytes 16 p.1.toNat ++ leBytes 16 p.2.toNat)) = _
  generalize initV = v at hinit
  obtain ⟨v', cl, ch, rest, hloop, hpost⟩ := loop_eq pm (input.length + 1) input 0 v 0 0 (by omega) hi
    (fun i => ⟨lane_zero i, lane_zero i⟩)
  rw [hloop]
  simp only [bind, Except.bind]
  have hu := unpack_eq v'
  have hk : ∀ i : Fin 8, ∃ k, i.val * 64 < rest.length → (lane 32 cl i.val = BitVec.ofNat 32 k ∧ lane 32 ch i.val = BitVec.ofNat 32 (k / 2 ^ 32)) ∧
      absorb .s .Parallel true (decide (i.val = 7)) (v'.map (SAvx2.impl.ln i)) (BitVec.ofNat _ k) (rest.drop (i.val * 64)) =
        absorb .s .Parallel true (decide (i.val = 7)) (v.map (SAvx2.impl.ln i)) (BitVec.ofNat _ 0) (input.drop (i.val * 64)) := by
    intro i
    by_cases h : i.val * 64 < rest.length
    · obtain ⟨k, h2, h3⟩ := hpost.more i h
      exact ⟨k, fun _ => ⟨h2, h3⟩⟩
    · exact ⟨0, fun h' => absurd h' h⟩
  obtain ⟨k, hk⟩ := Classical.axiomOfChoice hk
  obtain ⟨s', hs1, hs2⟩ := tail_eq pm rest cl ch (fun i => v'.map (SAvx2.impl.ln i)) k hpost.short
    (fun i h => (hk i h).1) 8 0 rfl _ (fun i _ => hu i)
  have hfr : (List.finRange 8).drop 0 = [0, 1, 2, 3, 4, 5, 6, 7] := by decide
  rw [hfr, Nat.zero_mul, List.drop_zero] at hs1
  rw [hs1]
  simp only
  have hs : s' = Vector.ofFn fun i : Fin 8 => regs (absorb .s .Parallel true (decide (i.val = 8 - 1))
      (Spec.initH .s (Spec.leafConfig .s 32 [] i.val)) 0 (input.drop (i.val * 64))) := by
    refine Vector.ext fun j hj => ?_
    rw [Vector.getElem_ofFn]
    have := hs2 ⟨j, hj⟩
    simp only [Nat.zero_le, true_and] at this
    refine Eq.trans this ?_
    have hin := hinit ⟨j, hj⟩
    simp only at hin
    by_cases h : j * 64 < rest.length
    · rw [if_pos h, (hk ⟨j, hj⟩ h).2, hin]
      rfl
    · rw [if_neg h]
      refine (hu ⟨j, hj⟩).trans ?_
      rw [hpost.done ⟨j, hj⟩ (by show _ ≤ j * 64; omega)]
      simp only
      rw [hin]
      rfl
  have hb : (s'.toList.flatMap fun p : M128 × M128 => leBytes 16 p.1.toNat ++ leBytes 16 p.2.toNat) =
      (Vector.ofFn fun i : Fin (parDegree .s) => absorb .s .Parallel true (decide (i.val = parDegree .s - 1))
        (Spec.initH .s (Spec.leafConfig .s 32 [] i)) 0 (input.drop (i.val * Alg.bb .s))).toList.flatMap (Spec.wordsToBytes .s) := by
    rw [hs, Vector.toList_ofFn, Vector.toList_ofFn, ofFn_eq_map_finRange, ofFn_eq_map_finRange, List.flatMap_map, List.flatMap_map]
    refine congrArg (fun f => List.flatMap f (List.finRange 8)) (funext fun i => ?_)
    exact regs_bytes _
  rw [hb, root_eq _ _ _ ho, treeFull_leaves, ← treeFull_take, List.take_of_length_le]
  · rw [treeFull_length]; decide
  · rw [List.length_flatMap]
    simp only [wordsToBytes_length]
    rw [List.map_const', List.sum_replicate_nat, Vector.length_toList]
    decide

end Blake2.SnevesSp
