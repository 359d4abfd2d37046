import Verif.Proofs.SnevesTree
/-! # `blake2bp` of the C library -/
namespace Blake2.SnevesBp
open X86 SnevesB Sneves

/-- The second loop, from lane `l` on: the lanes with input left are finished. -/
theorem tail_eq (pm : Permute) (rest : List Byte) (counter : M256) (h : Fin 4 → Vector (BitVec 64) 8) (k : Fin 4 → Nat) (hr : rest.length < 512)
    (hk : ∀ i : Fin 4, i.val * 128 < rest.length → k i + rest.length < 2 ^ 64 ∧ lane 64 counter i.val = BitVec.ofNat 64 (k i))
    (m l : Nat) (hl : m + l = 4) (s : Vector (M256 × M256) 4) (hs : ∀ i : Fin 4, l ≤ i.val → s[i] = regs (h i)) :
    ∃ s', blake2bpTail pm counter ((List.finRange 4).drop l) (rest.drop (l * 128)) (rest.drop (l * 128)).length s = .ok s' ∧
      ∀ i : Fin 4, s'[i] = if l ≤ i.val ∧ i.val * 128 < rest.length then
        regs (absorb .b .Parallel true (decide (i.val = 3)) (h i) (BitVec.ofNat _ (k i)) (rest.drop (i.val * 128))) else s[i] := by
  induction m generalizing l s with
  | zero =>
    obtain rfl : l = 4 := by omega
    refine ⟨s, rfl, fun i => ?_⟩
    rw [if_neg (by omega)]
  | succ m ih =>
    have hl4 : l < 4 := by omega
    have hcons : (List.finRange 4).drop l = ⟨l, hl4⟩ :: (List.finRange 4).drop (l + 1) := by
      rw [List.drop_eq_getElem_cons (by simpa using hl4)]; simp
    have hlen : (rest.drop (l * 128)).length = rest.length - l * 128 := List.length_drop ..
    rw [hcons, blake2bpTail]
    by_cases h0 : (rest.drop (l * 128)).length = 0
    · rw [if_pos h0]
      refine ⟨s, rfl, fun i => ?_⟩
      rw [if_neg (by omega)]
    · rw [if_neg h0]
      obtain ⟨hk1, hk2⟩ := hk ⟨l, hl4⟩ (by show l * 128 < _; omega)
      simp only at hk1 hk2
      have hsl := hs ⟨l, hl4⟩ (Nat.le_refl _)
      have habs : ∀ (p : List Byte), p.take 128 = Spec.pad 128 ((rest.drop (l * 128)).take 128) → 128 ≤ p.length →
          compressV1 pm s[(⟨l, hl4⟩ : Fin 4)].1 s[(⟨l, hl4⟩ : Fin 4)].2 p
            (lane 64 counter l + BitVec.ofNat 64 (min 128 (rest.drop (l * 128)).length)) 0 (BitVec.allOnes 64)
            (if l = 3 then BitVec.allOnes 64 else 0) =
          .ok (regs (absorb .b .Parallel true (decide (l = 3)) (h ⟨l, hl4⟩) (BitVec.ofNat _ (k ⟨l, hl4⟩)) (rest.drop (l * 128)))) := by
        intro p hp hp'
        have hf : (if l = 3 then BitVec.allOnes 64 else 0) = flagWord .b (decide (l = 3)) := by
          by_cases h3 : l = 3
          · rw [if_pos h3, decide_eq_true h3]; rfl
          · rw [if_neg h3, decide_eq_false h3]; rfl
        rw [hf, hsl, hk2, ← BitVec.ofNat_add, compressV1_count _ _ _ _ _ _ hp' (by omega), ← compressBlock_take, hp, absorb]
        have hpd : Stride.Parallel.padded .b = 512 := rfl
        have hbb : Alg.bb .b = 128 := rfl
        rw [hpd, hbb, if_pos (by omega), ← BitVec.ofNat_add, Bool.true_and]
        rfl
      have hfin : ∀ (bs : Nat), bs = min 128 (rest.drop (l * 128)).length → ∃ s',
          blake2bpTail pm counter ((List.finRange 4).drop (l + 1)) ((rest.drop (l * 128)).drop bs) ((rest.drop (l * 128)).length - bs)
            (s.set l (regs (absorb .b .Parallel true (decide (l = 3)) (h ⟨l, hl4⟩) (BitVec.ofNat _ (k ⟨l, hl4⟩)) (rest.drop (l * 128))))) = .ok s' ∧
          ∀ i : Fin 4, s'[i] = if l ≤ i.val ∧ i.val * 128 < rest.length then
            regs (absorb .b .Parallel true (decide (i.val = 3)) (h i) (BitVec.ofNat _ (k i)) (rest.drop (i.val * 128))) else s[i] := by
        intro bs hbs
        have hd : (rest.drop (l * 128)).drop bs = rest.drop ((l + 1) * 128) := by
          rw [List.drop_drop]
          by_cases hlt : rest.length - l * 128 < 128
          · rw [List.drop_eq_nil_of_le (by omega), List.drop_eq_nil_of_le (by omega)]
          · congr 1; omega
        rw [← List.length_drop, hd]
        generalize hX : regs (absorb .b .Parallel true (decide (l = 3)) (h ⟨l, hl4⟩) (BitVec.ofNat _ (k ⟨l, hl4⟩)) (rest.drop (l * 128))) = X
        have hX' : ∀ i : Fin 4, l + 1 ≤ i.val → (s.set l X)[i] = regs (h i) := by
          intro i hi
          show (s.set l X)[i.val] = _
          rw [Vector.getElem_set_ne _ _ (by omega)]
          exact hs i (by omega)
        obtain ⟨s', h1, h2⟩ := ih (l + 1) (by omega) (s.set l X) hX'
        · refine ⟨s', h1, fun i => ?_⟩
          rw [h2 i]
          by_cases hil : i.val = l
          · have hi' : i = ⟨l, hl4⟩ := Fin.ext hil
            subst hi'
            rw [if_neg (fun h => absurd h.1 (Nat.not_succ_le_self l)), if_pos ⟨Nat.le_refl _, by show l * 128 < _; omega⟩]
            show (s.set l X)[l] = _
            rw [Vector.getElem_set_self, ← hX]
          · have hset : ∀ x, (s.set l x)[i] = s[i] := by
              intro x
              show (s.set l x)[i.val] = s[i.val]
              rw [Vector.getElem_set_ne _ _ (fun h => hil h.symm)]
            rw [hset]
            by_cases hc : l + 1 ≤ i.val ∧ i.val * 128 < rest.length
            · rw [if_pos hc, if_pos ⟨by omega, hc.2⟩]
            · rw [if_neg hc, if_neg (by omega)]
      by_cases h1 : (rest.drop (l * 128)).length < 128
      · rw [if_pos h1, copyPadded_eq _ _ _ (Nat.le_refl _) (by omega), List.take_length]
        simp only [bind, Except.bind]
        have hp := habs (Spec.pad 128 (rest.drop (l * 128))) ?_ (pad_length' _ _)
        · rw [Nat.min_eq_right (by omega)] at hp
          rw [hp]
          exact hfin _ (Nat.min_eq_right (by omega)).symm
        · have := pad_drop_take (rest.drop (l * 128)) 128 0 128 (by omega) (by omega)
          simpa using this
      · rw [if_neg h1]
        simp only [bind, Except.bind]
        have hp := habs (rest.drop (l * 128)) ?_ (by omega)
        · rw [Nat.min_eq_left (by omega)] at hp
          rw [hp]
          exact hfin _ (Nat.min_eq_left (by omega)).symm
        · have : ((rest.drop (l * 128)).take 128).length = 128 := by rw [List.length_take]; omega
          simp only [Spec.pad, this, Nat.sub_self, List.replicate_zero, List.append_nil]

theorem root_regs : (xor loadIV0 (mm256_set_epi64x 0 0x00004001 0 0x02040040), loadIV4) =
    regs (Spec.initH .b (Spec.rootConfig .b 64 [])) := by
  decide +kernel

/-- The root of the tree: two blocks. -/
theorem root_eq (pm : Permute) (out in_ : List Byte) (ho : out.length = 64) (hi : in_.length = 256) :
    blake2bRoot pm out in_ = .ok (Spec.wordsToBytes .b (Spec.process .b (Spec.initH .b (Spec.rootConfig .b 64 [])) in_ true)) := by
  unfold blake2bRoot
  have h1 := congrArg Prod.fst root_regs
  have h2 := congrArg Prod.snd root_regs
  simp only at h1 h2
  simp only [h1, h2]
  have c1 : (128 : BitVec 64) = BitVec.ofNat 64 128 := rfl
  have c2 : (256 : BitVec 64) = BitVec.ofNat 64 256 := rfl
  rw [c1, c2, compressV1_count _ _ _ _ _ _ (by rw [List.length_drop]; omega) (by decide)]
  simp only [bind, Except.bind]
  rw [compressV1_count _ _ _ _ _ _ (by rw [List.length_drop]; omega) (by decide)]
  simp only
  have hs := store_regs out (Portable.compressBlock .b (in_.drop 128)
    (Portable.compressBlock .b (in_.drop 0) (Spec.initH .b (Spec.rootConfig .b 64 [])) (BitVec.ofNat _ 128) 0 0)
    (BitVec.ofNat _ 256) (BitVec.allOnes 64) (BitVec.allOnes 64)) ho
  simp only [bind, Except.bind] at hs
  rw [hs]
  refine congrArg (fun x => Except.ok (Spec.wordsToBytes .b x)) ?_
  have hp : Stride.Serial.padded .b = 128 := rfl
  have hbb : Alg.bb .b = 128 := rfl
  have hd : (in_.drop 128).length = 128 := by rw [List.length_drop]; omega
  have ht : (in_.drop 128).take 128 = in_.drop 128 := List.take_of_length_le (by omega)
  have hpd : Spec.pad 128 (in_.drop 128) = in_.drop 128 := by simp [Spec.pad, hd]
  rw [process_absorb, absorb, hp, hbb, if_neg (by omega), absorb, hp, hbb, if_pos (by omega), ht, hpd, hd, compressBlock_take,
    List.drop_zero]
  rfl

theorem init_lanes : ∀ i : Fin 4, (((blake2b_IV.map mm256_set1_epi64x).set 0 (xor (blake2b_IV.map mm256_set1_epi64x)[0]
    (mm256_set1_epi64x 0x02040040))).set 1 (xor ((blake2b_IV.map mm256_set1_epi64x).set 0 (xor (blake2b_IV.map mm256_set1_epi64x)[0]
    (mm256_set1_epi64x 0x02040040)))[1] (mm256_set_epi64x 3 2 1 0)) |>.set 2 (xor (((blake2b_IV.map mm256_set1_epi64x).set 0
    (xor (blake2b_IV.map mm256_set1_epi64x)[0] (mm256_set1_epi64x 0x02040040))).set 1 (xor ((blake2b_IV.map mm256_set1_epi64x).set 0
    (xor (blake2b_IV.map mm256_set1_epi64x)[0] (mm256_set1_epi64x 0x02040040)))[1] (mm256_set_epi64x 3 2 1 0)))[2]
    (mm256_set1_epi64x 0x00004000))).map (BAvx2.impl.ln i) = Spec.initH .b (Spec.leafConfig .b 64 [] i.val) := by
  decide +kernel

/-- `blake2bp` of the C library is BLAKE2bp. -/
theorem blake2bp_eq (pm : Permute) (out input : List Byte) (ho : out.length = 64) (hi : input.length < 2 ^ 63) :
    blake2bp pm out input input.length = .ok (Spec.hashP .b 64 [] input) := by
  have hinit := init_lanes
  unfold blake2bp
  generalize hv : (((blake2b_IV.map mm256_set1_epi64x).set 0 (xor (blake2b_IV.map mm256_set1_epi64x)[0]
    (mm256_set1_epi64x 0x02040040))).set 1 (xor ((blake2b_IV.map mm256_set1_epi64x).set 0 (xor (blake2b_IV.map mm256_set1_epi64x)[0]
    (mm256_set1_epi64x 0x02040040)))[1] (mm256_set_epi64x 3 2 1 0)) |>.set 2 (xor (((blake2b_IV.map mm256_set1_epi64x).set 0
    (xor (blake2b_IV.map mm256_set1_epi64x)[0] (mm256_set1_epi64x 0x02040040))).set 1 (xor ((blake2b_IV.map mm256_set1_epi64x).set 0
    (xor (blake2b_IV.map mm256_set1_epi64x)[0] (mm256_set1_epi64x 0x02040040)))[1] (mm256_set_epi64x 3 2 1 0)))[2]
    (mm256_set1_epi64x 0x00004000))) = v at hinit
  simp only [hv]
  obtain ⟨v', counter', rest, hloop, hpost⟩ := loop_eq pm (input.length + 1) input 0 v mm256_setzero_si256 (by omega) hi (by omega)
    (fun i => lane_zero i)
  rw [hloop]
  simp only [bind, Except.bind]
  have hu := unpack_eq v'
  simp only at hu
  have hk : ∀ i : Fin 4, ∃ k, i.val * 128 < rest.length → k + rest.length < 2 ^ 64 ∧ lane 64 counter' i.val = BitVec.ofNat 64 k ∧
      absorb .b .Parallel true (decide (i.val = 3)) (v'.map (BAvx2.impl.ln i)) (BitVec.ofNat _ k) (rest.drop (i.val * 128)) =
        absorb .b .Parallel true (decide (i.val = 3)) (v.map (BAvx2.impl.ln i)) (BitVec.ofNat _ 0) (input.drop (i.val * 128)) := by
    intro i
    by_cases h : i.val * 128 < rest.length
    · obtain ⟨k, h1, h2, h3⟩ := hpost.more i h
      exact ⟨k, fun _ => ⟨by omega, h2, h3⟩⟩
    · exact ⟨0, fun h' => absurd h' h⟩
  obtain ⟨k, hk⟩ := Classical.axiomOfChoice hk
  obtain ⟨s', hs1, hs2⟩ := tail_eq pm rest counter' (fun i => v'.map (BAvx2.impl.ln i)) k hpost.short
    (fun i h => ⟨(hk i h).1, (hk i h).2.1⟩) 4 0 rfl _ (fun i _ => hu i)
  have hfr : (List.finRange 4).drop 0 = [0, 1, 2, 3] := by decide
  rw [hfr, Nat.zero_mul, List.drop_zero] at hs1
  rw [hs1]
  simp only
  have hs : s' = Vector.ofFn fun i : Fin 4 => regs (absorb .b .Parallel true (decide (i.val = 4 - 1))
      (Spec.initH .b (Spec.leafConfig .b 64 [] i.val)) 0 (input.drop (i.val * 128))) := by
    refine Vector.ext fun j hj => ?_
    rw [Vector.getElem_ofFn]
    have := hs2 ⟨j, hj⟩
    simp only [Nat.zero_le, true_and] at this
    refine Eq.trans this ?_
    have hin := hinit ⟨j, hj⟩
    simp only at hin
    by_cases h : j * 128 < rest.length
    · rw [if_pos h, (hk ⟨j, hj⟩ h).2.2, hin]
      rfl
    · rw [if_neg h]
      refine (hu ⟨j, hj⟩).trans ?_
      rw [hpost.done ⟨j, hj⟩ (by show _ ≤ j * 128; omega)]
      simp only
      rw [hin]
      rfl
  have hb : (s'.toList.flatMap fun p => leBytes 32 p.1.toNat ++ leBytes 32 p.2.toNat) =
      (Vector.ofFn fun i : Fin (parDegree .b) => absorb .b .Parallel true (decide (i.val = parDegree .b - 1))
        (Spec.initH .b (Spec.leafConfig .b 64 [] i)) 0 (input.drop (i.val * Alg.bb .b))).toList.flatMap (Spec.wordsToBytes .b) := by
    rw [hs, Vector.toList_ofFn, Vector.toList_ofFn, ofFn_eq_map_finRange, ofFn_eq_map_finRange, List.flatMap_map, List.flatMap_map]
    refine congrArg (fun f => List.flatMap f (List.finRange 4)) (funext fun i => ?_)
    exact regs_bytes _
  rw [hb, root_eq _ _ _ ho, treeFull_leaves, ← treeFull_take, List.take_of_length_le]
  · rw [treeFull_length]; decide
  · rw [List.length_flatMap]
    simp only [wordsToBytes_length]
    rw [List.map_const', List.sum_replicate_nat, Vector.length_toList]
    decide

end Blake2.SnevesBp
