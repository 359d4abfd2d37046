import Verif.Proofs.Raw
import Verif.Proofs.Absorb
/-!
# Without the debug assertions the loops still complete, whatever they are given
-/
namespace Blake2.Raw

theorem last_multiple (L p : Nat) : ∃ K, L - 1 - (L - 1) % p = K * p := by
  have h : (L - 1) % p + p * ((L - 1) / p) = L - 1 := Nat.mod_add_div _ _
  exact ⟨(L - 1) / p, by rw [Nat.mul_comm ((L - 1) / p) p]; omega⟩

/-- A reader that does not fail inside its input. -/
def ReadsInside (rd : List Byte → Nat → Nat → Res (List Byte)) : Prop :=
  ∀ l off n, off + n ≤ l.length → ∃ b, rd l off n = .ok b

theorem compress1Iter_total {a : Alg} (cb : Blake2.CompressBlock a) {rd : List Byte → Nat → Nat → Res (List Byte)}
    (hrd : ReadsInside rd) (input : List Byte) (s : Stride) (K : Nat) (hK : K * s.padded a < input.length ∨ K = 0)
    (finBlock : List Byte) (finLen : Nat) (fl fn : Word a) (fuel : Nat) :
    ∀ (k : Nat) (count : Count a) (words : Vector (Word a) 8), k ≤ K → K * s.padded a < k * s.padded a + fuel →
      ∃ w, Blake2.compress1Iter a cb rd input (K * s.padded a) finBlock finLen fl fn s fuel (k * s.padded a) count words = .ok w := by
  have hp := padded_pos a s
  have hbb := bb_le_padded a s
  induction fuel with
  | zero =>
    intro k _ _ hk hf
    have := Nat.mul_le_mul_right (s.padded a) hk
    omega
  | succ fuel ih =>
    intro k count words hk hf
    unfold Blake2.compress1Iter
    by_cases ho : k * s.padded a = K * s.padded a
    · simp only [if_pos ho, bind, Except.bind]
      exact ⟨_, rfl⟩
    · have hlt : k < K := by
        rcases Nat.lt_or_ge k K with h | h
        · exact h
        · exact absurd (by rw [Nat.le_antisymm hk h]) ho
      have hm : (k + 1) * s.padded a ≤ K * s.padded a := Nat.mul_le_mul_right _ hlt
      rw [Nat.add_mul, Nat.one_mul] at hm
      have hKl : K * s.padded a < input.length := by
        rcases hK with h | h
        · exact h
        · omega
      obtain ⟨b, hb⟩ := hrd input (k * s.padded a) a.bb (by omega)
      simp only [if_neg ho, hb, bind, Except.bind]
      rw [addUsize, if_pos (by omega)]
      have e : k * s.padded a + s.padded a = (k + 1) * s.padded a := by rw [Nat.add_mul, Nat.one_mul]
      simp only [e]
      exact ih (k + 1) _ _ hlt (by omega)

theorem compress1Loop_total {a : Alg} (cb : Blake2.CompressBlock a) (cbR : CompressBlock a)
    (H : ∀ block, block.length = a.bb → ∀ w c l n, cbR block w c l n = .ok (cb block w c l n))
    {rd : List Byte → Nat → Nat → Res (List Byte)} (hrd : Whole rd) (hin : ReadsInside rd)
    (input : List Byte) (words : Vector (Word a) 8) (count : Count a) (ln fin : Bool) (s : Stride) :
    ∃ w, compress1Loop false a cbR rd input words count ln fin s = .ok w := by
  unfold compress1Loop debugAsserts
  simp only [Bool.false_eq_true, if_false, bind, Except.bind]
  have hf := finalBlock_eq a s input (input.length - 1 - (input.length - 1) % s.padded a) (by omega)
  rw [hf]
  simp only []
  rw [compress1Iter_eq cb cbR H hrd input _ _ (finalBlock_length List.length_replicate hf)]
  obtain ⟨K, hK⟩ := last_multiple input.length (s.padded a)
  rw [hK]
  have h0 : (0 : Nat) = 0 * s.padded a := (Nat.zero_mul _).symm
  rw [show Blake2.compress1Iter a cb rd input (K * s.padded a) _ _ _ _ s (input.length + 1) 0 count words =
    Blake2.compress1Iter a cb rd input (K * s.padded a) _ _ _ _ s (input.length + 1) (0 * s.padded a) count words by rw [← h0]]
  refine compress1Iter_total cb hin input s K ?_ _ _ _ _ _ _ _ _ (Nat.zero_le _) (by omega)
  rcases Nat.eq_zero_or_pos input.length with h | h
  · right
    rw [h] at hK
    have : K * s.padded a = 0 := by rw [← hK]; simp
    rcases Nat.mul_eq_zero.1 this with h | h
    · exact h
    · exact absurd h (Nat.ne_of_gt (padded_pos a s))
  · left; omega

section NWay
open Blake2.NWay
variable {a : Alg} {N : Nat} {R : Type}

theorem loopIter_total (o : VImpl a N R) (inputs : Vector (List Byte) N) (minLen : Nat) (hmin : ∀ x ∈ inputs, minLen ≤ x.length)
    (fin : Fin_ a N R) (s : Stride) (K : Nat) (hfin : fin.offset = K * s.padded a)
    (hK : K * s.padded a < minLen ∨ K = 0) (fuel : Nat) :
    ∀ (k : Nat) (h : Vector R 8) (lo hi : R), k ≤ K → K * s.padded a < k * s.padded a + fuel →
      ∃ r, Blake2.NWay.loopIter o inputs minLen fin s fuel (k * s.padded a) h lo hi = .ok r := by
  have hp := padded_pos a s
  have hbb := bb_le_padded a s
  induction fuel with
  | zero =>
    intro k _ _ _ hk hf
    have := Nat.mul_le_mul_right (s.padded a) hk
    omega
  | succ fuel ih =>
    intro k h lo hi hk hf
    unfold Blake2.NWay.loopIter
    by_cases ho : k * s.padded a = fin.offset
    · simp only [if_pos ho, bind, Except.bind]
      exact ⟨_, rfl⟩
    · have hlt : k < K := by
        rcases Nat.lt_or_ge k K with h | h
        · exact h
        · exact absurd (by rw [hfin, Nat.le_antisymm hk h]) ho
      have hm : (k + 1) * s.padded a ≤ K * s.padded a := Nat.mul_le_mul_right _ hlt
      rw [Nat.add_mul, Nat.one_mul] at hm
      have hKl : K * s.padded a < minLen := by
        rcases hK with h | h
        · exact h
        · omega
      have hblocks := vector_mapM_ok (fun input => rawRef input (k * s.padded a) a.bb)
        (fun input => (input.drop (k * s.padded a)).take a.bb) inputs (fun x hx => by
          have := hmin x hx
          rw [rawRef, if_pos (by omega)])
      simp only [if_neg ho, hblocks, bind, Except.bind]
      rw [addUsize, if_pos (by omega)]
      have e : k * s.padded a + s.padded a = (k + 1) * s.padded a := by rw [Nat.add_mul, Nat.one_mul]
      simp only [e]
      exact ih (k + 1) _ _ _ hlt (by omega)

theorem compressLoop_total (hN : 0 < N) (o : VImpl a N R) (tm : Vector Ptr N → Res (Vector R 16)) (H : ReadsBlocks o tm)
    (jobs : Vector (Job a) N) (fin : Bool) (s : Stride) : ∃ r, compressLoop false o tm jobs fin s = .ok r := by
  unfold compressLoop debugAsserts
  have e : (jobs.map fun job => asPtr job.input) = (jobs.map (·.input)).map asPtr := by rw [Vector.map_map]; rfl
  have hforM : ∀ l : List (Job a), (l.forM fun job => if (false : Bool) = true then inputDebugAsserts a job.input fin else (.ok () : Res Unit)) = .ok () := by
    intro l
    induction l with
    | nil => rfl
    | cons j js ih => exact ih
  rw [hforM]
  obtain ⟨minLen, hm, hmem, hle⟩ := listMin_spec (jobs.toList.map fun job => job.input.length) (by
    intro h
    have := congrArg List.length h
    simp at this
    omega)
  rw [hm]
  have hmin : ∀ x ∈ jobs.map (·.input), minLen ≤ x.length := by
    intro x hx
    obtain ⟨j, hj, rfl⟩ := Vector.mem_map.1 hx
    exact hle _ (List.mem_map.2 ⟨j, by simpa using hj, rfl⟩)
  simp only [bind, Except.bind]
  have hoff : ∀ j ∈ jobs, minLen - 1 - (minLen - 1) % s.padded a ≤ j.input.length := by
    intro j hj
    have := hmin j.input (Vector.mem_map.2 ⟨j, hj, rfl⟩)
    omega
  have hf := vector_mapM_ok (fun job : Job a => finalBlock a job.input (minLen - 1 - (minLen - 1) % s.padded a) (List.replicate a.bb 0) s)
    _ jobs (fun j hj => finalBlock_eq a s j.input _ (hoff j hj))
  rw [hf]
  simp only [e]
  have hb : ∀ b ∈ (jobs.map fun j : Job a => (Spec.pad a.bb ((j.input.drop (minLen - 1 - (minLen - 1) % s.padded a)).take a.bb),
      min a.bb (j.input.length - (minLen - 1 - (minLen - 1) % s.padded a)),
      decide (j.input.length - (minLen - 1 - (minLen - 1) % s.padded a) ≤ s.padded a))).map (·.1), b.length = a.bb := by
    intro b hbm
    obtain ⟨⟨b', n, f⟩, hm', rfl⟩ := Vector.mem_map.1 hbm
    obtain ⟨job, _, hj⟩ := mapM_mem hf _ hm'
    exact finalBlock_length List.length_replicate hj
  rw [loopIter_eq o tm H _ _ _ hb]
  obtain ⟨K, hK⟩ := last_multiple minLen (s.padded a)
  have h0 : (0 : Nat) = 0 * s.padded a := (Nat.zero_mul _).symm
  have hK' : K * s.padded a < minLen ∨ K = 0 := by
    rcases Nat.eq_zero_or_pos minLen with h | h
    · right
      rw [h] at hK
      have : K * s.padded a = 0 := by rw [← hK]; simp
      rcases Nat.mul_eq_zero.1 this with h | h
      · exact h
      · exact absurd h (Nat.ne_of_gt (padded_pos a s))
    · left; omega
  have hloop := fun (F : Fin_ a N R) (hF : F.offset = K * s.padded a) h lo hi =>
    loopIter_total o (jobs.map (·.input)) minLen hmin F s K hF hK' (minLen + 1) 0 h lo hi (Nat.zero_le _) (by omega)
  simp only [Nat.zero_mul] at hloop
  split
  · rename_i err heq
    refine absurd ?_ (show ¬ ∃ r, (.error err : Res (Nat × Vector R 8 × R × R)) = .ok r from fun ⟨_, h⟩ => by cases h)
    rw [← heq]
    exact hloop _ hK _ _ _
  · rename_i r heq
    obtain ⟨off, h, lo, hi⟩ := r
    refine ⟨_, vector_mapM_ok _ (fun i : Fin N => Job.mk ((jobs[i]).input.drop (min (off + s.padded a) (jobs[i]).input.length))
      (o.untransposeState h)[i] (storeCounts o lo hi)[i] (jobs[i]).lastNode) _ ?_⟩
    intro i _
    simp only [sliceFrom, if_pos (Nat.min_le_right _ _)]
end NWay

theorem inside_rawRef : ReadsInside rawRef := fun l off n h => ⟨_, by rw [rawRef, if_pos h]⟩
theorem inside_arrayRef : ReadsInside arrayRef := fun l off n h => ⟨_, by rw [arrayRef, if_pos h]⟩

theorem compress1_total (a : Alg) (imp : Platform) (input : List Byte) (words : Vector (Word a) 8) (count : Count a) (ln fin : Bool)
    (s : Stride) : ∃ w, Raw.compress1 false a imp input words count ln fin s = .ok w := by
  cases a <;> cases imp <;> unfold Raw.compress1 <;> try rw [deref_eq]
  · exact compress1Loop_total _ _ (fun _ _ _ _ _ _ => rfl) whole_arrayRef inside_arrayRef ..
  · exact compress1Loop_total _ _ (fun _ _ _ _ _ _ => rfl) whole_arrayRef inside_arrayRef ..
  · exact compress1Loop_total _ _ (fun _ _ _ _ _ _ => rfl) whole_rawRef inside_rawRef ..
  · exact compress1Loop_total _ _ (fun _ _ _ _ _ _ => rfl) whole_arrayRef inside_arrayRef ..
  · exact compress1Loop_total _ _ SSse41.compressBlock_eq whole_rawRef inside_rawRef ..
  · exact compress1Loop_total _ _ SSse41.compressBlock_eq whole_rawRef inside_rawRef ..

theorem compressHi_total (a : Alg) (imp : Platform) (h : hiDegree a ≤ implDegree a imp) (jobs : Vector (Job a) (hiDegree a))
    (fin : Bool) (s : Stride) : ∃ r, Raw.compressHi false a imp jobs fin s = .ok r := by
  cases a <;> cases imp
  · exact absurd h (by decide)
  · exact absurd h (by decide)
  · exact compressLoop_total (by decide) _ _ BAvx2.reads ..
  · exact absurd h (by decide)
  · exact absurd h (by decide)
  · exact compressLoop_total (by decide) _ _ SAvx2.reads ..

theorem compressLo_total (a : Alg) (imp : Platform) (h : loDegree a ≤ implDegree a imp) (jobs : Vector (Job a) (loDegree a))
    (fin : Bool) (s : Stride) : ∃ r, Raw.compressLo false a imp jobs fin s = .ok r := by
  cases a <;> cases imp
  · exact absurd h (by decide)
  · exact compressLoop_total (by decide) _ _ BSse41.reads ..
  · exact compressLoop_total (by decide) _ _ BSse41.reads ..
  · exact absurd h (by decide)
  · exact compressLoop_total (by decide) _ _ SSse41.reads ..
  · exact compressLoop_total (by decide) _ _ SSse41.reads ..

end Blake2.Raw
