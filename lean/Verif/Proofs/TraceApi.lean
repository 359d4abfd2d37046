import Verif.Proofs.TraceMany
import Verif.Proofs.History
/-! # The compressions run by the public functions, serial and batch -/
namespace Blake2
open Traced Spec

variable {a : Alg} {ι : Type}

theorem callsOf_eq_mine [DecidableEq ι] (i : ι) (log : List (Pass a ι)) : callsOf i log = Sched.mine i log := rfl

theorem callsOf_solo [DecidableEq ι] (i : ι) (cs : List (Call a)) : callsOf i (solo i cs) = cs := Sched.mine_solo_same i cs

/-! ## One hasher -/

theorem updateT_foldlM (who : ι) {h0 : Vector (Word a) 8} {D : List Byte} {k : Nat} {s : State a} (h : State.Inv h0 D k s)
    (xs : List (List Byte)) :
    ∃ s' k' cs, xs.foldlM (fun s x => s.updateT who x) s = ret s' (solo who cs) ∧ State.Inv h0 (D ++ xs.flatten) k' s' ∧
      s'.lastNode = s.lastNode ∧ s'.hashLength = s.hashLength ∧
      leading a D k ++ cs = leading a (D ++ xs.flatten) k' := by
  induction xs generalizing D k s with
  | nil => exact ⟨s, k, [], rfl, by simpa using h, rfl, rfl, by simp⟩
  | cons x xs ih =>
    obtain ⟨k1, h1, h2⟩ := State.upd_calls h x
    obtain ⟨s', k', cs, h3, h4, h5, h6, h7⟩ := ih h1
    have hm := State.upd_meta s x
    refine ⟨s', k', State.updCalls s x ++ cs, ?_, by simpa using h4, h5.trans hm.lastNode, h6.trans hm.hashLength, ?_⟩
    · rw [List.foldlM_cons, solo_append]
      exact bind_ret (State.updateT_eq who s x h.sane) h3
    · rw [← List.append_assoc, h2, h7]; simp

theorem hashT_log {c : Config} {p : Params a} (h : Rep a c p) (who : ι) (msg : List Byte) :
    p.hashT who msg = ret ⟨hashFull a c msg, p.hashLength⟩ (solo who (rfcCalls a (keyedData a c.key msg) c.lastNode)) := by
  have hv : ∀ l, (∃ y, p.hashT who msg = ret y l) → p.hashT who msg = ret ⟨hashFull a c msg, p.hashLength⟩ l := by
    rintro l ⟨y, hy⟩
    have := hashT_erase who p msg
    rw [hy, hash_eq h, erase_ret] at this
    cases this
    exact hy
  apply hv
  rw [keyedData_eq]
  unfold Params.hashT
  by_cases hp : p.keyLength.toNat > 0
  · rw [if_pos hp]
    obtain ⟨hi, hl, _⟩ := withParams_inv h
    obtain ⟨k', hk', hc⟩ := State.upd_calls hi msg
    obtain ⟨cs, hf, hcs⟩ := State.finalize_calls hk' who
    have hm := State.upd_meta (State.withParams p) msg
    have e := bind_ret (State.updateT_eq who _ _ hi.sane) hf
    rw [hm.lastNode, hl] at hcs
    rw [leading_zero, List.nil_append] at hc
    rw [← solo_append, hc, hcs] at e
    exact ⟨_, e⟩
  · rw [if_neg hp]
    have he : c.key = [] := by
      apply List.eq_nil_of_length_eq_zero
      rw [← h.key_toNat]; omega
    have := absorbCalls_final (a := a) msg c.lastNode _ 0 (Nat.le_refl _) (.inl rfl)
    simp only [Nat.zero_mul, List.drop_zero, leading_zero, List.nil_append] at this
    have e := bind_ret (compress1T_eq who p.implementation msg p.toWords 0 p.lastNode true .Serial (.inl rfl))
      (f := fun words => (pure ⟨stateWordsToBytes a words, p.hashLength⟩ : Traced a ι (Hash a))) (l' := []) rfl
    rw [List.append_nil] at e
    rw [keyPart, if_pos he, List.nil_append, ← this, ← h.lastNode]
    exact ⟨_, e⟩

/-! ## `update_many` -/

/-- What visiting a state logs: the calls made at once, and those of its job. -/
def updatePull (s : State a) (x : List Byte) : List (Call a) × Option (List (Call a)) :=
  (State.cbpCalls s x,
   if (State.cbp s x).2 = [] then none
   else if 0 < State.bulk a (State.cbp s x).2 then
     some (absorbCalls a .Serial false (State.cbp s x).1.lastNode (State.cbp s x).1.count
       ((State.cbp s x).2.take (State.bulk a (State.cbp s x).2)))
   else none)

theorem updatePull_calls (s : State a) (x : List Byte) :
    (updatePull s x).1 ++ (updatePull s x).2.getD [] = State.updCalls s x := by
  unfold updatePull State.updCalls State.tailCalls
  split
  · rfl
  · split <;> rfl

theorem updateManyPullT_ok [DecidableEq ι] (src : SourceT a ι (State a)) (i : ι) (x : List Byte) (s : State a) (h : s.Sane)
    (hsrc : src.pull i s = updateManyPullT i x s) (hget : ∀ s, src.getWords s = s.words)
    (hset : ∀ s w, src.setWords s w = { s with words := w }) :
    Many.PullOkT src .Serial false i s (State.upd s x) (updatePull s x) := by
  refine ⟨updateManyPull_ok src.erase i x s h ?_ hget hset, ?_⟩
  · show (src.pull i s).erase = _
    rw [hsrc, updateManyPullT_erase]
  obtain ⟨h1, h2⟩ := State.cbp_sane x h
  rw [hsrc]
  unfold updateManyPullT updatePull
  have hcb := State.compressBufferIfPossibleT_eq i s x h
  generalize State.cbp s x = p at *
  obtain ⟨s1, x1⟩ := p
  simp only at *
  by_cases he : x1 = []
  · subst he
    refine ⟨s1, none, ?_, by simp, by simp⟩
    rw [bind_ret hcb (y := (s1, none)) (l' := []) rfl, List.append_nil]; rfl
  · obtain ⟨b1, b2, b3, b4⟩ := State.bulk_spec (a := a) x1 he
    have hz := h2 he
    have hemp : x1.isEmpty = false := by simpa using he
    have hl := List.length_pos_iff.2 he
    have hbb := State.bb_lt256 a
    have hbuf := h1.buf
    have hdl : (x1.drop (State.bulk a x1)).length = x1.length - State.bulk a x1 := List.length_drop ..
    have hcopy : copyRange s1.buf 0 (x1.drop (State.bulk a x1)).length (x1.drop (State.bulk a x1)) =
        .ok (x1.drop (State.bulk a x1) ++ s1.buf.drop (x1.length - State.bulk a x1)) := by
      rw [copyRange, if_pos ⟨Nat.zero_le _, by rw [hdl]; omega, by omega⟩]
      simp [hdl]
    rw [if_neg he]
    by_cases hp : 0 < State.bulk a x1
    · have hne : x1.take (State.bulk a x1) ≠ [] := by
        intro h0; have := congrArg List.length h0; rw [List.length_take, List.length_nil] at this; omega
      have hne' : (x1.take (State.bulk a x1)).isEmpty = false := by simpa using hne
      rw [if_pos hp]
      refine ⟨{ s1 with
          buf := x1.drop (State.bulk a x1) ++ s1.buf.drop (x1.length - State.bulk a x1)
          buflen := (x1.drop (State.bulk a x1)).length % 256
          count := s1.count + BitVec.ofNat (2 * a.w) (x1.take (State.bulk a x1)).length }, some ⟨i, x1.take (State.bulk a x1), s1.count, s1.lastNode⟩,
        (bind_ret hcb (l' := []) (y := ({ s1 with
          buf := x1.drop (State.bulk a x1) ++ s1.buf.drop (x1.length - State.bulk a x1)
          buflen := (x1.drop (State.bulk a x1)).length % 256
          count := s1.count + BitVec.ofNat (2 * a.w) (x1.take (State.bulk a x1)).length }, some ⟨i, x1.take (State.bulk a x1), s1.count, s1.lastNode⟩)) ?_).trans ?_, rfl, by intro j hj; cases hj; rfl⟩
      · simp only [hemp, Bool.false_eq_true, if_false]
        rw [lift_bind (x := x1.length - 1) (by rw [checkedSub, if_pos (show 1 ≤ x1.length from hl)])]
        simp only [b3]
        rw [lift_bind (x := x1.take (State.bulk a x1)) (by rw [sliceTo, if_pos (Nat.le_of_lt b1)]),
          lift_bind (x := x1.drop (State.bulk a x1)) (by rw [sliceFrom, if_pos (Nat.le_of_lt b1)]), lift_bind hcopy]
        simp only [hne', Bool.false_eq_true, if_false]
        rfl
      · rw [List.append_nil]; rfl
    · have h0 : State.bulk a x1 = 0 := by omega
      rw [if_neg hp]
      refine ⟨{ s1 with
          buf := x1.drop (State.bulk a x1) ++ s1.buf.drop (x1.length - State.bulk a x1)
          buflen := (x1.drop (State.bulk a x1)).length % 256 }, none,
        (bind_ret hcb (l' := []) (y := ({ s1 with
          buf := x1.drop (State.bulk a x1) ++ s1.buf.drop (x1.length - State.bulk a x1)
          buflen := (x1.drop (State.bulk a x1)).length % 256 }, none)) ?_).trans ?_, rfl, by intro j hj; cases hj⟩
      · simp only [hemp, Bool.false_eq_true, if_false]
        rw [lift_bind (x := x1.length - 1) (by rw [checkedSub, if_pos (show 1 ≤ x1.length from hl)])]
        simp only [b3]
        rw [lift_bind (x := x1.take (State.bulk a x1)) (by rw [sliceTo, if_pos (Nat.le_of_lt b1)]),
          lift_bind (x := x1.drop (State.bulk a x1)) (by rw [sliceFrom, if_pos (Nat.le_of_lt b1)]), lift_bind hcopy]
        simp only [h0, List.take_zero, List.isEmpty_nil, if_true]
        rfl
      · rw [List.append_nil]; rfl

/-- The implementation a batch runs on: that of its first element. -/
def updateImp (pairs : List (State a × List Byte)) : Platform := (pairs.head?.map fun p => p.1.implementation).getD .Portable

theorem updateManyT_log (pairs : List (State a × List Byte)) (h : ∀ p ∈ pairs, p.1.Sane) :
    updateManyT pairs = ret (pairs.map fun p => State.upd p.1 p.2)
      (Sched.run (fun i : Fin pairs.length => updatePull (pairs[i]).1 (pairs[i]).2)
        (implDegree a (updateImp pairs)) (hiDegree a) (loDegree a) (List.finRange pairs.length)) := by
  cases pairs with
  | nil => cases a <;> rfl
  | cons first rest =>
    unfold updateManyT
    simp only
    rw [bind_ret (compressManyT_eq (final := fun i => State.upd ((first :: rest)[i]).1 ((first :: rest)[i]).2)
      (pull := fun i => updatePull ((first :: rest)[i]).1 ((first :: rest)[i]).2)
      ⟨fun _ _ => rfl, fun _ _ _ => rfl⟩ _ _ _ _ _ (List.nodup_finRange _)
      (fun i _ => updateManyPullT_ok _ i _ _ (h _ (List.getElem_mem i.isLt)) rfl (fun _ => rfl) (fun _ _ => rfl))
      (fun i hi => absurd (List.mem_finRange i) hi)) (l' := []) rfl, List.append_nil]
    rw [ofFn_eq_map (first :: rest) (fun p => State.upd p.1 p.2)]
    rfl

/-! ## `hash_many` -/

/-- What visiting a job logs: nothing, and then the calls of the job unless it is finished. -/
def hashPull (j : HashManyJob a) : List (Call a) × Option (List (Call a)) :=
  ([], if j.finished then none else some (absorbCalls a .Serial true j.lastNode j.count j.input))

theorem hashManyPullT_ok [DecidableEq ι] (src : SourceT a ι (HashManyJob a)) (i : ι) (j : HashManyJob a)
    (hc : j.count.toNat % a.bb = 0) (hsrc : src.pull i j = (hashManyPull i j : Res _)) (hget : ∀ j, src.getWords j = j.words)
    (hset : ∀ j w, src.setWords j w = { j with words := w }) :
    Many.PullOkT src .Serial true i j j.done (hashPull j) := by
  refine ⟨hashManyPull_ok src.erase i j hc ?_ hget hset, ?_⟩
  · show (src.pull i j).erase = _
    rw [hsrc, erase_lift]
  rw [hsrc]
  unfold hashManyPull hashPull
  by_cases hf : j.finished
  · simp only [hf, if_true]
    exact ⟨_, none, rfl, rfl, by intro j hj; cases hj⟩
  · simp only [hf, if_false]
    exact ⟨_, some _, rfl, rfl, by intro j hj; cases hj; rfl⟩

/-- The implementation a batch runs on: that of its first element. -/
def hashImp (jobs : List (HashManyJob a)) : Platform := (jobs.head?.map fun j => j.implementation).getD .Portable

theorem hashManyT_log (jobs : List (HashManyJob a)) (h : ∀ j ∈ jobs, j.count.toNat % a.bb = 0) :
    hashManyT jobs = ret (jobs.map HashManyJob.done)
      (Sched.run (fun i : Fin jobs.length => hashPull jobs[i])
        (implDegree a (hashImp jobs)) (hiDegree a) (loDegree a) (List.finRange jobs.length)) := by
  cases jobs with
  | nil => cases a <;> rfl
  | cons first rest =>
    unfold hashManyT
    simp only
    rw [bind_ret (compressManyT_eq (final := fun i => HashManyJob.done ((first :: rest)[i]))
      (pull := fun i => hashPull ((first :: rest)[i]))
      ⟨fun _ _ => rfl, fun _ _ _ => rfl⟩ _ _ _ _ _ (List.nodup_finRange _)
      (fun i _ => hashManyPullT_ok _ i _ (h _ (List.getElem_mem i.isLt)) rfl (fun _ => rfl) (fun _ _ => rfl))
      (fun i hi => absurd (List.mem_finRange i) hi)) (l' := []) rfl, List.append_nil]
    rw [ofFn_eq_map (first :: rest) HashManyJob.done]
    rfl

theorem newT_keyed (p : Params a) (who : ι) (msg : List Byte) (hp : 0 < p.keyLength.toNat)
    (hok : InputOk a msg.isEmpty p.keyBlock) :
    HashManyJob.newT who p msg = ret
      { words := absorb a .Serial msg.isEmpty p.lastNode p.toWords 0 p.keyBlock, count := BitVec.ofNat (2 * a.w) a.bb,
        lastNode := p.lastNode, hashLength := p.hashLength, input := msg, finished := msg.isEmpty,
        implementation := p.implementation } (solo who (absorbCalls a .Serial msg.isEmpty p.lastNode 0 p.keyBlock)) := by
  unfold HashManyJob.newT
  simp only [gt_iff_lt, hp, if_true]
  have e := bind_ret (compress1T_eq who p.implementation p.keyBlock p.toWords 0 p.lastNode msg.isEmpty .Serial hok)
    (f := fun words => (pure (words, BitVec.ofNat (2 * a.w) a.bb, msg.isEmpty) :
      Traced a ι (Vector (Word a) 8 × Count a × Bool))) (l' := []) rfl
  have e2 := bind_ret e (f := fun x => (pure ({
      words := x.1, count := x.2.1, lastNode := p.lastNode, hashLength := p.hashLength, input := msg
      finished := x.2.2, implementation := p.implementation } : HashManyJob a) : Traced a ι (HashManyJob a))) (l' := []) rfl
  rw [List.append_nil, List.append_nil] at e2
  exact e2

/-- The calls made by creating a job, and those it still has to make. -/
theorem newT_log {c : Config} {p : Params a} (h : Rep a c p) (who : ι) (msg : List Byte) :
    ∃ j cs, HashManyJob.newT who p msg = ret j (solo who cs) ∧ HashManyJob.new p msg = .ok j ∧
      cs ++ (hashPull j).2.getD [] = rfcCalls a (keyedData a c.key msg) c.lastNode := by
  obtain ⟨j, hj, _⟩ := hashManyJob_new h msg
  suffices hmain : ∃ j cs, HashManyJob.newT who p msg = ret j (solo who cs) ∧
      cs ++ (hashPull j).2.getD [] = rfcCalls a (keyedData a c.key msg) c.lastNode by
    obtain ⟨j', cs, h1, h2⟩ := hmain
    refine ⟨j', cs, h1, ?_, h2⟩
    rw [← newT_erase who, h1, erase_ret]
  have hk := h.key_toNat
  have hlen : (pad a.bb c.key).length = a.bb := pad_length _ _ h.key_le
  have hbp := bb_pos a
  rw [keyedData_eq]
  by_cases he : c.key = []
  · have hz : p.keyLength.toNat = 0 := by rw [hk, he]; rfl
    unfold HashManyJob.newT
    simp only [hz, gt_iff_lt, Nat.lt_irrefl, if_false]
    rw [pure_bind']
    refine ⟨_, [], rfl, ?_⟩
    have := absorbCalls_final (a := a) msg c.lastNode _ 0 (Nat.le_refl _) (.inl rfl)
    simp only [Nat.zero_mul, List.drop_zero, leading_zero, List.nil_append] at this
    simp only [hashPull, Bool.false_eq_true, if_false, Option.getD_some, keyPart, he, if_true, List.nil_append, ← this,
      h.lastNode]
    rfl
  · have hpos : 0 < p.keyLength.toNat := by rw [hk]; exact List.length_pos_iff.2 he
    have hkb : p.keyBlock.length = a.bb := by rw [h.keyBlock, hlen]
    by_cases hm : msg = []
    · subst hm
      refine ⟨_, _, newT_keyed p who [] hpos (.inl rfl), ?_⟩
      have := absorbCalls_final (a := a) (pad a.bb c.key) c.lastNode _ 0 (Nat.le_refl _) (.inl rfl)
      simp only [Nat.zero_mul, List.drop_zero, leading_zero, List.nil_append] at this
      simp only [hashPull, if_true, List.isEmpty_nil, Option.getD_none, List.append_nil, keyPart, he, if_false, ← this,
        h.lastNode, h.keyBlock]
      rfl
    · have hmi : msg.isEmpty = false := by simpa using hm
      refine ⟨_, _, newT_keyed p who msg hpos (.inr ⟨?_, by rw [hkb]; exact Nat.mod_self _⟩), ?_⟩
      · intro h0; rw [h0] at hkb; simp at hkb; omega
      have h1 := absorbCalls_nonfinal (a := a) (pad a.bb c.key ++ msg) c.lastNode 1 0 Nat.one_pos (by
        rw [List.length_append, hlen]; omega)
      have h2 := absorbCalls_final (a := a) (pad a.bb c.key ++ msg) c.lastNode _ 1 (Nat.le_refl _) (.inr (by
        rw [List.length_append, hlen]; have := List.length_pos_iff.2 hm; omega))
      simp only [Nat.zero_mul, List.drop_zero, leading_zero, List.nil_append, Nat.one_mul, Nat.zero_add] at h1 h2
      rw [List.take_left' hlen] at h1
      rw [List.drop_left' hlen, ← h1] at h2
      simp only [hashPull, hmi, Bool.false_eq_true, if_false, Option.getD_some, keyPart, he, h.lastNode, h.keyBlock]
      rw [← h2]
      rfl

end Blake2
