import Verif.Proofs.HashSpec
import Verif.Proofs.ManyInv
/-! # `update_many` and `hash_many` are their one-at-a-time counterparts -/
namespace Blake2
open Spec

variable {a : Alg}

theorem ofFn_eq_map {α β : Type} (l : List α) (f : α → β) : List.ofFn (fun i : Fin l.length => f l[i]) = l.map f := by
  apply List.ext_getElem
  · simp
  · intro i h1 h2; simp

/-- The closure of `update_many`, followed by the compression of the job it returns, is `update`. -/
theorem updateManyPull_ok {ι : Type} (src : Source a ι (State a)) (i : ι) (x : List Byte) (s : State a) (h : s.Sane)
    (hsrc : src.pull i s = updateManyPull i x s) (hget : ∀ s, src.getWords s = s.words)
    (hset : ∀ s w, src.setWords s w = { s with words := w }) :
    Many.PullOk src .Serial false i s (State.upd s x) := by
  obtain ⟨h1, h2⟩ := State.cbp_sane x h
  unfold Many.PullOk
  rw [hsrc]
  unfold updateManyPull State.upd
  rw [State.compressBufferIfPossible_eq s x h]
  simp only [bind, Except.bind]
  generalize State.cbp s x = p at *
  obtain ⟨s1, x1⟩ := p
  simp only at *
  by_cases he : x1 = []
  · subst he
    exact ⟨s1, none, rfl, by simp⟩
  · obtain ⟨b1, b2, b3, b4⟩ := State.bulk_spec (a := a) x1 he
    have hz := h2 he
    have hemp : x1.isEmpty = false := by simpa using he
    have hl := List.length_pos_iff.2 he
    have hbb := State.bb_lt256 a
    have hbuf := h1.buf
    have hdl : (x1.drop (State.bulk a x1)).length = x1.length - State.bulk a x1 := List.length_drop ..
    simp only [hemp, Bool.false_eq_true, if_false, checkedSub, if_pos (show 1 ≤ x1.length from hl), b3, sliceTo, sliceFrom,
      if_pos (Nat.le_of_lt b1), if_neg he]
    rw [copyRange, if_pos ⟨Nat.zero_le _, by rw [hdl]; omega, by omega⟩]
    simp only [List.take_zero, List.nil_append, hdl, Nat.mod_eq_of_lt (show x1.length - State.bulk a x1 < 256 by omega)]
    by_cases hp : 0 < State.bulk a x1
    · have hne : x1.take (State.bulk a x1) ≠ [] := by
        intro h0; have := congrArg List.length h0; rw [List.length_take, List.length_nil] at this; omega
      have hne' : (x1.take (State.bulk a x1)).isEmpty = false := by simpa using hne
      have hlt : (x1.take (State.bulk a x1)).length = State.bulk a x1 := by rw [List.length_take]; omega
      simp only [hne', Bool.false_eq_true, if_false, hlt]
      refine ⟨_, _, rfl, rfl, ⟨.inr ⟨hne, by rw [hlt]; exact b4⟩, h1.count⟩, ?_⟩
      simp only [State.tail, hp, if_true, hset, hget, Job.target]
    · have h0 : State.bulk a x1 = 0 := by omega
      simp only [h0, List.take_zero, List.isEmpty_nil, if_true]
      refine ⟨_, _, rfl, ?_⟩
      simp [State.tail, h0]

/-- `update_many` leaves every state as `update` would. -/
theorem updateMany_eq (pairs : List (State a × List Byte)) (h : ∀ p ∈ pairs, p.1.Sane) :
    updateMany pairs = .ok (pairs.map fun p => State.upd p.1 p.2) := by
  cases pairs with
  | nil => rfl
  | cons first rest =>
    unfold updateMany
    simp only [bind, Except.bind]
    rw [compressMany_eq (final := fun i => State.upd ((first :: rest)[i]).1 ((first :: rest)[i]).2)
      ⟨fun _ _ => rfl, fun _ _ _ => rfl⟩]
    · simp only
      rw [ofFn_eq_map (first :: rest) (fun p => State.upd p.1 p.2)]
    · exact List.nodup_finRange _
    · intro i _
      exact updateManyPull_ok _ i _ _ (h _ (by simp)) rfl (fun _ => rfl) (fun _ _ => rfl)
    · intro i hi; exact absurd (List.mem_finRange i) hi

/-- What `hash_many` does to one job. -/
def HashManyJob.done (j : HashManyJob a) : HashManyJob a :=
  if j.finished then j
  else { j with finished := true, words := absorb a .Serial true j.lastNode j.words j.count j.input }

theorem hashManyPull_ok {ι : Type} (src : Source a ι (HashManyJob a)) (i : ι) (j : HashManyJob a)
    (hc : j.count.toNat % a.bb = 0) (hsrc : src.pull i j = hashManyPull i j) (hget : ∀ j, src.getWords j = j.words)
    (hset : ∀ j w, src.setWords j w = { j with words := w }) :
    Many.PullOk src .Serial true i j j.done := by
  unfold Many.PullOk
  rw [hsrc]
  simp only [hashManyPull, HashManyJob.done]
  by_cases hf : j.finished
  · simp only [hf, if_true]
    exact ⟨_, none, rfl, rfl⟩
  · simp only [hf, if_false]
    exact ⟨_, _, rfl, rfl, ⟨.inl rfl, hc⟩, by simp only [hset, hget, Job.target, Bool.false_eq_true, if_false]⟩

theorem hashMany_eq (jobs : List (HashManyJob a)) (h : ∀ j ∈ jobs, j.count.toNat % a.bb = 0) :
    hashMany jobs = .ok (jobs.map HashManyJob.done) := by
  cases jobs with
  | nil => rfl
  | cons first rest =>
    unfold hashMany
    simp only [bind, Except.bind]
    rw [compressMany_eq (final := fun i => HashManyJob.done ((first :: rest)[i])) ⟨fun _ _ => rfl, fun _ _ _ => rfl⟩]
    · simp only
      rw [ofFn_eq_map (first :: rest) HashManyJob.done]
    · exact List.nodup_finRange _
    · intro i _
      exact hashManyPull_ok _ i _ (h _ (by simp)) rfl (fun _ => rfl) (fun _ _ => rfl)
    · intro i hi; exact absurd (List.mem_finRange i) hi

/-- A job made by `HashManyJob::new`, and what it becomes. -/
theorem hashManyJob_new {c : Config} {p : Params a} (h : Rep a c p) (msg : List Byte) :
    ∃ j, HashManyJob.new p msg = .ok j ∧ j.count.toNat % a.bb = 0 ∧ j.hashLength = p.hashLength ∧
      j.finished = (decide (c.key ≠ []) && decide (msg = [])) ∧
      j.done.words = Spec.process a (initH a c) (keyedData a c.key msg) c.lastNode := by
  have hk := h.key_toNat
  have hlen : (pad a.bb c.key).length = a.bb := pad_length _ _ h.key_le
  have hbp := bb_pos a
  unfold HashManyJob.new
  rw [keyedData_eq]
  by_cases he : c.key = []
  · have hz : p.keyLength.toNat = 0 := by rw [hk, he]; rfl
    simp only [hz, gt_iff_lt, Nat.lt_irrefl, if_false, bind, Except.bind]
    refine ⟨_, rfl, by simp, rfl, by simp [he], ?_⟩
    have := absorb_final (initH a c) msg c.lastNode _ 0 (Nat.le_refl _) (.inl rfl)
    simp only [Nat.zero_mul, List.drop_zero, chain_zero] at this
    simp only [HashManyJob.done, Bool.false_eq_true, if_false, keyPart, he, if_true, List.nil_append, ← this, toWords_eq h,
      h.lastNode]
    rfl
  · have hpos : 0 < p.keyLength.toNat := by rw [hk]; exact List.length_pos_iff.2 he
    have hdvd : a.bb ∣ 2 ^ (2 * a.w) := Nat.dvd_trans (bb_dvd a) (Nat.pow_dvd_pow _ (by omega))
    have hcnt : (BitVec.ofNat (2 * a.w) a.bb).toNat % a.bb = 0 := by
      rw [BitVec.toNat_ofNat, Nat.mod_mod_of_dvd _ hdvd, Nat.mod_self]
    have hkb : p.keyBlock.length = a.bb := by rw [h.keyBlock, hlen]
    by_cases hm : msg = []
    · subst hm
      simp only [hpos, gt_iff_lt, if_true, bind, Except.bind, List.isEmpty_nil]
      rw [compress1_eq _ _ _ _ _ _ _ _ (.inl rfl)]
      refine ⟨_, rfl, hcnt, rfl, by simp [he], ?_⟩
      have := absorb_final (initH a c) (pad a.bb c.key) c.lastNode _ 0 (Nat.le_refl _) (.inl rfl)
      simp only [Nat.zero_mul, List.drop_zero, chain_zero] at this
      simp only [HashManyJob.done, if_true, keyPart, he, if_false, List.append_nil, ← this, toWords_eq h, h.lastNode,
        h.keyBlock]
      rfl
    · have hmi : msg.isEmpty = false := by simpa using hm
      simp only [hpos, gt_iff_lt, if_true, bind, Except.bind, hmi]
      rw [compress1_eq _ _ _ _ _ _ _ _ (.inr ⟨by intro h0; rw [h0] at hkb; simp at hkb; omega, by rw [hkb]; exact Nat.mod_self _⟩)]
      refine ⟨_, rfl, hcnt, rfl, by simp [hm], ?_⟩
      simp only [HashManyJob.done, Bool.false_eq_true, if_false, keyPart, he, h.lastNode]
      have h1 := absorb_nonfinal (initH a c) (pad a.bb c.key ++ msg) c.lastNode 1 0 Nat.one_pos (by
        rw [List.length_append, hlen]; omega)
      have h2 := absorb_final (initH a c) (pad a.bb c.key ++ msg) c.lastNode _ 1 (Nat.le_refl _) (.inr (by
        rw [List.length_append, hlen]; have := List.length_pos_iff.2 hm; omega))
      simp only [Nat.zero_mul, List.drop_zero, chain_zero, Nat.one_mul, Nat.zero_add] at h1 h2
      rw [List.take_left' hlen] at h1
      rw [List.drop_left' hlen, ← h1] at h2
      rw [← h2, toWords_eq h, h.keyBlock]
      rfl

end Blake2
