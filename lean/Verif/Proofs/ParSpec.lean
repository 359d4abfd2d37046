import Verif.Proofs.Leaves
/-! # BLAKE2bp and BLAKE2sp: incremental and one-shot hashing are the tree specification -/
namespace Blake2
open Spec

variable {a : Alg}

theorem deg_pos (a : Alg) : 0 < parDegree a := by cases a <;> decide
theorem stripe_lt (a : Alg) : 2 * stripe a < 65536 := by cases a <;> decide

/-- One batch over the leaves. -/
theorem compressLeaves_eq (mkJob : Fin (parDegree a) → Res (List Byte × Count a × Bool)) (imp : Platform) (fin : Bool)
    (leaves : LeafWords a) (f : Fin (parDegree a) → List Byte × Count a × Bool) (h : ∀ i, mkJob i = .ok (f i))
    (hin : ∀ i, InputOk a fin (f i).1) (hc : ∀ i, (f i).2.1.toNat % a.bb = 0) :
    compressLeaves mkJob imp fin leaves =
      .ok (Vector.ofFn fun i => absorb a .Parallel fin (f i).2.2 leaves[i] (f i).2.1 (f i).1) := by
  unfold compressLeaves
  simp only [bind, Except.bind]
  rw [compressMany_eq (final := fun i => absorb a .Parallel fin (f i).2.2 leaves[i] (f i).2.1 (f i).1)
    ⟨fun _ _ => rfl, fun _ _ _ => rfl⟩]
  · exact List.nodup_finRange _
  · intro i _
    unfold Many.PullOk
    simp only [h i]
    exact ⟨_, _, rfl, rfl, ⟨hin i, hc i⟩, rfl⟩
  · intro i hi; exact absurd (List.mem_finRange i) hi

theorem ofNat_mul_mod (a : Alg) (k : Nat) : (BitVec.ofNat (2 * a.w) (k * a.bb)).toNat % a.bb = 0 := by
  have hdvd : a.bb ∣ 2 ^ (2 * a.w) := Nat.dvd_trans (bb_dvd a) (Nat.pow_dvd_pow _ (by omega))
  rw [BitVec.toNat_ofNat, Nat.mod_mod_of_dvd _ hdvd, Nat.mul_mod_left]

namespace PState

/-- The fields no update changes. -/
structure SameMeta (s s' : PState a) : Prop where
  rootWords : s'.rootWords = s.rootWords
  hashLength : s'.hashLength = s.hashLength
  implementation : s'.implementation = s.implementation
  isKeyed : s'.isKeyed = s.isKeyed

theorem SameMeta.refl (s : PState a) : SameMeta s s := ⟨rfl, rfl, rfl, rfl⟩
theorem SameMeta.trans {s t u : PState a} (h : SameMeta s t) (h' : SameMeta t u) : SameMeta s u :=
  ⟨h'.1.trans h.1, h'.2.trans h.2, h'.3.trans h.3, h'.4.trans h.4⟩

/-- `k` stripes of the data `D` have been compressed and the rest is in the buffer. -/
structure Inv (h0 : Fin (parDegree a) → Vector (Word a) 8) (D : List Byte) (k : Nat) (s : PState a) : Prop where
  leaves : ∀ i, s.leafWords[i] = chain a (h0 i) (leaf a i D) k
  count : s.count = BitVec.ofNat _ (k * a.bb)
  le : k * stripe a ≤ D.length
  bufLen : s.bufLen = D.length - k * stripe a
  small : s.bufLen ≤ 2 * stripe a
  pos : k = 0 ∨ k * stripe a + (parDegree a - 1) * a.bb < D.length
  bufLength : s.buf.length = 2 * stripe a
  buf : s.buf.take s.bufLen = D.drop (k * stripe a)

/-- Between the parts of an update: `x` is still to be absorbed. -/
structure Mid (h0 : Fin (parDegree a) → Vector (Word a) 8) (D : List Byte) (k : Nat) (s : PState a) (x : List Byte) :
    Prop where
  leaves : ∀ i, s.leafWords[i] = chain a (h0 i) (leaf a i D) k
  count : s.count = BitVec.ofNat _ (k * a.bb)
  le : k * stripe a ≤ D.length
  small : s.bufLen ≤ 2 * stripe a
  pos : k = 0 ∨ k * stripe a + (parDegree a - 1) * a.bb < D.length
  bufLength : s.buf.length = 2 * stripe a
  buf : s.buf.take s.bufLen ++ x = D.drop (k * stripe a)
  fits : s.bufLen = 0 ∨ (s.bufLen + x.length ≤ 2 * stripe a ∧ x.length ≤ (parDegree a - 1) * a.bb)

/-- `fill_buf`, in closed form. -/
theorem fillBuf_eq (s : PState a) (x : List Byte) (h1 : s.bufLen ≤ 2 * stripe a) (h2 : s.buf.length = 2 * stripe a) :
    fillBuf s x = .ok ({ s with
        buf := s.buf.take s.bufLen ++ x.take (min (2 * stripe a - s.bufLen) x.length) ++
          s.buf.drop (s.bufLen + min (2 * stripe a - s.bufLen) x.length)
        bufLen := s.bufLen + min (2 * stripe a - s.bufLen) x.length },
      x.drop (min (2 * stripe a - s.bufLen) x.length)) := by
  have hs := stripe_lt a
  unfold fillBuf
  simp only [checkedSub, h2, if_pos h1, bind, Except.bind, sliceTo, sliceFrom, if_pos (Nat.min_le_right _ _), copyAt]
  have hlt : min (2 * stripe a - s.bufLen) x.length < 65536 := by omega
  have hl : (x.take (min (2 * stripe a - s.bufLen) x.length)).length = min (2 * stripe a - s.bufLen) x.length := by
    rw [List.length_take]; omega
  rw [copyRange, if_pos ⟨by omega, by rw [hl]; omega, by omega⟩]
  simp only [Nat.mod_eq_of_lt hlt, addU16, hl]
  rw [if_pos (by omega)]

/-- `compress_to_leaves` on whole stripes. -/
theorem compressToLeaves_eq {h0 : Fin (parDegree a) → Vector (Word a) 8} {D : List Byte} {k m : Nat} {s : PState a}
    (hl : ∀ i, s.leafWords[i] = chain a (h0 i) (leaf a i D) k) (hc : s.count = BitVec.ofNat _ (k * a.bb)) (hm : 0 < m)
    (hk : (k + m) * stripe a ≤ D.length) (x : List Byte) (hx : x = (D.drop (k * stripe a)).take (m * stripe a)) :
    ∃ s', compressToLeaves s x = .ok s' ∧ (∀ i, s'.leafWords[i] = chain a (h0 i) (leaf a i D) (k + m)) ∧
      s'.count = BitVec.ofNat _ ((k + m) * a.bb) ∧ s'.buf = s.buf ∧ s'.bufLen = s.bufLen ∧ SameMeta s s' := by
  have e : (k + m) * stripe a = k * stripe a + m * stripe a := Nat.add_mul ..
  have hxl : x.length = m * stripe a := by rw [hx, List.length_take, List.length_drop]; omega
  have hsm : stripe a ≤ m * stripe a := Nat.le_mul_of_pos_left _ hm
  have hbb := bb_pos a
  unfold compressToLeaves
  rw [compressLeaves_eq _ _ _ _ (fun i => (x.drop (i.val * a.bb), s.count, false))]
  · refine ⟨_, rfl, ?_, ?_, rfl, rfl, ⟨rfl, rfl, rfl, rfl⟩⟩
    · intro i
      simp only [Fin.getElem_fin, Vector.getElem_ofFn]
      have := hl i
      simp only [Fin.getElem_fin] at this
      rw [this, hc, hx]
      exact absorb_leaf_nonfinal i.isLt (h0 i) D false m k hm hk
    · simp only
      rw [hc, hxl, ← BitVec.ofNat_add, stripe, ← Nat.mul_assoc, Nat.mul_comm m, Nat.mul_assoc, Nat.mul_div_cancel_left _ (deg_pos a),
        Nat.add_mul]
  · intro i
    have := off_le (a := a) i.isLt
    simp only [sliceFrom, bind, Except.bind]
    rw [if_pos (by omega)]
  · intro i
    have := off_le (a := a) i.isLt
    refine .inr ⟨?_, ?_⟩
    · intro h0
      have := congrArg List.length h0
      simp only [List.length_drop, List.length_nil] at this
      omega
    · simp only [List.length_drop, hxl]
      have e1 : m * stripe a = m * parDegree a * a.bb := (Nat.mul_assoc ..).symm
      rw [e1, ← Nat.sub_mul, Nat.mul_mod_left]
  · intro i
    simp only [hc]
    exact ofNat_mul_mod a k

theorem updateBuffered_inv {h0 : Fin (parDegree a) → Vector (Word a) 8} {D : List Byte} {k : Nat} {s : PState a}
    (h : Inv h0 D k s) (x : List Byte) :
    ∃ s' x' k', updateBuffered s x = .ok (s', x') ∧ Mid h0 (D ++ x) k' s' x' ∧ SameMeta s s' := by
  have hst := stripe_pos a
  have hbl := h.bufLen
  have hle := h.le
  have hsm := h.small
  have hst2 := stripe_lt a
  have hpd : parDegree a * a.bb = stripe a := rfl
  have hdeg : (parDegree a - 1) * a.bb + a.bb = stripe a := by
    rw [← Nat.succ_mul, Nat.succ_eq_add_one, Nat.sub_add_cancel (deg_pos a), stripe]
  have hbb := bb_pos a
  have hDl : (D ++ x).length = D.length + x.length := List.length_append
  have hchain : ∀ i : Fin (parDegree a), s.leafWords[i] = chain a (h0 i) (leaf a i (D ++ x)) k := by
    intro i; rw [chain_leaf_append i.isLt _ _ _ _ hle]; exact h.leaves i
  have hdrop : (D ++ x).drop (k * stripe a) = D.drop (k * stripe a) ++ x := List.drop_append_of_le_length hle
  have hpos : k = 0 ∨ k * stripe a + (parDegree a - 1) * a.bb < (D ++ x).length := h.pos.imp id (by omega)
  unfold updateBuffered
  by_cases hp : s.bufLen > 0
  · rw [if_pos hp, fillBuf_eq s x hsm h.bufLength]
    simp only [bind, Except.bind]
    by_cases he : x.drop (min (2 * stripe a - s.bufLen) x.length) = []
    · have hxl : x.length ≤ 2 * stripe a - s.bufLen := by
        have := congrArg List.length he
        rw [List.length_drop, List.length_nil] at this; omega
      rw [he]
      simp only [List.isEmpty_nil, Bool.not_true, Bool.false_eq_true, if_false]
      refine ⟨_, _, k, rfl, ⟨hchain, h.count, by omega, ?_, hpos, ?_, ?_, .inr ⟨?_, by simp⟩⟩, ⟨rfl, rfl, rfl, rfl⟩⟩
      · simp only; omega
      · simp only [List.length_append, List.length_take, List.length_drop, h.bufLength]; omega
      · simp only
        rw [Nat.min_eq_right hxl, List.take_length, List.append_nil, hdrop, ← h.buf]
        rw [List.take_left']
        rw [List.length_append, List.length_take, h.bufLength]; omega
      · simp only [List.length_nil]; omega
    · have hne : (x.drop (min (2 * stripe a - s.bufLen) x.length)).isEmpty = false := by simpa using he
      have hxl : 2 * stripe a - s.bufLen < x.length := by
        rcases Nat.lt_or_ge (2 * stripe a - s.bufLen) x.length with h1 | h1
        · exact h1
        · exact absurd (List.drop_eq_nil_of_le (by omega)) he
      rw [Nat.min_eq_left (by omega)] at hne ⊢
      have e0 : s.bufLen + (2 * stripe a - s.bufLen) = 2 * stripe a := by omega
      have e1 : s.buf.drop (2 * stripe a) = [] := List.drop_eq_nil_of_le (by rw [h.bufLength]; exact Nat.le_refl _)
      rw [e0, e1, List.append_nil]
      -- the full buffer is the next two stripes of the data
      have hbuf : s.buf.take s.bufLen ++ x.take (2 * stripe a - s.bufLen) =
          ((D ++ x).drop (k * stripe a)).take (2 * stripe a) := by
        rw [hdrop, ← h.buf, List.take_append, List.take_take, Nat.min_eq_right hsm, List.length_take, h.bufLength,
          Nat.min_eq_left hsm]
      have hrest : x.drop (2 * stripe a - s.bufLen) = (D ++ x).drop (k * stripe a + 2 * stripe a) := by
        rw [← List.drop_drop, hdrop, ← h.buf, List.drop_append,
          List.drop_eq_nil_of_le (as := s.buf.take s.bufLen) (by rw [List.length_take]; omega), List.nil_append,
          List.length_take, h.bufLength, Nat.min_eq_left hsm]
      have hk1 : (k + 1) * stripe a = k * stripe a + stripe a := by rw [Nat.add_mul, Nat.one_mul]
      have hk2 : (k + 2) * stripe a = k * stripe a + 2 * stripe a := Nat.add_mul ..
      rw [hbuf, hrest]
      rw [hrest] at hne
      simp only [hne, Bool.not_false, ↓reduceIte]
      have hrl : ((D ++ x).drop (k * stripe a + 2 * stripe a)).length = (D ++ x).length - (k * stripe a + 2 * stripe a) :=
        List.length_drop
      have hbl2 : (((D ++ x).drop (k * stripe a)).take (2 * stripe a)).length = 2 * stripe a := by
        rw [List.length_take, List.length_drop]; omega
      by_cases hbig : ((D ++ x).drop (k * stripe a + 2 * stripe a)).length > (parDegree a - 1) * a.bb
      · simp only [hbig, ↓reduceIte]
        obtain ⟨s', hs', hl', hc', hb', _, hm'⟩ := compressToLeaves_eq (h0 := h0) (D := D ++ x) (k := k) (m := 2)
          (s := { s with buf := ((D ++ x).drop (k * stripe a)).take (2 * stripe a), bufLen := 2 * stripe a })
          hchain h.count (by omega) (by omega) _ rfl
        simp only [hs']
        refine ⟨_, _, k + 2, rfl, ⟨hl', hc', by omega, by simp, .inr (by omega), ?_, ?_, .inl rfl⟩,
          ⟨hm'.1, hm'.2, hm'.3, hm'.4⟩⟩
        · simp only [hb']; exact hbl2
        · simp only [List.take_zero, List.nil_append, hk2]
      · simp only [hbig, ↓reduceIte]
        have hfront : sliceTo (((D ++ x).drop (k * stripe a)).take (2 * stripe a)) (parDegree a * a.bb) =
            .ok (((D ++ x).drop (k * stripe a)).take (1 * stripe a)) := by
          rw [sliceTo, if_pos (by rw [hbl2]; omega), List.take_take, Nat.min_eq_left (by omega), Nat.one_mul, hpd]
        obtain ⟨s', hs', hl', hc', hb', _, hm'⟩ := compressToLeaves_eq (h0 := h0) (D := D ++ x) (k := k) (m := 1)
          (s := { s with buf := ((D ++ x).drop (k * stripe a)).take (2 * stripe a), bufLen := 2 * stripe a })
          hchain h.count (by omega) (by omega) _ rfl
        simp only at hb'
        simp only [hfront, hs', hb']
        have hback : sliceFrom (((D ++ x).drop (k * stripe a)).take (2 * stripe a)) (parDegree a * a.bb) =
            .ok (((D ++ x).drop (k * stripe a + stripe a)).take (stripe a)) := by
          rw [sliceFrom, if_pos (by rw [hbl2]; omega), List.drop_take, List.drop_drop]
          congr 2; omega
        simp only [hback]
        have hfl : (((D ++ x).drop (k * stripe a)).take (1 * stripe a)).length = stripe a := by
          rw [List.length_take, List.length_drop]; omega
        have hfb : (((D ++ x).drop (k * stripe a + stripe a)).take (stripe a)).length = stripe a := by
          rw [List.length_take, List.length_drop]; omega
        rw [copyRange, if_pos ⟨Nat.zero_le _, Nat.le_refl _, by rw [hfl, hfb]; omega⟩, List.take_zero, List.nil_append,
          List.drop_length, List.append_nil]
        have hmod : parDegree a * a.bb % 65536 = stripe a := Nat.mod_eq_of_lt (by omega)
        simp only [hmod]
        refine ⟨_, _, k + 1, rfl, ⟨hl', hc', by omega, by simp only; omega, .inr (by omega), ?_, ?_, .inr ⟨?_, ?_⟩⟩,
          ⟨hm'.1, hm'.2, hm'.3, hm'.4⟩⟩
        · simp only [List.length_append, hfb]; omega
        · simp only
          rw [List.take_left' hfb, hk1]
          have : k * stripe a + 2 * stripe a = k * stripe a + stripe a + stripe a := by omega
          rw [this, ← List.drop_drop (j := k * stripe a + stripe a), List.take_append_drop]
        · simp only; omega
        · omega
  · rw [if_neg hp]
    have hz : s.bufLen = 0 := by omega
    refine ⟨s, x, k, rfl, ⟨hchain, h.count, by omega, h.small, hpos, h.bufLength, ?_, .inl hz⟩, .refl s⟩
    rw [h.buf, hdrop]

theorem update_inv {h0 : Fin (parDegree a) → Vector (Word a) 8} {D : List Byte} {k : Nat} {s : PState a}
    (h : Inv h0 D k s) (x : List Byte) :
    ∃ s' k', update s x = .ok s' ∧ Inv h0 (D ++ x) k' s' ∧ SameMeta s s' := by
  obtain ⟨s1, x1, k1, e1, m1, sm1⟩ := updateBuffered_inv h x
  have hst := stripe_pos a
  have hdeg : (parDegree a - 1) * a.bb + a.bb = stripe a := by
    rw [← Nat.succ_mul, Nat.succ_eq_add_one, Nat.sub_add_cancel (deg_pos a), stripe]
  have hbb := bb_pos a
  generalize D ++ x = D' at *
  have hbulk : ∃ s2 x2 k2, updateBulk s1 x1 = .ok (s2, x2) ∧
      Mid h0 D' k2 s2 x2 ∧ s2.bufLen + x2.length ≤ 2 * stripe a ∧ SameMeta s1 s2 := by
    unfold updateBulk
    simp only [bind, Except.bind]
    generalize hr : x1.length - ((parDegree a - 1) * a.bb + 1) = r
    have hmod := Nat.mod_lt r hst
    have hdm := Nat.div_add_mod r (stripe a)
    have hbe : r - r % (parDegree a * a.bb) = r / stripe a * stripe a := by
      have : r % (parDegree a * a.bb) = r % stripe a := rfl
      rw [this, Nat.mul_comm]; omega
    rw [hbe]
    rw [Nat.mul_comm] at hdm
    by_cases hb : r / stripe a * stripe a > 0
    · rw [if_pos hb]
      have hz : s1.bufLen = 0 := by rcases m1.fits with h | h <;> omega
      have hx1 : x1 = D'.drop (k1 * stripe a) := by have := m1.buf; rw [hz] at this; simpa using this
      have hx1l : x1.length = D'.length - k1 * stripe a := by rw [hx1, List.length_drop]
      have hle1 := m1.le
      have hm : 0 < r / stripe a := by
        rcases Nat.eq_zero_or_pos (r / stripe a) with h0 | h0
        · rw [h0] at hb; omega
        · exact h0
      have hks : (k1 + r / stripe a) * stripe a = k1 * stripe a + r / stripe a * stripe a := Nat.add_mul ..
      obtain ⟨s', hs', hl', hc', hb', hbl', hm'⟩ := compressToLeaves_eq (h0 := h0) (D := D') (k := k1) (m := r / stripe a)
          (s := s1) m1.leaves m1.count hm (by omega) (x1.take (r / stripe a * stripe a)) (by rw [← hx1])
      simp only [sliceTo, sliceFrom]
      rw [if_pos (by omega), if_pos (by omega)]
      simp only [hs']
      refine ⟨_, _, k1 + r / stripe a, rfl, ⟨hl', hc', by omega, by omega, .inr (by omega), ?_, ?_, .inl (by omega)⟩, ?_, hm'⟩
      · rw [hb']; exact m1.bufLength
      · rw [hbl', hz, List.take_zero, List.nil_append, hks, hx1, List.drop_drop]
      · rw [hbl', hz, List.length_drop]; omega
    · rw [if_neg hb]
      refine ⟨s1, x1, k1, rfl, m1, ?_, .refl _⟩
      rcases m1.fits with h | h
      · omega
      · omega
  obtain ⟨s2, x2, k2, e2, m2, hfit, sm2⟩ := hbulk
  unfold update
  simp only [e1, e2, bind, Except.bind]
  have hmin : min (2 * stripe a - s2.bufLen) x2.length = x2.length := Nat.min_eq_right (by omega)
  have hsm2 := m2.small
  rw [fillBuf_eq s2 x2 m2.small m2.bufLength]
  simp only [hmin, List.take_length, List.drop_length, List.length_nil, rassert, beq_self_eq_true, if_true]
  have hlen := congrArg List.length m2.buf
  rw [List.length_append, List.length_take, List.length_drop, m2.bufLength] at hlen
  refine ⟨_, k2, rfl, ⟨m2.leaves, m2.count, m2.le, ?_, ?_, m2.pos, ?_, ?_⟩, ?_⟩
  · simp only; omega
  · simp only; omega
  · simp only [List.length_append, List.length_take, List.length_drop, m2.bufLength]; omega
  · simp only
    rw [List.take_left' (by rw [List.length_append, List.length_take, m2.bufLength]; omega)]
    exact m2.buf
  · exact (sm1.trans sm2).trans ⟨rfl, rfl, rfl, rfl⟩

/-- The final words of the leaves, in `finalize`. -/
theorem finalizeLeaves_inv {h0 : Fin (parDegree a) → Vector (Word a) 8} {D : List Byte} {k : Nat} {s : PState a}
    (h : Inv h0 D k s) :
    compressLeaves (fun i => do
      let upTo ← sliceTo s.buf s.bufLen
      let input ← sliceFrom upTo (min (i.val * a.bb) s.bufLen)
      .ok (input, s.count, decide (i.val = parDegree a - 1))) s.implementation true s.leafWords =
    .ok (Vector.ofFn fun i => process a (h0 i) (leaf a i D) (decide (i.val = parDegree a - 1))) := by
  have hsm := h.small
  have hbl := h.bufLength
  rw [compressLeaves_eq _ _ _ _
    (fun i => ((D.drop (k * stripe a)).drop (i.val * a.bb), s.count, decide (i.val = parDegree a - 1)))]
  · congr 1
    apply Vector.ext
    intro i hi
    simp only [Vector.getElem_ofFn]
    have hl := h.leaves ⟨i, hi⟩
    rw [hl, h.count]
    apply absorb_leaf_final
    refine h.pos.imp id (fun hp => ?_)
    have : i * a.bb ≤ (parDegree a - 1) * a.bb := Nat.mul_le_mul_right _ (by omega)
    simp only; omega
  · intro i
    simp only [sliceTo, sliceFrom, bind, Except.bind]
    rw [if_pos (by omega)]
    simp only
    have hl : (s.buf.take s.bufLen).length = s.bufLen := by rw [List.length_take]; omega
    rw [if_pos (by omega), ← h.buf]
    simp only
    congr 2
    rcases Nat.le_total (i.val * a.bb) s.bufLen with h1 | h1
    · rw [Nat.min_eq_left h1]
    · rw [Nat.min_eq_right h1, List.drop_eq_nil_of_le (by omega), List.drop_eq_nil_of_le (by omega)]
  · intro i; exact .inl rfl
  · intro i
    simp only [h.count]
    exact ofNat_mul_mod a k

end PState

/-- The root, given the leaves. -/
theorem finalizeRootWords_eq (leaves : LeafWords a) (root : Vector (Word a) 8) (hl : BitVec 8) (imp : Platform) :
    finalizeRootWords leaves root hl imp =
      .ok { bytes := wordsToBytes a (process a root (leaves.toList.flatMap (wordsToBytes a)) true), len := hl } := by
  unfold finalizeRootWords
  have hblock : ((leaves.toList.flatMap fun words => words.toList).flatMap fun word => toLE a.wb word) =
      leaves.toList.flatMap (wordsToBytes a) := by
    rw [List.flatMap_assoc]
    congr 1
    funext w
    rw [wordsToBytes]
    congr 1
    funext x
    rw [toLE_eq]
  simp only [hblock]
  rw [compress1_eq _ _ _ _ _ _ _ _ (.inl rfl)]
  have := absorb_final root (leaves.toList.flatMap (wordsToBytes a)) true _ 0 (Nat.le_refl _) (.inl rfl)
  simp only [Nat.zero_mul, List.drop_zero, chain_zero] at this
  have e0 : (BitVec.ofNat (2 * a.w) 0) = 0 := rfl
  rw [e0] at this
  simp only [bind, Except.bind, this, stateWordsToBytes_eq]

/-! ## Parameters -/

/-- What a `Params` value of the tree variants stands for. -/
structure PRep (a : Alg) (n : Nat) (key : List Byte) (p : PParams a) : Prop where
  hashLength : p.hashLength = BitVec.ofNat 8 n
  keyLength : p.keyLength = BitVec.ofNat 8 key.length
  keyBytes : p.key = pad a.keybytes key
  pos : 1 ≤ n
  le : n ≤ maxOut a
  keyLe : key.length ≤ maxOut a

theorem prep_new (a : Alg) (plat : Platform) : PRep a (maxOut a) [] (PParams.new a plat) := by
  cases a <;> exact ⟨rfl, rfl, rfl, by decide, by decide, by decide⟩

variable {n : Nat} {key : List Byte} {p : PParams a}

theorem PRep.hash_toNat (h : PRep a n key p) : p.hashLength.toNat = n := by
  have := h.le; rw [maxOut_eq] at this
  have h2 := outbytes_lt a
  rw [h.hashLength, BitVec.toNat_ofNat]; exact Nat.mod_eq_of_lt (by omega)

theorem PRep.key_toNat (h : PRep a n key p) : p.keyLength.toNat = key.length := by
  have := h.keyLe; rw [maxOut_eq] at this
  have h2 := outbytes_lt a
  rw [h.keyLength, BitVec.toNat_ofNat]; exact Nat.mod_eq_of_lt (by omega)

theorem PRep.keySlice (h : PRep a n key p) : sliceTo p.key p.keyLength.toNat = .ok key := by
  rw [h.key_toNat, h.keyBytes, sliceTo, if_pos (by rw [pad, List.length_append]; omega), pad, List.take_left]

theorem initH_lastNode (c : Config) (b : Bool) : initH a { c with lastNode := b } = initH a c := rfl

/-- `Params::to_words` of the tree variants. -/
theorem PParams.toWords_eq (h : PRep a n key p) :
    p.toWords = .ok (Vector.ofFn fun i => initH a (leafConfig a n key i), initH a (rootConfig a n key)) := by
  have hr1 : (Setter.hashLength p.hashLength.toNat).InRange a := by rw [h.hash_toNat]; exact ⟨h.pos, h.le⟩
  have hr2 : (Setter.key key).InRange a := h.keyLe
  have hr3 : (Setter.innerHashLength a.outbytes).InRange a := by
    show a.outbytes ≤ maxOut a; rw [maxOut_eq]; exact Nat.le_refl _
  obtain ⟨p1, e1, r1, _⟩ := rep_run (rep_new a p.implementation) _ hr1
  obtain ⟨p2, e2, r2, _⟩ := rep_run r1 _ hr2
  obtain ⟨p3, e3, r3, _⟩ := rep_run r2 (.fanout (BitVec.ofNat 8 (parDegree a))) trivial
  obtain ⟨p4, e4, r4, _⟩ := rep_run r3 (.maxDepth 2) trivial
  obtain ⟨p5, e5, r5, _⟩ := rep_run r4 (.maxLeafLength 0) trivial
  obtain ⟨p6, e6, r6, _⟩ := rep_run r5 _ hr3
  have hbase : p.baseParams = .ok p6 := by
    unfold PParams.baseParams
    simp only [Setter.run] at e1 e2 e3 e4 e5 e6
    simp only [bind, Except.bind, h.keySlice, e1, e2, e3, e4, e5, e6]
  have hdeg : (BitVec.ofNat 8 (parDegree a)).toNat = degree a := by cases a <;> rfl
  have hleaf : ∀ i < parDegree a, PParams.leafWordsOf p6 i = .ok (initH a (leafConfig a n key i)) := by
    intro i hi
    have hin : (BitVec.ofNat 64 i).toNat = i := by
      rw [BitVec.toNat_ofNat]; apply Nat.mod_eq_of_lt
      have : parDegree a ≤ 8 := by cases a <;> decide
      omega
    have hr : (Setter.nodeOffset (BitVec.ofNat 64 i)).InRange a := by
      show (BitVec.ofNat 64 i).toNat < _
      rw [hin]
      have : parDegree a ≤ 2 ^ (8 * nodeOffsetBytes a) := by cases a <;> decide
      omega
    obtain ⟨q1, f1, s1, _⟩ := rep_run r6 _ hr
    obtain ⟨q2, f2, s2, _⟩ := rep_run s1 (.nodeDepth 0) trivial
    unfold PParams.leafWordsOf
    simp only [Setter.run] at f1 f2
    simp only [bind, Except.bind, f1, f2, Blake2.toWords_eq s2]
    simp only [Setter.apply, hdeg, hin, h.hash_toNat]
    rw [← initH_lastNode (leafConfig a n key i) false]
    rw [← maxOut_eq]
    rfl
  have hroot : PParams.rootWordsOf p6 = .ok (initH a (rootConfig a n key)) := by
    have hr : (Setter.nodeOffset 0).InRange a := by
      show (0 : BitVec 64).toNat < _
      exact Nat.two_pow_pos _
    obtain ⟨q1, f1, s1, _⟩ := rep_run r6 _ hr
    obtain ⟨q2, f2, s2, _⟩ := rep_run s1 (.nodeDepth 1) trivial
    unfold PParams.rootWordsOf
    simp only [Setter.run] at f1 f2
    simp only [bind, Except.bind, f1, f2, Blake2.toWords_eq s2]
    simp only [Setter.apply, hdeg, h.hash_toNat]
    rw [← initH_lastNode (rootConfig a n key) false]
    rw [← maxOut_eq]
    rfl
  unfold PParams.toWords
  simp only [hbase, bind, Except.bind, hroot]
  rw [vector_mapM_ok _ (fun i : Fin (parDegree a) => initH a (leafConfig a n key i)) _ (fun i _ => hleaf i.val i.isLt)]
  simp only
  congr 2
  apply Vector.ext
  intro i hi
  simp

/-- The stripe of key blocks that precedes the message. -/
def keyStripe (a : Alg) (key : List Byte) : List Byte :=
  if key = [] then [] else (List.replicate (parDegree a) (pad a.bb key)).flatten

theorem key_le_bb (hk : key.length ≤ maxOut a) : key.length ≤ a.bb := by
  rw [maxOut_eq] at hk
  exact Nat.le_trans hk (outbytes_le_bb a)

theorem flatten_replicate_length (m : Nat) (x : List Byte) : (List.replicate m x).flatten.length = m * x.length := by
  rw [List.length_flatten, List.map_replicate, List.sum_replicate_nat]

theorem keyStripe_length (hk : key.length ≤ maxOut a) :
    (keyStripe a key).length = if key = [] then 0 else stripe a := by
  unfold keyStripe
  split
  · rfl
  · rw [flatten_replicate_length, pad_length _ _ (key_le_bb hk), stripe]

theorem drop_flatten_replicate (m i : Nat) (x : List Byte) :
    (List.replicate m x).flatten.drop (i * x.length) = (List.replicate (m - i) x).flatten := by
  induction i generalizing m with
  | zero => simp
  | succ i ih =>
    cases m with
    | zero => simp
    | succ m =>
      rw [List.replicate_succ, List.flatten_cons, Nat.add_mul, Nat.one_mul, Nat.add_comm, ← List.drop_drop, List.drop_left, ih]
      congr 2; omega

/-- A leaf's data is the key block followed by its part of the message. -/
theorem leaf_keyed (hk : key.length ≤ maxOut a) {i : Nat} (hi : i < parDegree a) (msg : List Byte) :
    leaf a i (keyStripe a key ++ msg) = keyedData a key (leafMsg a msg i) := by
  rw [leafMsg_eq_leaf hi, keyedData_eq]
  have hl := keyStripe_length (a := a) hk
  have hpl := pad_length a.bb key (key_le_bb hk)
  unfold keyStripe keyPart at *
  by_cases he : key = []
  · simp [he]
  · simp only [he, if_false] at hl ⊢
    have ho := off_le hi
    unfold leaf
    rw [gather_unfold, List.drop_drop]
    congr 1
    · rw [List.drop_append_of_le_length (by omega)]
      have := drop_flatten_replicate (parDegree a) i (pad a.bb key)
      rw [hpl] at this
      rw [this]
      obtain ⟨m, hm⟩ : ∃ m, parDegree a - i = m + 1 := ⟨parDegree a - i - 1, by omega⟩
      rw [hm, List.replicate_succ, List.flatten_cons, List.append_assoc, List.take_left' hpl]
    · rw [Nat.add_comm, ← List.drop_drop, List.drop_left' hl]

/-- The loop that writes the key blocks into the buffer. -/
theorem keyLoop_eq (h : PRep a n key p) :
    ∀ m ≤ 2 * parDegree a, (List.range m).foldlM (init := (List.replicate (2 * parDegree a * a.bb) (0 : Byte), 0))
      (fun (st : List Byte × Nat) i => do
        let keybytes ← sliceTo p.key p.keyLength.toNat
        let buf ← copyAt st.1 (i * a.bb) keybytes
        .ok (buf, a.bb * parDegree a) : _ → _ → Res (List Byte × Nat)) =
    .ok ((List.replicate m (pad a.bb key)).flatten ++ List.replicate ((2 * parDegree a - m) * a.bb) 0,
      if m = 0 then 0 else a.bb * parDegree a) := by
  intro m
  have hkb := key_le_bb h.keyLe
  have hpl := pad_length a.bb key hkb
  induction m with
  | zero => intro _; simp; rfl
  | succ m ih =>
    intro hm
    rw [List.range_succ, List.foldlM_append, ih (by omega)]
    simp only [bind, Except.bind, List.foldlM_cons, List.foldlM_nil, h.keySlice, copyAt]
    have hfl : ((List.replicate m (pad a.bb key)).flatten).length = m * a.bb := by rw [flatten_replicate_length, hpl]
    have hrl : (2 * parDegree a - m) * a.bb = a.bb + (2 * parDegree a - (m + 1)) * a.bb := by
      have : 2 * parDegree a - m = (2 * parDegree a - (m + 1)) + 1 := by omega
      rw [this, Nat.add_mul, Nat.one_mul, Nat.add_comm]
    have htot : ((List.replicate m (pad a.bb key)).flatten ++ List.replicate ((2 * parDegree a - m) * a.bb) (0 : Byte)).length
        = m * a.bb + (a.bb + (2 * parDegree a - (m + 1)) * a.bb) := by
      rw [List.length_append, hfl, List.length_replicate, hrl]
    rw [if_pos (by rw [htot]; omega), copyRange, if_pos ⟨by omega, by rw [htot]; omega, by omega⟩]
    simp only [pure, Except.pure]
    rw [if_neg (by omega)]
    congr 2
    rw [List.take_left' hfl, List.drop_append, List.drop_eq_nil_of_le (by omega), List.nil_append, hfl, Nat.add_sub_cancel_left,
      hrl, List.drop_replicate, List.replicate_succ', List.flatten_append, List.append_assoc, List.append_assoc]
    congr 1
    rw [List.flatten_cons, List.flatten_nil, List.append_nil, pad, List.append_assoc, List.replicate_append_replicate]
    congr 2; omega

/-- The initial state of the tree variants. -/
theorem PState.withParams_inv (h : PRep a n key p) :
    ∃ s, PState.withParams p = .ok s ∧
      PState.Inv (fun i => initH a (leafConfig a n key i)) (keyStripe a key) 0 s ∧
      s.rootWords = initH a (rootConfig a n key) ∧ s.hashLength = p.hashLength ∧ s.implementation = p.implementation ∧
      s.isKeyed = decide (key ≠ []) := by
  have hk := h.key_toNat
  have hst := stripe_lt a
  have hsl := keyStripe_length (a := a) h.keyLe
  have e2 : 2 * parDegree a * a.bb = 2 * stripe a := Nat.mul_assoc ..
  unfold PState.withParams
  simp only [PParams.toWords_eq h, bind, Except.bind]
  by_cases he : key = []
  · have hz : p.keyLength.toNat = 0 := by rw [hk, he]; rfl
    simp only [hz, gt_iff_lt, Nat.lt_irrefl, if_false, decide_false]
    refine ⟨_, rfl, ⟨?_, by simp, by simp, ?_, by simp, .inl rfl, by simp [e2], ?_⟩, rfl, rfl, rfl, by simp [he]⟩
    · intro i; simp [chain_zero]
    · rw [hsl, if_pos he]; simp
    · simp [keyStripe, he]
  · have hpos : p.keyLength.toNat > 0 := by rw [hk]; exact List.length_pos_iff.2 he
    have hloop := keyLoop_eq h (parDegree a) (by omega)
    simp only [bind, Except.bind] at hloop
    rw [if_pos hpos, hloop]
    have hks : (List.replicate (parDegree a) (pad a.bb key)).flatten = keyStripe a key := by rw [keyStripe, if_neg he]
    rw [if_neg he] at hsl
    have e3 : (2 * parDegree a - parDegree a) * a.bb = stripe a := by
      show _ = parDegree a * a.bb
      congr 1; omega
    have e4 : a.bb * parDegree a % 65536 = stripe a := by
      rw [Nat.mul_comm]; exact Nat.mod_eq_of_lt (show stripe a < 65536 by omega)
    have hdne : parDegree a ≠ 0 := Nat.ne_of_gt (deg_pos a)
    simp only [hks, e3, hdne, if_false, e4, hpos, decide_true]
    refine ⟨_, rfl, ⟨?_, by simp, by simp, ?_, ?_, .inl rfl, ?_, ?_⟩, rfl, rfl, rfl, by simp [he]⟩
    · intro i; simp [chain_zero]
    · simp only [hsl]; omega
    · simp only; omega
    · simp only [List.length_append, hsl, List.length_replicate]; omega
    · simp only [Nat.zero_mul, List.drop_zero]
      exact List.take_left' hsl

theorem range_eq_map_finRange (n : Nat) : List.range n = (List.finRange n).map Fin.val := by
  apply List.ext_getElem <;> simp

theorem ofFn_eq_map_finRange {α : Type} {n : Nat} (f : Fin n → α) : List.ofFn f = (List.finRange n).map f := by
  apply List.ext_getElem <;> simp

/-- The untruncated output of the tree. -/
def treeFull (a : Alg) (n : Nat) (key msg : List Byte) : List Byte :=
  wordsToBytes a (process a (initH a (rootConfig a n key))
    ((List.range (degree a)).flatMap fun i => hashFull a (leafConfig a n key i) (leafMsg a msg i)) true)

theorem treeFull_length (msg : List Byte) : (treeFull a n key msg).length = a.outbytes := wordsToBytes_length _
theorem treeFull_take (msg : List Byte) : (treeFull a n key msg).take n = Spec.hashP a n key msg := rfl

/-- The outputs of the leaves, concatenated. -/
theorem leaves_flatMap (hk : key.length ≤ maxOut a) (msg : List Byte) :
    (Vector.ofFn fun i : Fin (parDegree a) => process a (initH a (leafConfig a n key i)) (leaf a i (keyStripe a key ++ msg))
        (decide (i.val = parDegree a - 1))).toList.flatMap (wordsToBytes a) =
      (List.range (degree a)).flatMap fun i => hashFull a (leafConfig a n key i) (leafMsg a msg i) := by
  rw [Vector.toList_ofFn, degree_eq, range_eq_map_finRange, List.flatMap_map, ofFn_eq_map_finRange, List.flatMap_map]
  refine congrArg (fun f => List.flatMap f (List.finRange (parDegree a))) (funext fun i => ?_)
  have hc1 : (leafConfig a n key i.val).lastNode = decide (i.val = parDegree a - 1) := by rw [leafConfig, degree_eq]
  have hc2 : (leafConfig a n key i.val).key = key := rfl
  rw [leaf_keyed hk i.isLt, hashFull, hc1, hc2]

/-- The digest of a state of the tree variants. -/
theorem PState.finalize_inv {k : Nat} {s : PState a} (hk : key.length ≤ maxOut a) (msg : List Byte)
    (h : PState.Inv (fun i => initH a (leafConfig a n key i)) (keyStripe a key ++ msg) k s)
    (hr : s.rootWords = initH a (rootConfig a n key)) :
    s.finalize = .ok { bytes := treeFull a n key msg, len := s.hashLength } := by
  unfold PState.finalize treeFull
  rw [PState.finalizeLeaves_inv h]
  simp only [bind, Except.bind]
  rw [finalizeRootWords_eq, hr, leaves_flatMap hk]

/-- `blake2bp::Params::hash`. -/
theorem PParams.hash_eq (h : PRep a n key p) (msg : List Byte) :
    p.hash msg = .ok { bytes := treeFull a n key msg, len := p.hashLength } := by
  unfold PParams.hash
  by_cases hp : p.keyLength.toNat > 0
  · rw [if_pos hp]
    obtain ⟨s, e, hi, hr, hh, _, _⟩ := PState.withParams_inv h
    obtain ⟨s', k', e', hi', hm⟩ := PState.update_inv hi msg
    rw [PParams.toState, e]
    simp only [bind, Except.bind, e']
    rw [PState.finalize_inv h.keyLe msg hi' (hm.rootWords.trans hr), hm.hashLength, hh]
  · rw [if_neg hp]
    have he : key = [] := by
      apply List.eq_nil_of_length_eq_zero
      rw [← h.key_toNat]; omega
    rw [PParams.toWords_eq h]
    simp only [bind, Except.bind]
    rw [compressLeaves_eq _ _ _ _ (fun i => (msg.drop (i.val * a.bb), 0, decide (i.val = parDegree a - 1)))]
    · simp only
      rw [finalizeRootWords_eq, treeFull, ← leaves_flatMap h.keyLe]
      have hks : keyStripe a key ++ msg = msg := by rw [keyStripe, if_pos he, List.nil_append]
      rw [hks]
      have : (Vector.ofFn fun i : Fin (parDegree a) => absorb a .Parallel true (decide (i.val = parDegree a - 1))
          (Vector.ofFn fun i : Fin (parDegree a) => initH a (leafConfig a n key i))[i] 0 (msg.drop (i.val * a.bb))) =
          Vector.ofFn fun i : Fin (parDegree a) => process a (initH a (leafConfig a n key i)) (leaf a i msg)
            (decide (i.val = parDegree a - 1)) := by
        refine congrArg Vector.ofFn (funext fun i => ?_)
        have := absorb_leaf_final i.val (initH a (leafConfig a n key i)) msg (decide (i.val = parDegree a - 1)) 0 (.inl rfl)
        simp only [Nat.zero_mul, List.drop_zero, chain_zero] at this
        rw [← this]
        simp only [Fin.getElem_fin, Vector.getElem_ofFn]
        rfl
      rw [this]
    · intro i
      simp only [sliceFrom]
      rw [if_pos (by omega)]
      simp only
      congr 2
      rcases Nat.le_total msg.length (i.val * a.bb) with h1 | h1
      · rw [Nat.min_eq_left h1, List.drop_length, List.drop_eq_nil_of_le h1]
      · rw [Nat.min_eq_right h1]
    · intro i; exact .inl rfl
    · intro i; simp

theorem PRep.asBytes (h : PRep a n key p) (msg : List Byte) :
    ({ bytes := treeFull a n key msg, len := p.hashLength } : Hash a).asBytes = .ok (Spec.hashP a n key msg) := by
  have := h.le
  rw [maxOut_eq] at this
  unfold Hash.asBytes sliceTo
  simp only [h.hash_toNat]
  rw [if_pos (by rw [treeFull_length]; exact this), treeFull_take]

end Blake2
