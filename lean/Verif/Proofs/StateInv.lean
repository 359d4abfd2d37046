import Verif.Proofs.Chain
import Verif.Model.Lib
/-! # The incremental hasher: what every state reachable by `update` satisfies -/
namespace Blake2
namespace State

variable {a : Alg}

theorem bb_lt256 (a : Alg) : a.bb < 256 := by cases a <;> decide

/-- The shape of a state: what the panics depend on. -/
structure Sane (s : State a) : Prop where
  buflen : s.buflen ≤ a.bb
  buf : s.buf.length = a.bb
  count : s.count.toNat % a.bb = 0

/-- The fields no update changes. -/
structure SameMeta (s s' : State a) : Prop where
  lastNode : s'.lastNode = s.lastNode
  hashLength : s'.hashLength = s.hashLength
  implementation : s'.implementation = s.implementation
  isKeyed : s'.isKeyed = s.isKeyed

theorem SameMeta.refl (s : State a) : SameMeta s s := ⟨rfl, rfl, rfl, rfl⟩
theorem SameMeta.trans {s t u : State a} (h : SameMeta s t) (h' : SameMeta t u) : SameMeta s u :=
  ⟨h'.1.trans h.1, h'.2.trans h.2, h'.3.trans h.3, h'.4.trans h.4⟩

/-- `fill_buf`, in closed form. -/
def filled (s : State a) (x : List Byte) : State a :=
  { s with
    buf := s.buf.take s.buflen ++ x.take (min (a.bb - s.buflen) x.length) ++
      s.buf.drop (s.buflen + min (a.bb - s.buflen) x.length)
    buflen := s.buflen + min (a.bb - s.buflen) x.length }

theorem fillBuf_eq (s : State a) (x : List Byte) (h : s.Sane) :
    fillBuf s x = .ok (filled s x, x.drop (min (a.bb - s.buflen) x.length)) := by
  have h1 := h.buflen
  have h2 := h.buf
  have hb := bb_lt256 a
  unfold fillBuf
  simp only [checkedSub, if_pos h1, bind, Except.bind, sliceTo, sliceFrom, if_pos (Nat.min_le_right _ _)]
  have hlt : min (a.bb - s.buflen) x.length < 256 := by omega
  rw [copyRange, if_pos ⟨by omega, by omega, by simp⟩]
  simp only [Nat.mod_eq_of_lt hlt, addU8]
  rw [if_pos (by omega)]
  rfl

theorem filled_sane {s : State a} (x : List Byte) (h : s.Sane) : (filled s x).Sane := by
  have h1 := h.buflen
  have h2 := h.buf
  refine ⟨?_, ?_, h.count⟩
  · simp only [filled]; omega
  · simp only [filled, List.length_append, List.length_take, List.length_drop]; omega

/-- `compress_buffer_if_possible`, in closed form. -/
def cbp (s : State a) (x : List Byte) : State a × List Byte :=
  if s.buflen > 0 then
    let t := min (a.bb - s.buflen) x.length
    let s1 := filled s x
    if x.drop t = [] then (s1, [])
    else ({ s1 with words := absorb a .Serial false s.lastNode s.words s.count s1.buf,
                    count := s.count + BitVec.ofNat (2 * a.w) a.bb, buflen := 0 }, x.drop t)
  else (s, x)

theorem compressBufferIfPossible_eq (s : State a) (x : List Byte) (h : s.Sane) :
    compressBufferIfPossible s x = .ok (cbp s x) := by
  unfold compressBufferIfPossible cbp
  by_cases hp : s.buflen > 0
  · rw [if_pos hp, if_pos hp, fillBuf_eq s x h]
    simp only [bind, Except.bind]
    by_cases he : x.drop (min (a.bb - s.buflen) x.length) = []
    · rw [if_pos he]
      simp [he]
    · rw [if_neg he]
      have hne : (x.drop (min (a.bb - s.buflen) x.length)).isEmpty = false := by simpa using he
      simp only [hne, Bool.not_false, ↓reduceIte]
      have hb := (filled_sane x h).buf
      rw [compress1_eq _ _ _ _ _ _ _ _ (.inr ⟨by
        intro h0; rw [h0] at hb; have := bb_pos a; simp at hb; omega, by rw [hb]; exact Nat.mod_self _⟩)]
      rfl
  · rw [if_neg hp, if_neg hp]

theorem cbp_sane {s : State a} (x : List Byte) (h : s.Sane) :
    (cbp s x).1.Sane ∧ ((cbp s x).2 ≠ [] → (cbp s x).1.buflen = 0) := by
  unfold cbp
  by_cases hp : s.buflen > 0
  · rw [if_pos hp]
    simp only
    by_cases he : x.drop (min (a.bb - s.buflen) x.length) = []
    · rw [if_pos he]; exact ⟨filled_sane x h, by simp⟩
    · rw [if_neg he]
      refine ⟨⟨Nat.zero_le _, (filled_sane x h).buf, ?_⟩, fun _ => rfl⟩
      have hdvd : a.bb ∣ 2 ^ (2 * a.w) := Nat.dvd_trans (bb_dvd a) (Nat.pow_dvd_pow _ (by omega))
      have hc := h.count
      simp only [BitVec.toNat_add, BitVec.toNat_ofNat]
      rw [Nat.mod_mod_of_dvd _ hdvd, Nat.add_mod, hc, Nat.mod_mod_of_dvd _ hdvd, Nat.mod_self]
      simp
  · rw [if_neg hp]; exact ⟨h, fun _ => Nat.eq_zero_of_not_pos hp⟩

theorem cbp_meta (s : State a) (x : List Byte) : SameMeta s (cbp s x).1 := by
  unfold cbp
  split
  · simp only
    split <;> exact ⟨rfl, rfl, rfl, rfl⟩
  · exact .refl s

/-- Number of bytes compressed directly from the input. -/
def bulk (a : Alg) (x : List Byte) : Nat := (x.length - 1) / a.bb * a.bb

theorem bulk_spec (x : List Byte) (h : x ≠ []) : bulk a x < x.length ∧ x.length ≤ bulk a x + a.bb ∧
    (x.length - 1 - (x.length - 1) % a.bb) = bulk a x ∧ bulk a x % a.bb = 0 := by
  have hl := List.length_pos_iff.2 h
  have hb := bb_pos a
  have h1 := Nat.div_add_mod (x.length - 1) a.bb
  have h2 := Nat.mod_lt (x.length - 1) hb
  rw [Nat.mul_comm] at h1
  unfold bulk
  refine ⟨by omega, by omega, by omega, Nat.mul_mod_left _ _⟩

/-- The rest of an update, once the buffer is empty, in closed form. -/
def tail (s : State a) (x : List Byte) : State a :=
  { s with
    words := if 0 < bulk a x then absorb a .Serial false s.lastNode s.words s.count (x.take (bulk a x)) else s.words
    count := s.count + BitVec.ofNat (2 * a.w) (bulk a x)
    buf := x.drop (bulk a x) ++ s.buf.drop (x.length - bulk a x)
    buflen := x.length - bulk a x }

/-- `update`, in closed form. -/
def upd (s : State a) (x : List Byte) : State a :=
  if (cbp s x).2 = [] then (cbp s x).1 else tail (cbp s x).1 (cbp s x).2

theorem update_eq (s : State a) (x : List Byte) (h : s.Sane) : update s x = .ok (upd s x) := by
  obtain ⟨h1, h2⟩ := cbp_sane x h
  unfold update upd
  rw [compressBufferIfPossible_eq s x h]
  simp only [bind, Except.bind]
  generalize cbp s x = p at *
  obtain ⟨s1, x1⟩ := p
  simp only at *
  by_cases he : x1 = []
  · subst he
    rw [if_pos rfl]
    simp only [List.length_nil, Nat.zero_sub, Nat.zero_mod, Nat.sub_self, Nat.lt_irrefl, gt_iff_lt, if_false]
    rw [fillBuf_eq s1 [] h1]
    simp [filled]
  · rw [if_neg he]
    obtain ⟨b1, b2, b3, b4⟩ := bulk_spec (a := a) x1 he
    have hz := h2 he
    rw [b3]
    by_cases hpos : 0 < bulk a x1
    · have hok : InputOk a false (x1.take (bulk a x1)) := .inr ⟨by
        intro h0; have := congrArg List.length h0; rw [List.length_take, List.length_nil] at this; omega, by
        rw [List.length_take, Nat.min_eq_left (Nat.le_of_lt b1)]; exact b4⟩
      simp only [gt_iff_lt, hpos, if_true, sliceTo, sliceFrom, if_pos (Nat.le_of_lt b1),
        compress1_eq _ _ _ _ _ _ _ _ hok]
      obtain ⟨s2, hs2⟩ : ∃ s2 : State a, s2 = { s1 with
          words := absorb a .Serial false s1.lastNode s1.words s1.count (x1.take (bulk a x1)),
          count := s1.count + BitVec.ofNat (2 * a.w) (bulk a x1) } := ⟨_, rfl⟩
      have hsane : s2.Sane := by
        refine ⟨by rw [hs2]; exact h1.buflen, by rw [hs2]; exact h1.buf, ?_⟩
        have hdvd : a.bb ∣ 2 ^ (2 * a.w) := Nat.dvd_trans (bb_dvd a) (Nat.pow_dvd_pow _ (by omega))
        simp only [hs2, BitVec.toNat_add, BitVec.toNat_ofNat]
        rw [Nat.mod_mod_of_dvd _ hdvd, Nat.add_mod, h1.count, Nat.mod_mod_of_dvd _ hdvd, b4]
        simp
      rw [← hs2, fillBuf_eq _ _ hsane]
      · subst hs2
        have hmin : min (a.bb - 0) (x1.drop (bulk a x1)).length = x1.length - bulk a x1 := by
          rw [List.length_drop]; omega
        simp only [filled, tail, hz, hmin, List.take_zero, List.nil_append, Nat.zero_add, hpos, if_true]
        rw [List.take_of_length_le (l := x1.drop (bulk a x1)) (by rw [List.length_drop]; omega)]
    · have h0 : bulk a x1 = 0 := by omega
      simp only [gt_iff_lt, hpos, if_false]
      rw [fillBuf_eq _ _ h1]
      have hmin : min a.bb x1.length = x1.length := by omega
      simp [filled, tail, hmin, hz, h0]

theorem upd_sane {s : State a} (x : List Byte) (h : s.Sane) : (upd s x).Sane := by
  obtain ⟨h1, h2⟩ := cbp_sane x h
  unfold upd
  generalize cbp s x = p at *
  obtain ⟨s1, x1⟩ := p
  simp only at *
  by_cases he : x1 = []
  · rw [if_pos he]; exact h1
  · rw [if_neg he]
    obtain ⟨b1, b2, b3, b4⟩ := bulk_spec (a := a) x1 he
    have hb := h1.buf
    refine ⟨?_, ?_, ?_⟩
    · simp only [tail]; omega
    · simp only [tail, List.length_append, List.length_drop, hb]; omega
    · have hdvd : a.bb ∣ 2 ^ (2 * a.w) := Nat.dvd_trans (bb_dvd a) (Nat.pow_dvd_pow _ (by omega))
      simp only [tail, BitVec.toNat_add, BitVec.toNat_ofNat]
      rw [Nat.mod_mod_of_dvd _ hdvd, Nat.add_mod, h1.count, Nat.mod_mod_of_dvd _ hdvd, b4]
      simp

theorem upd_meta (s : State a) (x : List Byte) : SameMeta s (upd s x) := by
  unfold upd
  split
  · exact cbp_meta s x
  · exact (cbp_meta s x).trans ⟨rfl, rfl, rfl, rfl⟩

theorem finalize_eq (s : State a) (h : s.Sane) :
    finalize s = .ok { bytes := stateWordsToBytes a (absorb a .Serial true s.lastNode s.words s.count (s.buf.take s.buflen)),
                       len := s.hashLength } := by
  unfold finalize
  simp only [sliceTo, if_pos (show s.buflen ≤ s.buf.length by rw [h.buf]; exact h.buflen), bind, Except.bind]
  rw [compress1_eq _ _ _ _ _ _ _ _ (.inl rfl)]

/-- The invariant: `D` is everything absorbed (starting with the key block if there is one), `k` blocks of it are
compressed, the rest is in the buffer. -/
structure Inv (h0 : Vector (Word a) 8) (D : List Byte) (k : Nat) (s : State a) : Prop where
  words : s.words = chain a h0 D k
  count : s.count = BitVec.ofNat _ (k * a.bb)
  le : k * a.bb ≤ D.length
  buflen : s.buflen = D.length - k * a.bb
  small : s.buflen ≤ a.bb
  pos : k = 0 ∨ k * a.bb < D.length
  bufLength : s.buf.length = a.bb
  buf : s.buf.take s.buflen = D.drop (k * a.bb)

theorem Inv.sane {h0 : Vector (Word a) 8} {D : List Byte} {k : Nat} {s : State a} (h : Inv h0 D k s) : s.Sane := by
  refine ⟨h.small, h.bufLength, ?_⟩
  have hdvd : a.bb ∣ 2 ^ (2 * a.w) := Nat.dvd_trans (bb_dvd a) (Nat.pow_dvd_pow _ (by omega))
  rw [h.count, BitVec.toNat_ofNat, Nat.mod_mod_of_dvd _ hdvd, Nat.mul_mod_left]

/-- What the state is once the buffer has been compressed: `k` blocks of `D` are compressed, and `x` is the rest. -/
structure Mid (h0 : Vector (Word a) 8) (D : List Byte) (k : Nat) (s : State a) (x : List Byte) : Prop where
  words : s.words = chain a h0 D k
  count : s.count = BitVec.ofNat _ (k * a.bb)
  lt : k * a.bb < D.length
  rest : x = D.drop (k * a.bb)
  bufLength : s.buf.length = a.bb

theorem cbp_inv {h0 : Vector (Word a) 8} {D : List Byte} {k : Nat} {s : State a} (h : Inv h0 D k s) (x : List Byte) :
    ((cbp s x).2 = [] → Inv h0 (D ++ x) k (cbp s x).1) ∧
    ((cbp s x).2 ≠ [] → ∃ k', Mid h0 (D ++ x) k' (cbp s x).1 (cbp s x).2) := by
  have hle := h.le
  have hbl := h.buflen
  have hsm := h.small
  have hbuf := h.bufLength
  unfold cbp
  by_cases hp : s.buflen > 0
  · rw [if_pos hp]
    simp only
    by_cases he : x.drop (min (a.bb - s.buflen) x.length) = []
    · rw [if_pos he]
      refine ⟨fun _ => ?_, fun h => absurd rfl h⟩
      have hxl : min (a.bb - s.buflen) x.length = x.length := by
        have := congrArg List.length he
        rw [List.length_drop, List.length_nil] at this; omega
      have hfl : (filled s x).buflen = s.buflen + x.length := by simp only [filled, hxl]
      have hfb : (filled s x).buf.take (filled s x).buflen = (D ++ x).drop (k * a.bb) := by
        rw [hfl, List.drop_append_of_le_length hle, ← h.buf]
        simp only [filled, hxl, List.take_length]
        apply List.take_left'
        rw [List.length_append, List.length_take]; omega
      refine ⟨?_, h.count, ?_, ?_, ?_, ?_, ?_, hfb⟩
      · show s.words = _
        rw [chain_append _ _ _ _ hle]; exact h.words
      · rw [List.length_append]; omega
      · rw [hfl, List.length_append]; omega
      · rw [hfl]; omega
      · rw [List.length_append]; right; omega
      · exact (filled_sane x h.sane).buf
    · rw [if_neg he]
      refine ⟨fun h => absurd h he, fun _ => ⟨k + 1, ?_⟩⟩
      have hxl : min (a.bb - s.buflen) x.length = a.bb - s.buflen ∧ a.bb - s.buflen < x.length := by
        have := List.length_pos_iff.2 he
        rw [List.length_drop] at this; omega
      have hs : (k + 1) * a.bb = k * a.bb + a.bb := by rw [Nat.add_mul, Nat.one_mul]
      have hfill : (filled s x).buf = ((D ++ x).drop (k * a.bb)).take (1 * a.bb) := by
        rw [Nat.one_mul, List.drop_append_of_le_length hle, ← h.buf]
        simp only [filled, hxl.1]
        rw [List.drop_eq_nil_of_le (by omega), List.append_nil, List.take_append]
        rw [List.take_take, List.length_take, Nat.min_eq_left (show s.buflen ≤ s.buf.length by omega), Nat.min_eq_right hsm]
      constructor
      · show absorb a .Serial false s.lastNode s.words s.count (filled s x).buf = _
        rw [hfill, h.words, h.count, ← chain_append h0 D x k hle]
        apply absorb_nonfinal _ _ _ _ _ Nat.one_pos
        rw [hs, List.length_append]; omega
      · show s.count + _ = _
        rw [h.count, ofNat_mul_succ]
      · rw [hs, List.length_append]; omega
      · simp only
        have e1 : (k * a.bb + a.bb) - D.length = a.bb - s.buflen := by omega
        have e2 : D.drop (k * a.bb + a.bb) = [] := List.drop_eq_nil_of_le (by omega)
        rw [hxl.1, hs, List.drop_append, e1, e2, List.nil_append]
      · exact (filled_sane x h.sane).buf
  · rw [if_neg hp]
    have hk0 : k = 0 := by rcases h.pos with h | h <;> omega
    have hD : D = [] := List.eq_nil_of_length_eq_zero (by subst hk0; omega)
    subst hk0 hD
    refine ⟨fun hx => ?_, fun hx => ⟨0, ?_⟩⟩
    · simp only at hx ⊢; subst hx; exact h
    · refine ⟨by rw [chain_zero]; exact h.words, h.count, ?_, by simp, hbuf⟩
      rw [Nat.zero_mul, List.nil_append]; exact List.length_pos_iff.2 hx

theorem tail_inv {h0 : Vector (Word a) 8} {D : List Byte} {k : Nat} {s : State a} {x : List Byte}
    (h : Mid h0 D k s x) : ∃ k', Inv h0 D k' (tail s x) := by
  have hxl : x.length = D.length - k * a.bb := by rw [h.rest, List.length_drop]
  have hlt := h.lt
  have hx : x ≠ [] := by intro he; rw [he] at hxl; simp at hxl; omega
  obtain ⟨b1, b2, b3, b4⟩ := bulk_spec (a := a) x hx
  have hbk : bulk a x = (x.length - 1) / a.bb * a.bb := rfl
  refine ⟨k + (x.length - 1) / a.bb, ?_⟩
  have hs : (k + (x.length - 1) / a.bb) * a.bb = k * a.bb + bulk a x := by rw [Nat.add_mul, ← hbk]
  constructor
  · show (if 0 < bulk a x then absorb a .Serial false s.lastNode s.words s.count (x.take (bulk a x)) else s.words) = _
    by_cases hp : 0 < bulk a x
    · rw [if_pos hp, h.words, h.count, h.rest]
      have : 0 < (x.length - 1) / a.bb := by
        rcases Nat.eq_zero_or_pos ((x.length - 1) / a.bb) with h0 | h0
        · rw [hbk, h0] at hp; omega
        · exact h0
      rw [← h.rest, hbk]
      have := absorb_nonfinal h0 D s.lastNode _ k this (by rw [hs]; omega)
      rw [← h.rest] at this
      exact this
    · rw [if_neg hp, h.words]
      have : (x.length - 1) / a.bb = 0 := by
        rcases Nat.eq_zero_or_pos ((x.length - 1) / a.bb) with h0 | h0
        · exact h0
        · have := Nat.mul_pos h0 (bb_pos a); omega
      rw [this]; rfl
  · show s.count + _ = _
    rw [h.count, ← BitVec.ofNat_add, hs]
  · rw [hs]; omega
  · show x.length - bulk a x = _
    rw [hs]; omega
  · show x.length - bulk a x ≤ _
    omega
  · rw [hs]; right; omega
  · show (x.drop (bulk a x) ++ s.buf.drop (x.length - bulk a x)).length = _
    rw [List.length_append, List.length_drop, List.length_drop, h.bufLength]; omega
  · show (x.drop (bulk a x) ++ s.buf.drop (x.length - bulk a x)).take (x.length - bulk a x) = _
    rw [List.take_left' (by rw [List.length_drop])]
    conv => lhs; rw [h.rest]
    rw [List.drop_drop, hs, ← h.rest]

theorem upd_inv {h0 : Vector (Word a) 8} {D : List Byte} {k : Nat} {s : State a} (h : Inv h0 D k s) (x : List Byte) :
    ∃ k', Inv h0 (D ++ x) k' (upd s x) := by
  obtain ⟨h1, h2⟩ := cbp_inv h x
  unfold upd
  by_cases he : (cbp s x).2 = []
  · rw [if_pos he]; exact ⟨k, h1 he⟩
  · rw [if_neg he]
    obtain ⟨k', hm⟩ := h2 he
    exact tail_inv hm

theorem finalize_inv {h0 : Vector (Word a) 8} {D : List Byte} {k : Nat} {s : State a} (h : Inv h0 D k s) :
    finalize s = .ok { bytes := stateWordsToBytes a (Spec.process a h0 D s.lastNode), len := s.hashLength } := by
  rw [finalize_eq s h.sane, h.buf, h.words, h.count, absorb_final h0 D s.lastNode _ k (Nat.le_refl _) h.pos]

end State
end Blake2
