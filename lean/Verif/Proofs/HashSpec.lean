import Verif.Proofs.ParamsRep
/-! # One-shot and incremental hashing agree with the specification -/
namespace Blake2
open Spec

variable {a : Alg}

theorem stateWordsToBytes_eq (w : Vector (Word a) 8) : stateWordsToBytes a w = wordsToBytes a w := by
  rw [wordsToBytes, vec8_eta w]
  simp [stateWordsToBytes, toLE_eq]

theorem wordsToBytes_length (w : Vector (Word a) 8) : (wordsToBytes a w).length = a.outbytes := by
  rw [← stateWordsToBytes_eq]
  simp [stateWordsToBytes, Alg.outbytes]; omega

theorem outbytes_lt (a : Alg) : a.outbytes < 256 := by cases a <;> decide
theorem outbytes_le_bb (a : Alg) : a.outbytes ≤ a.bb := by cases a <;> decide

theorem Rep.digest_toNat {c : Config} {p : Params a} (h : Rep a c p) : p.hashLength.toNat = c.digestLength := by
  have := h.valid.2.1
  rw [maxOut_eq] at this
  have h2 := outbytes_lt a
  rw [h.hashLength, BitVec.toNat_ofNat]; exact Nat.mod_eq_of_lt (by omega)

theorem Rep.key_toNat {c : Config} {p : Params a} (h : Rep a c p) : p.keyLength.toNat = c.key.length := by
  have := h.valid.2.2.1
  rw [maxOut_eq] at this
  have h2 := outbytes_lt a
  rw [h.keyLength, BitVec.toNat_ofNat]; exact Nat.mod_eq_of_lt (by omega)

theorem Rep.key_le {c : Config} {p : Params a} (h : Rep a c p) : c.key.length ≤ a.bb := by
  have := h.valid.2.2.1
  rw [maxOut_eq] at this
  have := outbytes_le_bb a
  omega

/-- What precedes the message: the padded key, if any. -/
def keyPart (a : Alg) (key : List Byte) : List Byte := if key = [] then [] else pad a.bb key

theorem keyedData_eq (key msg : List Byte) : keyedData a key msg = keyPart a key ++ msg := by
  rw [keyedData, keyPart, bb_eq]

theorem keyPart_length {c : Config} {p : Params a} (h : Rep a c p) :
    (keyPart a c.key).length = if c.key = [] then 0 else a.bb := by
  unfold keyPart
  split
  · rfl
  · exact pad_length _ _ h.key_le

/-- The initial state. -/
theorem withParams_inv {c : Config} {p : Params a} (h : Rep a c p) :
    State.Inv (initH a c) (keyPart a c.key) 0 (State.withParams p) ∧
    (State.withParams p).lastNode = c.lastNode ∧ (State.withParams p).hashLength = p.hashLength ∧
    (State.withParams p).implementation = p.implementation ∧
    (State.withParams p).isKeyed = decide (c.key ≠ []) := by
  have hk := h.key_toNat
  have hb := State.bb_lt256 a
  by_cases he : c.key = []
  · have hz : p.keyLength.toNat = 0 := by rw [hk, he]; rfl
    unfold State.withParams
    simp only [hz, keyPart, he, Nat.lt_irrefl, gt_iff_lt, decide_false, Bool.false_eq_true, if_false, if_true, ne_eq,
      not_true]
    refine ⟨⟨?_, by simp, by simp, by simp, by simp, .inl rfl, by simp, by simp⟩, h.lastNode, trivial, trivial, trivial⟩
    rw [chain_zero]; exact toWords_eq h
  · have hpos : 0 < p.keyLength.toNat := by rw [hk]; exact List.length_pos_iff.2 he
    have hlen : (pad a.bb c.key).length = a.bb := pad_length _ _ h.key_le
    unfold State.withParams
    simp only [hpos, keyPart, he, gt_iff_lt, decide_true, if_true, if_false, ne_eq, not_false_eq_true]
    refine ⟨⟨?_, by simp, by simp, ?_, ?_, .inl rfl, ?_, ?_⟩, h.lastNode, trivial, trivial, trivial⟩
    · rw [chain_zero]; exact toWords_eq h
    · rw [h.keyBlock, hlen]; simp [Nat.mod_eq_of_lt hb]
    · rw [h.keyBlock, hlen, Nat.mod_eq_of_lt hb]; exact Nat.le_refl _
    · rw [h.keyBlock, hlen]
    · simp only [h.keyBlock, hlen, Nat.mod_eq_of_lt hb, Nat.zero_mul, List.drop_zero]
      exact List.take_of_length_le (by omega)

/-- `Params::hash`. -/
theorem hash_eq {c : Config} {p : Params a} (h : Rep a c p) (msg : List Byte) :
    p.hash msg = .ok { bytes := hashFull a c msg, len := p.hashLength } := by
  unfold Params.hash hashFull
  rw [keyedData_eq]
  by_cases hp : p.keyLength.toNat > 0
  · rw [if_pos hp]
    obtain ⟨hi, hl, hh, _, _⟩ := withParams_inv h
    obtain ⟨k', hk'⟩ := State.upd_inv hi msg
    have hm := State.upd_meta (State.withParams p) msg
    rw [Params.toState, State.update_eq _ _ hi.sane]
    simp only [bind, Except.bind]
    rw [State.finalize_inv hk', hm.lastNode, hm.hashLength, hl, hh, stateWordsToBytes_eq]
  · rw [if_neg hp, compress1_eq _ _ _ _ _ _ _ _ (.inl rfl)]
    have he : c.key = [] := by
      apply List.eq_nil_of_length_eq_zero
      rw [← h.key_toNat]; omega
    have := absorb_final (initH a c) msg c.lastNode _ 0 (Nat.le_refl _) (.inl rfl)
    simp only [Nat.zero_mul, List.drop_zero, chain_zero] at this
    have e0 : (BitVec.ofNat (2 * a.w) 0) = 0 := rfl
    rw [e0] at this
    simp only [bind, Except.bind, keyPart, he, if_true, List.nil_append, ← this, stateWordsToBytes_eq, toWords_eq h, h.lastNode]

theorem asBytes_full {c : Config} {p : Params a} (h : Rep a c p) (msg : List Byte) :
    ({ bytes := hashFull a c msg, len := p.hashLength } : Hash a).asBytes = .ok (Spec.hash a c msg) := by
  have := h.valid.2.1
  rw [maxOut_eq] at this
  unfold Hash.asBytes sliceTo
  simp only [h.digest_toNat]
  rw [if_pos (by rw [hashFull, wordsToBytes_length]; exact this), Spec.hash]

end Blake2
