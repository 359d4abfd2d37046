import Verif.Proofs.ManySpec
import Verif.EarlySpec
/-!
# What a job holds before it is run
-/
namespace Blake2
open Spec
variable {a : Alg}

/-- The words of a fresh job that has still to be run. -/
theorem hashManyJob_new_words {c : Config} {p : Params a} (h : Rep a c p) (msg : List Byte) {j : HashManyJob a}
    (hn : HashManyJob.new p msg = .ok j) (hf : j.finished = false) : j.words = startWords a c := by
  have hk := h.key_toNat
  have hlen : (pad a.bb c.key).length = a.bb := pad_length _ _ h.key_le
  have hbp := bb_pos a
  unfold HashManyJob.new at hn
  unfold startWords
  by_cases he : c.key = []
  · have hz : p.keyLength.toNat = 0 := by rw [hk, he]; rfl
    simp only [hz, gt_iff_lt, Nat.lt_irrefl, if_false, bind, Except.bind] at hn
    cases hn
    rw [if_pos he]
    exact toWords_eq h
  · have hpos : 0 < p.keyLength.toNat := by rw [hk]; exact List.length_pos_iff.2 he
    have hkb : p.keyBlock.length = a.bb := by rw [h.keyBlock, hlen]
    by_cases hm : msg = []
    · subst hm
      simp only [hpos, gt_iff_lt, if_true, bind, Except.bind, List.isEmpty_nil] at hn
      rw [compress1_eq _ _ _ _ _ _ _ _ (.inl rfl)] at hn
      cases hn
      cases hf
    · have hmi : msg.isEmpty = false := by simpa using hm
      simp only [hpos, gt_iff_lt, if_true, bind, Except.bind, hmi] at hn
      rw [compress1_eq _ _ _ _ _ _ _ _ (.inr ⟨by intro h0; rw [h0] at hkb; simp at hkb; omega, by rw [hkb]; exact Nat.mod_self _⟩)] at hn
      cases hn
      rw [if_neg he]
      have h1 := absorb_nonfinal (initH a c) (pad a.bb c.key) c.lastNode 1 0 Nat.one_pos (by omega)
      simp only [Nat.zero_mul, List.drop_zero, chain_zero, Nat.one_mul, Nat.zero_add] at h1
      rw [List.take_of_length_le (by omega), chain_succ, chain_zero] at h1
      have hd : dataBlock a (pad a.bb c.key) 0 = pad (bb a) c.key := by
        rw [dataBlock, bb_eq, Nat.zero_mul, List.drop_zero, List.take_of_length_le (by omega), pad, hlen]
        simp
      rw [hd, Nat.zero_add, Nat.one_mul] at h1
      rw [← h1]
      simp only [h.keyBlock, toWords_eq h, h.lastNode]
      rfl

end Blake2
