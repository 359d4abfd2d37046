import Verif.XofSpec
import Verif.Model.Xof
import Verif.Properties.Hashing
/-!
# BLAKE2X on top of the sequential API: C53
-/
namespace Blake2
open Spec

variable {a : Alg}

theorem xofHashLength_eq (a : Alg) : xofHashLength a = maxOut a := by cases a <;> rfl

theorem xof_combined {i l : Nat} (hi : i < 2 ^ 31) (hl : l < 2 ^ 32) :
    (BitVec.ofNat 64 i ||| BitVec.ofNat 64 l <<< 32).toNat = xofField i l := by
  rw [BitVec.toNat_or, BitVec.toNat_shiftLeft, BitVec.toNat_ofNat, BitVec.toNat_ofNat, Nat.mod_eq_of_lt (a := i) (by omega),
    Nat.mod_eq_of_lt (a := l) (by omega), Nat.shiftLeft_eq, Nat.mod_eq_of_lt (by omega), Nat.or_comm, Nat.mul_comm,
    ← Nat.two_pow_add_eq_or_of_lt (by omega)]
  unfold xofField
  omega

theorem xof_combined_zero {l : Nat} (hl : l < 2 ^ 32) : (BitVec.ofNat 64 l <<< 32).toNat = xofField 0 l := by
  have := xof_combined (i := 0) (by decide) hl
  simpa using this

theorem xofField_lt {i l : Nat} (hi : i < 2 ^ 31) (hl : l < xofRange a) : xofField i l < 2 ^ (8 * nodeOffsetBytes a) := by
  unfold xofField
  cases a
  · change l < 2 ^ 32 at hl; change _ < 2 ^ 64; omega
  · change l < 2 ^ 16 at hl; change _ < 2 ^ 48; omega

theorem xofRange_le (a : Alg) : xofRange a ≤ 2 ^ 32 := by cases a <;> decide

theorem xofH0_eq (plat : Platform) (input key : List Byte) {l : Nat} (hk : key.length ≤ maxOut a) (hl : l < xofRange a) :
    xofH0 a plat input key (BitVec.ofNat 64 l <<< 32) = .ok (xofRoot a key input l) := by
  have hl' := Nat.lt_of_lt_of_le hl (xofRange_le a)
  have hr : ∀ x ∈ [Setter.key key, .hashLength (xofHashLength a), .nodeOffset (BitVec.ofNat 64 l <<< 32)], x.InRange a := by
    intro x hx
    simp only [List.mem_cons, List.not_mem_nil, or_false] at hx
    rcases hx with rfl | rfl | rfl
    · exact hk
    · cases a <;> decide
    · show (BitVec.ofNat 64 l <<< 32).toNat < _
      rw [xof_combined_zero hl']
      exact xofField_lt (by decide) hl
  obtain ⟨p, e⟩ := C03_nonvacuous (a := a) plat _ hr
  obtain ⟨h, e1, _, e2⟩ := C03_params plat _ p e input
  unfold xofH0
  simp only [e, e1, bind, Except.bind]
  rw [e2]
  simp only [configOf, List.foldl_cons, List.foldl_nil, Setter.apply, xof_combined_zero hl']
  cases a <;> rfl

theorem xofB2_eq (plat : Platform) (h0 : List Byte) {i l n : Nat} (hi : i < 2 ^ 31) (hl : l < xofRange a) (h1 : 1 ≤ n)
    (hn : n ≤ maxOut a) :
    xofB2 a plat h0 (BitVec.ofNat 64 i ||| BitVec.ofNat 64 l <<< 32) n = .ok (Spec.hash a (xofConfig a i n l) h0) := by
  have hl' := Nat.lt_of_lt_of_le hl (xofRange_le a)
  have hr : ∀ x ∈ [Setter.hashLength n, .maxLeafLength (BitVec.ofNat 32 (xofHashLength a)), .innerHashLength (xofHashLength a),
      .fanout 0, .maxDepth 0, .nodeOffset (BitVec.ofNat 64 i ||| BitVec.ofNat 64 l <<< 32)], x.InRange a := by
    intro x hx
    simp only [List.mem_cons, List.not_mem_nil, or_false] at hx
    rcases hx with rfl | rfl | rfl | rfl | rfl | rfl
    · exact ⟨h1, hn⟩
    · trivial
    · cases a <;> decide
    · trivial
    · trivial
    · show (BitVec.ofNat 64 i ||| BitVec.ofNat 64 l <<< 32).toNat < _
      rw [xof_combined hi hl']
      exact xofField_lt hi hl
  obtain ⟨p, e⟩ := C03_nonvacuous (a := a) plat _ hr
  obtain ⟨h, e1, _, e2⟩ := C03_params plat _ p e h0
  unfold xofB2
  simp only [e, e1, bind, Except.bind]
  rw [e2]
  simp only [configOf, List.foldl_cons, List.foldl_nil, Setter.apply, xof_combined hi hl']
  cases a <;> rfl

theorem xof_block_length {c : Config} (hc : c.digestLength ≤ maxOut a) (msg : List Byte) :
    (Spec.hash a c msg).length = c.digestLength := by
  rw [Spec.hash, List.length_take, hashFull, wordsToBytes_length]
  rw [maxOut_eq] at hc
  exact Nat.min_eq_left hc

theorem xofLoop_eq (plat : Platform) (h0 : List Byte) {l : Nat} (hl : l < xofRange a) : ∀ (k fuel i : Nat) (buf : List Byte),
    i + k = (l + maxOut a - 1) / maxOut a → k < fuel → buf.length = min l (i * maxOut a) →
    xofLoop a plat h0 (BitVec.ofNat 64 l <<< 32) l fuel i buf = .ok (buf ++ (List.range' i k).flatMap fun j =>
      Spec.hash a (xofConfig a j (min (maxOut a) (l - j * maxOut a)) l) h0) := by
  have hv : 16 ≤ maxOut a := by cases a <;> decide
  have hl' := Nat.lt_of_lt_of_le hl (xofRange_le a)
  intro k
  induction k with
  | zero =>
    intro fuel i buf hi hf hb
    obtain ⟨fuel, rfl⟩ : ∃ f, fuel = f + 1 := ⟨fuel - 1, by omega⟩
    have : l ≤ i * maxOut a := by
      rw [Nat.add_zero] at hi
      have := Nat.lt_div_mul_add (a := l + maxOut a - 1) (b := maxOut a) (by omega)
      rw [← hi] at this
      omega
    rw [xofLoop, if_neg (by omega)]
    simp
  | succ k ih =>
    intro fuel i buf hi hf hb
    obtain ⟨fuel, rfl⟩ : ∃ f, fuel = f + 1 := ⟨fuel - 1, by omega⟩
    have hlt : i * maxOut a < l := by
      have h1 : i + 1 ≤ (l + maxOut a - 1) / maxOut a := by omega
      have h2 := (Nat.le_div_iff_mul_le (by omega)).1 h1
      rw [Nat.add_mul, Nat.one_mul] at h2
      omega
    have hb' : buf.length = i * maxOut a := by omega
    have hi31 : i + 1 < 2 ^ 31 := by
      have : i * 16 ≤ i * maxOut a := Nat.mul_le_mul_left _ hv
      omega
    have hlen : (if l - buf.length < xofHashLength a ∧ l % xofHashLength a ≠ 0 then l % xofHashLength a else xofHashLength a) =
        min (maxOut a) (l - i * maxOut a) := by
      rw [xofHashLength_eq, hb']
      have hm : l % maxOut a = (l - i * maxOut a) % maxOut a := by
        conv => lhs; rw [show l = (l - i * maxOut a) + maxOut a * i by rw [Nat.mul_comm (maxOut a)]; omega]
        rw [Nat.add_mul_mod_self_left]
      by_cases hs : l - i * maxOut a < maxOut a
      · rw [hm, Nat.mod_eq_of_lt hs, if_pos ⟨hs, by omega⟩]; omega
      · rw [if_neg (fun h => hs h.1)]; omega
    rw [xofLoop, if_pos (by omega)]
    simp only
    rw [hlen, xofB2_eq plat h0 (by omega) hl (by omega) (by omega)]
    simp only [bind, Except.bind]
    rw [if_pos hi31, ih fuel (i + 1) _ (by omega) (by omega), List.range'_succ, List.flatMap_cons, List.append_assoc]
    rw [List.length_append, hb', xof_block_length (by show min _ _ ≤ _; omega)]
    show i * maxOut a + min (maxOut a) (l - i * maxOut a) = _
    rw [Nat.add_mul, Nat.one_mul]
    omega

theorem xof_length {key msg : List Byte} {l : Nat} : (Spec.xof a key msg l).length = l := by
  have hv : 0 < maxOut a := by cases a <;> decide
  have key : ∀ n, ((List.range n).flatMap fun i =>
      Spec.hash a (xofConfig a i (min (maxOut a) (l - i * maxOut a)) l) (xofRoot a key msg l)).length = min l (n * maxOut a) := by
    intro n
    induction n with
    | zero => simp
    | succ n ih =>
      rw [List.range_succ, List.flatMap_append, List.length_append, ih, List.flatMap_singleton,
        xof_block_length (by show min _ _ ≤ _; omega), Nat.add_mul, Nat.one_mul]
      show _ + min _ _ = _
      omega
  unfold Spec.xof
  rw [key]
  have := Nat.lt_div_mul_add (a := l + maxOut a - 1) (b := maxOut a) hv
  omega

/-- C53. The tests' implementation of BLAKE2X on top of `Params` computes BLAKE2X: for every input, every key that fits and every
output length the parameter block can hold, on every platform. -/
theorem C53_blake2x (plat : Platform) (input key : List Byte) (hk : key.length ≤ maxOut a) (l : Nat) (hl : l < xofRange a) :
    blake2x a plat input key l = .ok (Spec.xof a key input l) ∧ (Spec.xof a key input l).length = l := by
  refine ⟨?_, xof_length⟩
  have hv : 0 < maxOut a := by cases a <;> decide
  have hn : (l + maxOut a - 1) / maxOut a ≤ l := by
    apply Nat.le_of_lt_succ
    apply Nat.div_lt_of_lt_mul
    rw [Nat.succ_eq_add_one, Nat.mul_add, Nat.mul_one]
    have := Nat.le_mul_of_pos_left l hv
    omega
  unfold blake2x
  simp only [xofH0_eq plat input key hk hl, bind, Except.bind]
  rw [xofLoop_eq plat _ hl ((l + maxOut a - 1) / maxOut a) (l + 1) 0 [] (by omega) (by omega) (by simp)]
  simp only [List.nil_append, ← List.range_eq_range']
  show sliceTo (Spec.xof a key input l) l = _
  rw [sliceTo, xof_length, if_pos (Nat.le_refl _), List.take_of_length_le (Nat.le_of_eq xof_length)]

/-- A keyed output of 1000 bytes: fifteen full blocks and one of 40 bytes. -/
example : ∃ out, blake2x .b .AVX2 [1, 2, 3] [4] 1000 = .ok out ∧ out.length = 1000 :=
  let ⟨h1, h2⟩ := C53_blake2x (a := .b) .AVX2 [1, 2, 3] [4] (by decide) 1000 (by decide)
  ⟨_, h1, h2⟩

/-- C53, what has no BLAKE2X output. A key that is too long, or for BLAKE2Xs an output length that does not fit its two-byte field,
panics rather than giving bytes that are not BLAKE2X. (Lengths of 2^32 and more are not representable in either.) -/
theorem C53_out_of_range (plat : Platform) (input key : List Byte) (l : Nat) (hl : l < 2 ^ 32)
    (h : ¬ (key.length ≤ maxOut a ∧ l < xofRange a)) : blake2x a plat input key l = .error .panic := by
  have hb : (Params.new a plat).build [.key key, .hashLength (xofHashLength a), .nodeOffset (BitVec.ofNat 64 l <<< 32)] = .error .panic := by
    refine build_panics _ _ ?_ _ (rep_new a plat)
    by_cases hk : key.length ≤ maxOut a
    · refine ⟨.nodeOffset (BitVec.ofNat 64 l <<< 32), by simp, ?_⟩
      show ¬ (BitVec.ofNat 64 l <<< 32).toNat < _
      rw [xof_combined_zero hl, xofField]
      have hr : ¬ l < xofRange a := fun h' => h ⟨hk, h'⟩
      cases a
      · exact absurd hl hr
      · change ¬ l < 2 ^ 16 at hr
        show ¬ _ < 2 ^ 48
        omega
    · exact ⟨.key key, by simp, hk⟩
  unfold blake2x xofH0
  simp only [hb]
  rfl

example : blake2x .s .SSE41 [1, 2, 3] [] 65536 = .error .panic := C53_out_of_range _ _ _ _ (by decide) (by decide)

end Blake2
