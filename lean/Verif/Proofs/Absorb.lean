import Verif.Proofs.BAvx2Block
import Verif.Proofs.SSse41Block
import Verif.Model.Impl
/-! # What `compress1_loop` computes: absorbing the input block by block -/
namespace Blake2

theorem bb_pos (a : Alg) : 0 < a.bb := by cases a <;> decide
theorem bb_dvd (a : Alg) : a.bb ∣ 2 ^ a.w := by
  cases a
  · exact ⟨2 ^ 57, rfl⟩
  · exact ⟨2 ^ 26, rfl⟩
theorem bb_lt (a : Alg) : a.bb < 2 ^ a.w := by cases a <;> decide
theorem bb_le_padded (a : Alg) (s : Stride) : a.bb ≤ s.padded a := by cases a <;> cases s <;> decide
theorem padded_pos (a : Alg) (s : Stride) : 0 < s.padded a := Nat.lt_of_lt_of_le (bb_pos a) (bb_le_padded a s)

/-- Absorb `input`, one block per stride, the last one padded with zeros and flagged. -/
def absorb (a : Alg) (s : Stride) (fin ln : Bool) (h : Vector (Word a) 8) (c : Count a) (input : List Byte) :
    Vector (Word a) 8 :=
  if input.length ≤ s.padded a then
    Portable.compressBlock a (Spec.pad a.bb (input.take a.bb)) h (c + BitVec.ofNat _ (min a.bb input.length))
      (flagWord a fin) (flagWord a (fin && ln))
  else
    absorb a s fin ln
      (Portable.compressBlock a (input.take a.bb) h (c + BitVec.ofNat _ a.bb) (flagWord a false) (flagWord a false))
      (c + BitVec.ofNat _ a.bb) (input.drop (s.padded a))
termination_by input.length
decreasing_by
  have := padded_pos a s
  simp only [List.length_drop]; omega

/-- The inputs on which `input_debug_asserts` does not panic. -/
def InputOk (a : Alg) (fin : Bool) (input : List Byte) : Prop :=
  fin = true ∨ (input ≠ [] ∧ input.length % a.bb = 0)

theorem inputDebugAsserts_ok {a : Alg} {fin : Bool} {input : List Byte} (h : InputOk a fin input) :
    inputDebugAsserts a input fin = .ok () := by
  rcases h with h | ⟨h, h'⟩
  · simp [inputDebugAsserts, h]
  · cases fin
    · have : input.isEmpty = false := by cases input <;> simp_all
      simp [inputDebugAsserts, rassert, this, h']; rfl
    · simp [inputDebugAsserts]

theorem finalBlock_eq (a : Alg) (s : Stride) (input : List Byte) (off : Nat) (ho : off ≤ input.length) :
    finalBlock a input off (List.replicate a.bb 0) s =
      .ok (Spec.pad a.bb ((input.drop off).take a.bb), min a.bb (input.length - off),
        decide (input.length - off ≤ s.padded a)) := by
  have hbb := bb_le_padded a s
  unfold finalBlock
  simp only [Nat.min_eq_left ho, sliceFrom, if_pos ho, Except.bind, bind]
  by_cases h : (input.drop off).length ≥ a.bb
  · rw [if_pos h]
    have h' : a.bb ≤ input.length - off := by simpa using h
    simp only [arrayRef, Nat.zero_add, if_pos h, List.drop_zero, Except.bind, bind]
    simp [Spec.pad, List.length_drop, Nat.min_eq_left h']
  · rw [if_neg h]
    have h' : input.length - off < a.bb := by simpa using h
    have h1 : (input.drop off).take a.bb = input.drop off := List.take_of_length_le (by simp; omega)
    have h2 : input.length - off ≤ s.padded a := by omega
    simp only [copyRange]
    rw [if_pos (by simp; omega), h1]
    simp [Spec.pad, Nat.min_eq_right (Nat.le_of_lt h'), h2]

/-- The offset of the last block, as computed by the code: the largest multiple of the stride below the length. -/
theorem finOffset_spec (P n : Nat) (hP : 0 < P) :
    (n - 1 - (n - 1) % P) = (n - 1) / P * P ∧ (n - 1) / P * P ≤ n ∧ n - (n - 1) / P * P ≤ P := by
  have h1 := Nat.div_add_mod (n - 1) P
  have h2 := Nat.mod_lt (n - 1) hP
  rw [Nat.mul_comm] at h1
  refine ⟨by omega, by omega, by omega⟩

theorem compress1Iter_eq (a : Alg) (cb : CompressBlock a) (hcb : cb = Portable.compressBlock a)
    (rd : List Byte → Nat → Nat → Res (List Byte))
    (hrd : ∀ l off n, off + n ≤ l.length → rd l off n = .ok ((l.drop off).take n))
    (s : Stride) (fin ln : Bool) (input : List Byte) (K : Nat) (hK : K = (input.length - 1) / s.padded a)
    (fuel k : Nat) (hk : k ≤ K) (hf : K - k < fuel) (c : Count a) (h : Vector (Word a) 8) :
    compress1Iter a cb rd input (K * s.padded a) (Spec.pad a.bb ((input.drop (K * s.padded a)).take a.bb))
      (min a.bb (input.length - K * s.padded a)) (flagWord a fin) (flagWord a (fin && ln)) s fuel (k * s.padded a) c h =
      .ok (absorb a s fin ln h c (input.drop (k * s.padded a))) := by
  have hP := padded_pos a s
  have hbb := bb_le_padded a s
  have hspec := finOffset_spec (s.padded a) input.length hP
  rw [← hK] at hspec
  induction fuel generalizing k c h with
  | zero => omega
  | succ fuel ih =>
    rw [compress1Iter, absorb]
    by_cases hkK : k = K
    · subst hkK
      have hle : (input.drop (k * s.padded a)).length ≤ s.padded a := by rw [List.length_drop]; omega
      rw [if_pos hle]
      simp only [bind, Except.bind, ↓reduceIte, List.length_drop, hcb]
    · have hlt : k * s.padded a + s.padded a ≤ K * s.padded a := by
        rw [← Nat.succ_mul]; exact Nat.mul_le_mul_right _ (by omega)
      have hne : k * s.padded a ≠ K * s.padded a := by omega
      have hlen : K * s.padded a < input.length := by
        rcases Nat.eq_zero_or_pos input.length with h0 | h0
        · simp [h0] at hK; omega
        · have := Nat.div_mul_le_self (input.length - 1) (s.padded a); rw [← hK] at this; omega
      have hnle : ¬ (input.drop (k * s.padded a)).length ≤ s.padded a := by rw [List.length_drop]; omega
      rw [if_neg hnle]
      simp only [if_neg hne, bind, Except.bind, hrd input (k * s.padded a) a.bb (by omega), hcb]
      rw [addUsize, if_pos (by omega)]
      simp only []
      rw [← Nat.succ_mul, List.drop_drop]
      rw [hcb] at ih
      rw [ih (k + 1) (by omega) (by omega), Nat.add_mul k 1, Nat.one_mul]

theorem compress1Loop_eq (a : Alg) (cb : CompressBlock a) (hcb : cb = Portable.compressBlock a)
    (rd : List Byte → Nat → Nat → Res (List Byte))
    (hrd : ∀ l off n, off + n ≤ l.length → rd l off n = .ok ((l.drop off).take n))
    (input : List Byte) (h : Vector (Word a) 8) (c : Count a) (ln fin : Bool) (s : Stride)
    (hok : InputOk a fin input) :
    compress1Loop a cb rd input h c ln fin s = .ok (absorb a s fin ln h c input) := by
  have hP := padded_pos a s
  have hspec := finOffset_spec (s.padded a) input.length hP
  unfold compress1Loop
  simp only [inputDebugAsserts_ok hok, bind, Except.bind, hspec.1, finalBlock_eq a s input _ hspec.2.1]
  have := compress1Iter_eq a cb hcb rd hrd s fin ln input _ rfl (input.length + 1) 0 (Nat.zero_le _) (by
    have := Nat.div_le_self (input.length - 1) (s.padded a); omega) c h
  simpa using this

theorem arrayRef_ok (l : List Byte) (off n : Nat) (h : off + n ≤ l.length) :
    arrayRef l off n = .ok ((l.drop off).take n) := by simp [arrayRef, h]
theorem rawRef_ok (l : List Byte) (off n : Nat) (h : off + n ≤ l.length) :
    rawRef l off n = .ok ((l.drop off).take n) := by simp [rawRef, h]

/-- Every implementation of `compress1_loop` computes `absorb`. -/
theorem compress1_eq (a : Alg) (plat : Platform) (input : List Byte) (h : Vector (Word a) 8) (c : Count a)
    (ln fin : Bool) (s : Stride) (hok : InputOk a fin input) :
    compress1 a plat input h c ln fin s = .ok (absorb a s fin ln h c input) := by
  cases a <;> cases plat
  · exact compress1Loop_eq .b _ rfl arrayRef arrayRef_ok _ _ _ _ _ _ hok
  · exact compress1Loop_eq .b _ rfl arrayRef arrayRef_ok _ _ _ _ _ _ hok
  · exact compress1Loop_eq .b _ BAvx2.compressBlock_eq rawRef rawRef_ok _ _ _ _ _ _ hok
  · exact compress1Loop_eq .s _ rfl arrayRef arrayRef_ok _ _ _ _ _ _ hok
  · exact compress1Loop_eq .s _ SSse41.compressBlock_eq rawRef rawRef_ok _ _ _ _ _ _ hok
  · exact compress1Loop_eq .s _ SSse41.compressBlock_eq rawRef rawRef_ok _ _ _ _ _ _ hok

end Blake2
