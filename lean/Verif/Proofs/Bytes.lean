import Verif.Basic
import Verif.Spec
import Verif.Model.Base
/-! # Lemmas on bytes and little-endian conversion -/
namespace Blake2

theorem leNat_lt (l : List Byte) : leNat l < 256 ^ l.length := by
  induction l with
  | nil => simp [leNat]
  | cons x xs ih =>
    have := x.isLt
    simp only [leNat, List.length_cons, Nat.pow_succ]
    omega

theorem leNat_append (l r : List Byte) : leNat (l ++ r) = leNat l + 256 ^ l.length * leNat r := by
  induction l with
  | nil => simp [leNat]
  | cons x xs ih =>
    simp only [List.cons_append, leNat, ih, List.length_cons, Nat.pow_succ]
    rw [Nat.mul_add, Nat.mul_comm (256 ^ xs.length) 256, Nat.mul_assoc]; omega

theorem leNat_drop (l : List Byte) (k : Nat) : leNat (l.drop k) = leNat l / 256 ^ k := by
  induction k generalizing l with
  | zero => simp
  | succ k ih =>
    cases l with
    | nil => simp [leNat]
    | cons x xs =>
      have := x.isLt
      simp only [List.drop_succ_cons, leNat, ih, Nat.pow_succ]
      rw [Nat.mul_comm (256 ^ k) 256, ← Nat.div_div_eq_div_mul]
      congr 1
      omega

theorem leNat_take (l : List Byte) (k : Nat) : leNat (l.take k) = leNat l % 256 ^ k := by
  induction k generalizing l with
  | zero => simp [leNat, Nat.mod_one]
  | succ k ih =>
    cases l with
    | nil => simp [leNat]
    | cons x xs =>
      have := x.isLt
      simp only [List.take_succ_cons, leNat, ih, Nat.pow_succ]
      rw [Nat.mul_comm (256 ^ k) 256, Nat.mod_mul]
      have h1 : (x.toNat + 256 * leNat xs) / 256 = leNat xs := by omega
      have h2 : (x.toNat + 256 * leNat xs) % 256 = x.toNat := by omega
      rw [h1, h2]

theorem leNat_replicate_zero (n : Nat) : leNat (List.replicate n 0) = 0 := by
  induction n with
  | zero => rfl
  | succ n ih => rw [List.replicate_succ, leNat, ih]; rfl

@[simp] theorem leBytes_length (n x : Nat) : (leBytes n x).length = n := by
  induction n generalizing x with
  | zero => rfl
  | succ n ih => simp [leBytes, ih]

theorem leNat_leBytes (n x : Nat) : leNat (leBytes n x) = x % 256 ^ n := by
  induction n generalizing x with
  | zero => simp [leBytes, leNat, Nat.mod_one]
  | succ n ih =>
    simp only [leBytes, leNat, ih, BitVec.toNat_ofNat]
    rw [Nat.pow_succ 256 n, Nat.mul_comm (256 ^ n) 256, Nat.mod_mul]

theorem leNat_inj {l r : List Byte} (hl : l.length = r.length) (h : leNat l = leNat r) : l = r := by
  induction l generalizing r with
  | nil => cases r <;> simp_all
  | cons x xs ih =>
    cases r with
    | nil => simp at hl
    | cons y ys =>
      simp only [leNat] at h
      have := x.isLt; have := y.isLt
      have h1 : x.toNat = y.toNat := by omega
      have h2 : leNat xs = leNat ys := by omega
      rw [BitVec.eq_of_toNat_eq h1, ih (by simpa using hl) h2]

theorem leBytes_leNat (l : List Byte) : leBytes l.length (leNat l) = l :=
  leNat_inj (by simp) (by rw [leNat_leBytes, Nat.mod_eq_of_lt (leNat_lt l)])

theorem leBytes_eq_range (n x : Nat) : leBytes n x = (List.range n).map fun i => BitVec.ofNat 8 (x / 256 ^ i) := by
  induction n generalizing x with
  | zero => rfl
  | succ n ih =>
    rw [leBytes, ih, List.range_succ_eq_map]
    simp only [List.map_cons, List.map_map, Nat.pow_zero, Nat.div_one, List.cons.injEq, true_and]
    apply List.map_congr_left
    intro i _
    simp only [Function.comp, Nat.succ_eq_add_one, Nat.pow_succ]
    rw [Nat.div_div_eq_div_mul, Nat.mul_comm]

theorem toLE_eq {w : Nat} (n : Nat) (x : BitVec w) : toLE n x = leBytes n x.toNat := by
  rw [leBytes_eq_range, toLE]
  apply List.map_congr_left
  intro i _
  apply BitVec.eq_of_toNat_eq
  rw [BitVec.extractLsb'_toNat, BitVec.toNat_ofNat, Nat.shiftRight_eq_div_pow, Nat.pow_mul]

@[simp] theorem toLE_length {w : Nat} (n : Nat) (x : BitVec w) : (toLE n x).length = n := by simp [toLE]

end Blake2
