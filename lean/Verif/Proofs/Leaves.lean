import Verif.Proofs.ManySpec
import Verif.Model.Par
/-! # The data of a leaf -/
namespace Blake2
open Spec

variable {a : Alg}

/-- Bytes of one stripe. -/
def stripe (a : Alg) : Nat := parDegree a * a.bb

theorem stripe_eq (a : Alg) : Stride.Parallel.padded a = stripe a := rfl
theorem stripe_pos (a : Alg) : 0 < stripe a := padded_pos a .Parallel

/-- What leaf `i` gets of `D`: block `i` of every stripe. -/
def leaf (a : Alg) (i : Nat) (D : List Byte) : List Byte := gather a (stripe a) (stripe_pos a) (D.drop (i * a.bb))

theorem gather_nil (P : Nat) (hP : 0 < P) : gather a P hP [] = [] := by rw [gather]; simp

theorem gather_unfold (P : Nat) (hP : 0 < P) (x : List Byte) :
    gather a P hP x = x.take a.bb ++ gather a P hP (x.drop P) := by
  by_cases h : x.length ≤ P
  · rw [List.drop_eq_nil_of_le h, gather_nil, gather, if_pos h, List.append_nil]
  · conv => lhs; rw [gather, if_neg h]

theorem gather_drop_bb (P : Nat) (hP : 0 < P) (hb : a.bb ≤ P) (x : List Byte) :
    (gather a P hP x).drop a.bb = gather a P hP (x.drop P) := by
  by_cases h : x.length ≤ P
  · rw [List.drop_eq_nil_of_le h, gather_nil, gather, if_pos h]
    apply List.drop_eq_nil_of_le
    rw [List.length_take]; omega
  · rw [gather_unfold, List.drop_left']
    rw [List.length_take]; omega

theorem gather_drop (P : Nat) (hP : 0 < P) (hb : a.bb ≤ P) (x : List Byte) (k : Nat) :
    (gather a P hP x).drop (k * a.bb) = gather a P hP (x.drop (k * P)) := by
  induction k generalizing x with
  | zero => simp
  | succ k ih =>
    rw [Nat.add_mul, Nat.one_mul, Nat.add_comm, ← List.drop_drop, gather_drop_bb P hP hb, ih, List.drop_drop,
      Nat.add_mul k 1 P, Nat.one_mul, Nat.add_comm P]

theorem gather_length (P : Nat) (hP : 0 < P) (hb : a.bb ≤ P) (x : List Byte) (m : Nat) (h : m * P + a.bb ≤ x.length) :
    (m + 1) * a.bb ≤ (gather a P hP x).length := by
  induction m generalizing x with
  | zero =>
    rw [gather_unfold, List.length_append, List.length_take]; omega
  | succ m ih =>
    rw [Nat.add_mul, Nat.one_mul] at h
    have := ih (x.drop P) (by rw [List.length_drop]; omega)
    rw [gather_unfold, List.length_append, List.length_take, Nat.add_mul (m + 1), Nat.one_mul]
    omega

theorem gather_take (P : Nat) (hP : 0 < P) (o : Nat) (ho : o + a.bb ≤ P) (x : List Byte) (m : Nat)
    (h : (m + 1) * P - o ≤ x.length) :
    gather a P hP (x.take ((m + 1) * P - o)) = (gather a P hP x).take ((m + 1) * a.bb) := by
  have hb := bb_pos a
  induction m generalizing x with
  | zero =>
    simp only [Nat.zero_add, Nat.one_mul] at *
    rw [gather, if_pos (by rw [List.length_take]; omega), List.take_take, Nat.min_eq_left (by omega), gather_unfold,
      List.take_append_of_le_length (by rw [List.length_take]; omega), List.take_take, Nat.min_self]
  | succ m ih =>
    have e1 : (m + 1 + 1) * P = (m + 1) * P + P := by rw [Nat.add_mul (m + 1), Nat.one_mul]
    have e2 : (m + 1 + 1) * a.bb = (m + 1) * a.bb + a.bb := by rw [Nat.add_mul (m + 1), Nat.one_mul]
    have e3 : (m + 1) * P = m * P + P := by rw [Nat.add_mul m, Nat.one_mul]
    have hl : (x.take a.bb).length = a.bb := by rw [List.length_take]; omega
    rw [gather_unfold, List.take_take, Nat.min_eq_left (by omega), List.drop_take]
    have e4 : (m + 1 + 1) * P - o - P = (m + 1) * P - o := by omega
    rw [e4, ih (x.drop P) (by rw [List.length_drop]; omega)]
    conv => rhs; rw [gather_unfold]
    rw [List.take_append, hl, List.take_of_length_le (l := x.take a.bb) (by rw [hl]; omega), e2, Nat.add_sub_cancel]

theorem off_le {i : Nat} (hi : i < parDegree a) : i * a.bb + a.bb ≤ stripe a := by
  rw [← Nat.succ_mul]; exact Nat.mul_le_mul_right _ hi

theorem bb_le_stripe (a : Alg) : a.bb ≤ stripe a := bb_le_padded a .Parallel

theorem leaf_drop (i : Nat) (D : List Byte) (k : Nat) :
    (leaf a i D).drop (k * a.bb) = leaf a i (D.drop (k * stripe a)) := by
  rw [leaf, leaf, gather_drop _ _ (bb_le_stripe a), List.drop_drop, List.drop_drop, Nat.add_comm]

theorem leaf_take {i : Nat} (hi : i < parDegree a) (D : List Byte) (m : Nat) (h : m * stripe a ≤ D.length) :
    leaf a i (D.take (m * stripe a)) = (leaf a i D).take (m * a.bb) := by
  have ho := off_le hi
  cases m with
  | zero =>
    rw [Nat.zero_mul, Nat.zero_mul, List.take_zero, List.take_zero, leaf, List.drop_nil, gather_nil]
  | succ m =>
    have e : (m + 1) * stripe a = m * stripe a + stripe a := by rw [Nat.add_mul m, Nat.one_mul]
    unfold leaf
    rw [List.drop_take, gather_take _ _ _ ho]
    rw [List.length_drop]; omega

theorem leaf_length {i : Nat} (hi : i < parDegree a) (D : List Byte) (m : Nat) (h : m * stripe a ≤ D.length) :
    m * a.bb ≤ (leaf a i D).length := by
  have ho := off_le hi
  cases m with
  | zero => omega
  | succ m =>
    have e : (m + 1) * stripe a = m * stripe a + stripe a := by rw [Nat.add_mul m, Nat.one_mul]
    exact gather_length _ _ (bb_le_stripe a) _ m (by rw [List.length_drop]; omega)

theorem leaf_lt (i : Nat) (D : List Byte) (k : Nat) (h : k * stripe a + i * a.bb < D.length) :
    k * a.bb < (leaf a i D).length := by
  have h1 : leaf a i (D.drop (k * stripe a)) ≠ [] := by
    apply gather_ne_nil
    intro he
    have := congrArg List.length he
    rw [List.length_drop, List.length_drop, List.length_nil] at this; omega
  rw [← leaf_drop] at h1
  have := List.length_pos_iff.2 h1
  rw [List.length_drop] at this; omega

theorem chain_take (h0 : Vector (Word a) 8) (D : List Byte) (k : Nat) (h : k * a.bb ≤ D.length) :
    chain a h0 D k = chain a h0 (D.take (k * a.bb)) k := by
  conv => lhs; rw [← List.take_append_drop (k * a.bb) D]
  exact chain_append _ _ _ _ (by rw [List.length_take]; omega)

/-- The compressed part of a leaf does not depend on later input. -/
theorem chain_leaf_append {i : Nat} (hi : i < parDegree a) (h0 : Vector (Word a) 8) (D x : List Byte) (k : Nat)
    (h : k * stripe a ≤ D.length) : chain a h0 (leaf a i (D ++ x)) k = chain a h0 (leaf a i D) k := by
  have h' : k * stripe a ≤ (D ++ x).length := by rw [List.length_append]; omega
  rw [chain_take _ _ _ (leaf_length hi D k h), chain_take _ _ _ (leaf_length hi (D ++ x) k h'), ← leaf_take hi _ _ h,
    ← leaf_take hi _ _ h', List.take_append_of_le_length h]

/-- Some whole stripes, absorbed by leaf `i`. -/
theorem absorb_leaf_nonfinal {i : Nat} (hi : i < parDegree a) (h0 : Vector (Word a) 8) (D : List Byte) (ln : Bool)
    (m k : Nat) (hm : 0 < m) (hk : (k + m) * stripe a ≤ D.length) :
    absorb a .Parallel false ln (chain a h0 (leaf a i D) k) (BitVec.ofNat _ (k * a.bb))
      (((D.drop (k * stripe a)).take (m * stripe a)).drop (i * a.bb)) = chain a h0 (leaf a i D) (k + m) := by
  have e : (k + m) * stripe a = k * stripe a + m * stripe a := Nat.add_mul ..
  rw [absorb_gather]
  have : gather a (Stride.Parallel.padded a) (padded_pos a .Parallel)
      (((D.drop (k * stripe a)).take (m * stripe a)).drop (i * a.bb)) =
      ((leaf a i D).drop (k * a.bb)).take (m * a.bb) := by
    show leaf a i ((D.drop (k * stripe a)).take (m * stripe a)) = _
    rw [leaf_take hi _ _ (by rw [List.length_drop]; omega), leaf_drop]
  rw [this]
  exact absorb_nonfinal h0 _ ln m k hm (leaf_length hi D (k + m) hk)

/-- The rest of the data, absorbed and finalized by leaf `i`. -/
theorem absorb_leaf_final (i : Nat) (h0 : Vector (Word a) 8) (D : List Byte) (ln : Bool) (k : Nat)
    (hk : k = 0 ∨ k * stripe a + i * a.bb < D.length) :
    absorb a .Parallel true ln (chain a h0 (leaf a i D) k) (BitVec.ofNat _ (k * a.bb))
      ((D.drop (k * stripe a)).drop (i * a.bb)) = Spec.process a h0 (leaf a i D) ln := by
  rw [absorb_gather]
  have : gather a (Stride.Parallel.padded a) (padded_pos a .Parallel) ((D.drop (k * stripe a)).drop (i * a.bb)) =
      (leaf a i D).drop (k * a.bb) := by
    rw [leaf_drop]; rfl
  rw [this]
  exact absorb_final h0 _ ln _ k (Nat.le_refl _) (hk.imp id (fun h => leaf_lt i D k h))

/-! ## Agreement with the specification's `leafMsg` -/

/-- Block `j` of a message. -/
def block (a : Alg) (msg : List Byte) (j : Nat) : List Byte := (msg.drop (j * a.bb)).take a.bb

/-- The blocks of leaf `i` among the first `n`. -/
def leafBlocks (a : Alg) (n : Nat) (msg : List Byte) (i : Nat) : List Byte :=
  (List.range n).flatMap fun j => if j % parDegree a = i then block a msg j else []

theorem filter_map_flatten {α : Type} (l : List α) (p : α → Bool) (f : α → List Byte) :
    ((l.filter p).map f).flatten = l.flatMap fun j => if p j then f j else [] := by
  induction l with
  | nil => rfl
  | cons x xs ih =>
    by_cases h : p x <;> simp [h, ← ih, List.flatMap_cons]

theorem leafMsg_eq_blocks (msg : List Byte) (i : Nat) :
    leafMsg a msg i = leafBlocks a ((msg.length + a.bb - 1) / a.bb) msg i := by
  unfold leafMsg leafBlocks block
  rw [filter_map_flatten, bb_eq, degree_eq]
  simp

theorem block_nil {msg : List Byte} {j : Nat} (h : msg.length ≤ j * a.bb) : block a msg j = [] := by
  rw [block, List.drop_eq_nil_of_le h, List.take_nil]

theorem leafBlocks_extend (n m : Nat) (msg : List Byte) (i : Nat) (h : msg.length ≤ n * a.bb) :
    leafBlocks a (n + m) msg i = leafBlocks a n msg i := by
  unfold leafBlocks
  rw [List.range_add, List.flatMap_append]
  have : ((List.range m).map (n + ·)).flatMap (fun j => if j % parDegree a = i then block a msg j else []) = [] := by
    rw [List.flatMap_eq_nil_iff]
    intro j hj
    obtain ⟨k, _, rfl⟩ := List.mem_map.1 hj
    rw [block_nil (by rw [Nat.add_mul]; omega)]
    simp
  rw [this, List.append_nil]

theorem leafBlocks_step {i : Nat} (hi : i < parDegree a) (n : Nat) (msg : List Byte) :
    leafBlocks a (parDegree a + n) msg i = block a msg i ++ leafBlocks a n (msg.drop (stripe a)) i := by
  unfold leafBlocks
  rw [List.range_add, List.flatMap_append]
  congr 1
  · cases a
    · have hi' : i < 4 := hi
      have : i = 0 ∨ i = 1 ∨ i = 2 ∨ i = 3 := by omega
      rcases this with rfl | rfl | rfl | rfl <;> simp [parDegree, List.range_succ]
    · have hi' : i < 8 := hi
      have : i = 0 ∨ i = 1 ∨ i = 2 ∨ i = 3 ∨ i = 4 ∨ i = 5 ∨ i = 6 ∨ i = 7 := by omega
      rcases this with rfl | rfl | rfl | rfl | rfl | rfl | rfl | rfl <;> simp [parDegree, List.range_succ]
  · rw [List.flatMap_map]
    congr 1
    funext j
    rw [Nat.add_mod_left]
    unfold block
    rw [List.drop_drop, Nat.add_mul]
    rfl

theorem leafMsg_eq_leaf {i : Nat} (hi : i < parDegree a) (msg : List Byte) : leafMsg a msg i = leaf a i msg := by
  have hb := bb_pos a
  have hs := stripe_pos a
  have key : ∀ n msg, msg.length ≤ n * a.bb → leafBlocks a n msg i = leaf a i msg := by
    intro n msg
    induction hl : msg.length using Nat.strongRecOn generalizing msg with
    | _ l ih =>
      intro hn
      rcases Nat.eq_zero_or_pos l with h0 | h0
      · have : msg = [] := List.eq_nil_of_length_eq_zero (by omega)
        subst this
        rw [leaf, List.drop_nil, gather_nil]
        unfold leafBlocks
        rw [List.flatMap_eq_nil_iff]
        intro j _
        rw [block_nil (by simp)]; simp
      · rw [← leafBlocks_extend n (parDegree a) msg i (by omega), Nat.add_comm n, leafBlocks_step hi]
        rw [ih (l - stripe a) (by omega) (msg.drop (stripe a)) (by rw [List.length_drop, hl]) (by omega)]
        unfold leaf block
        conv => rhs; rw [gather_unfold]
        rw [List.drop_drop, List.drop_drop, Nat.add_comm]
  rw [leafMsg_eq_blocks]
  apply key
  have := Nat.lt_div_mul_add hb (a := msg.length + a.bb - 1)
  omega

end Blake2
