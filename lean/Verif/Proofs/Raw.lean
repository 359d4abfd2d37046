import Verif.Model.Raw
import Verif.Proofs.NWayLoop
/-!
# Reading a block in pieces is reading the block
-/
namespace Blake2.Raw
open X86

theorem list_mapM_ub {α β : Type} (f : α → Res β) (P : α → Prop) [DecidablePred P] (g : α → β)
    (hf : ∀ x, f x = if P x then .ok (g x) else .error .ub) (l : List α) :
    l.mapM f = if ∀ x ∈ l, P x then .ok (l.map g) else .error .ub := by
  induction l with
  | nil => simp; rfl
  | cons x l ih =>
    rw [List.mapM_cons, hf x, ih]
    by_cases h1 : P x
    · by_cases h2 : ∀ y ∈ l, P y
      · rw [if_pos h1, if_pos h2, if_pos (by simpa [h1] using h2)]; rfl
      · rw [if_pos h1, if_neg h2, if_neg (fun h => h2 fun y hy => h y (by simp [hy]))]; rfl
    · have h3 : ¬ ∀ y ∈ x :: l, P y := fun h => h1 (h x List.mem_cons_self)
      rw [if_neg h1, if_neg h3]; rfl

theorem vector_mapM_ub {α β : Type} {n : Nat} (f : α → Res β) (P : α → Prop) [DecidablePred P] (g : α → β)
    (hf : ∀ x, f x = if P x then .ok (g x) else .error .ub) (v : Vector α n) :
    v.mapM f = if ∀ x ∈ v, P x then .ok (v.map g) else .error .ub := by
  have h1 : Vector.toArray <$> v.mapM f = v.toArray.mapM f := Vector.toArray_mapM
  rw [Array.mapM_eq_mapM_toList, list_mapM_ub f P g hf] at h1
  have e : (∀ x ∈ v.toArray.toList, P x) ↔ ∀ x ∈ v, P x := by simp
  by_cases h : ∀ x ∈ v, P x
  · rw [if_pos h, vector_mapM_ok f g v (fun x hx => by rw [hf, if_pos (h x hx)])]
  · rw [if_neg (mt e.1 h)] at h1
    rw [if_neg h]
    cases hv : v.mapM f with
    | ok w => rw [hv] at h1; cases h1
    | error err => rw [hv] at h1; cases h1; rfl

/-- The whole block at `p` is inside the object. -/
abbrev Ptr.Fits (p : Ptr) (n : Nat) : Prop := p.off + n ≤ p.bytes.length

/-- The `n` bytes at `p`. -/
def Ptr.block (n : Nat) (p : Ptr) : List Byte := (p.bytes.drop p.off).take n

theorem Ptr.read_eq (p : Ptr) (n : Nat) : p.read n = if p.Fits n then .ok (p.block n) else .error .ub := rfl

theorem block_chunk (p : Ptr) (n m k : Nat) (h : k + m ≤ n) :
    ((p.block n).drop k).take m = (p.bytes.drop (p.off + k)).take m := by
  rw [Ptr.block, List.drop_take, List.take_take, List.drop_drop, Nat.min_eq_left (by omega)]

theorem load256_eq (p : Ptr) (k : Nat) :
    load256 p k = if p.Fits (32 * k + 32) then .ok (mm256_loadu_si256 ((p.bytes.drop (p.off + 32 * k)).take 32)) else .error .ub := by
  unfold load256 Ptr.add Ptr.read rawRef Ptr.Fits
  by_cases h : p.off + (32 * k + 32) ≤ p.bytes.length
  · rw [if_pos h, if_pos (by omega)]
    simp only [bind, Except.bind]
    rw [if_pos (by omega)]
  · rw [if_neg h]
    by_cases h2 : p.off + 32 * k ≤ p.bytes.length
    · rw [if_pos h2]
      simp only [bind, Except.bind]
      rw [if_neg (by omega)]
    · rw [if_neg h2]; rfl

theorem load128_eq (p : Ptr) (k : Nat) :
    load128 p k = if p.Fits (16 * k + 16) then .ok (mm_loadu_si128 ((p.bytes.drop (p.off + 16 * k)).take 16)) else .error .ub := by
  unfold load128 Ptr.add Ptr.read rawRef Ptr.Fits
  by_cases h : p.off + (16 * k + 16) ≤ p.bytes.length
  · rw [if_pos h, if_pos (by omega)]
    simp only [bind, Except.bind]
    rw [if_pos (by omega)]
  · rw [if_neg h]
    by_cases h2 : p.off + 16 * k ≤ p.bytes.length
    · rw [if_pos h2]
      simp only [bind, Except.bind]
      rw [if_neg (by omega)]
    · rw [if_neg h2]; rfl

theorem loads256 {N : Nat} (ps : Vector Ptr N) (k : Nat) :
    ps.mapM (load256 · k) = if ∀ p ∈ ps, p.Fits (32 * k + 32)
      then .ok (ps.map fun p => mm256_loadu_si256 ((p.bytes.drop (p.off + 32 * k)).take 32)) else .error .ub :=
  vector_mapM_ub _ _ _ (fun p => load256_eq p k) ps

theorem loads128 {N : Nat} (ps : Vector Ptr N) (k : Nat) :
    ps.mapM (load128 · k) = if ∀ p ∈ ps, p.Fits (16 * k + 16)
      then .ok (ps.map fun p => mm_loadu_si128 ((p.bytes.drop (p.off + 16 * k)).take 16)) else .error .ub :=
  vector_mapM_ub _ _ _ (fun p => load128_eq p k) ps

theorem seq_ub {α β : Type} {c : Prop} [Decidable c] {x : α} {f : α → Res β} (h : f x = .error .ub) :
    ((if c then .ok x else .error .ub : Res α) >>= f) = .error .ub := by
  split
  · exact h
  · rfl

/-- A transposition of message vectors reads exactly the blocks. -/
def ReadsBlocks {a : Alg} {N : Nat} {R : Type} (o : VImpl a N R) (tm : Vector Ptr N → Res (Vector R 16)) : Prop :=
  ∀ ps : Vector Ptr N, tm ps =
    if ∀ p ∈ ps, p.Fits a.bb then .ok (o.transposeMsg (ps.map (Ptr.block a.bb))) else .error .ub

theorem Fits.mono {p : Ptr} {n m : Nat} (h : p.Fits n) (hm : m ≤ n) : p.Fits m := by
  unfold Ptr.Fits at *; omega

theorem seq2 {α β : Type} {m0 m1 : Res α} {x0 x1 : α}
    (h0 : m0 = .ok x0)
    (h1 : m1 = .ok x1)
    (k : α → α → Res β) :
    (m0 >>= fun y0 => m1 >>= fun y1 => k y0 y1) = k x0 x1 := by
  subst h0 h1; rfl

theorem seq4 {α β : Type} {m0 m1 m2 m3 : Res α} {x0 x1 x2 x3 : α}
    (h0 : m0 = .ok x0)
    (h1 : m1 = .ok x1)
    (h2 : m2 = .ok x2)
    (h3 : m3 = .ok x3)
    (k : α → α → α → α → Res β) :
    (m0 >>= fun y0 => m1 >>= fun y1 => m2 >>= fun y2 => m3 >>= fun y3 => k y0 y1 y2 y3) = k x0 x1 x2 x3 := by
  subst h0 h1 h2 h3; rfl

theorem seq8 {α β : Type} {m0 m1 m2 m3 m4 m5 m6 m7 : Res α} {x0 x1 x2 x3 x4 x5 x6 x7 : α}
    (h0 : m0 = .ok x0)
    (h1 : m1 = .ok x1)
    (h2 : m2 = .ok x2)
    (h3 : m3 = .ok x3)
    (h4 : m4 = .ok x4)
    (h5 : m5 = .ok x5)
    (h6 : m6 = .ok x6)
    (h7 : m7 = .ok x7)
    (k : α → α → α → α → α → α → α → α → Res β) :
    (m0 >>= fun y0 => m1 >>= fun y1 => m2 >>= fun y2 => m3 >>= fun y3 => m4 >>= fun y4 => m5 >>= fun y5 => m6 >>= fun y6 => m7 >>= fun y7 => k y0 y1 y2 y3 y4 y5 y6 y7) = k x0 x1 x2 x3 x4 x5 x6 x7 := by
  subst h0 h1 h2 h3 h4 h5 h6 h7; rfl

theorem pack2 {R : Type} (T : R → R → Vector R 2) (L : List Byte → Nat → R) (bl : Vector (List Byte) 2) :
    #v[(T (bl.map fun b => L b 0)[0] (bl.map fun b => L b 0)[1])[0], (T (bl.map fun b => L b 0)[0] (bl.map fun b => L b 0)[1])[1], (T (bl.map fun b => L b 1)[0] (bl.map fun b => L b 1)[1])[0], (T (bl.map fun b => L b 1)[0] (bl.map fun b => L b 1)[1])[1], (T (bl.map fun b => L b 2)[0] (bl.map fun b => L b 2)[1])[0], (T (bl.map fun b => L b 2)[0] (bl.map fun b => L b 2)[1])[1], (T (bl.map fun b => L b 3)[0] (bl.map fun b => L b 3)[1])[0], (T (bl.map fun b => L b 3)[0] (bl.map fun b => L b 3)[1])[1], (T (bl.map fun b => L b 4)[0] (bl.map fun b => L b 4)[1])[0], (T (bl.map fun b => L b 4)[0] (bl.map fun b => L b 4)[1])[1], (T (bl.map fun b => L b 5)[0] (bl.map fun b => L b 5)[1])[0], (T (bl.map fun b => L b 5)[0] (bl.map fun b => L b 5)[1])[1], (T (bl.map fun b => L b 6)[0] (bl.map fun b => L b 6)[1])[0], (T (bl.map fun b => L b 6)[0] (bl.map fun b => L b 6)[1])[1], (T (bl.map fun b => L b 7)[0] (bl.map fun b => L b 7)[1])[0], (T (bl.map fun b => L b 7)[0] (bl.map fun b => L b 7)[1])[1]] =
    #v[(T (L bl[0] 0) (L bl[1] 0))[0], (T (L bl[0] 0) (L bl[1] 0))[1], (T (L bl[0] 1) (L bl[1] 1))[0], (T (L bl[0] 1) (L bl[1] 1))[1], (T (L bl[0] 2) (L bl[1] 2))[0], (T (L bl[0] 2) (L bl[1] 2))[1], (T (L bl[0] 3) (L bl[1] 3))[0], (T (L bl[0] 3) (L bl[1] 3))[1], (T (L bl[0] 4) (L bl[1] 4))[0], (T (L bl[0] 4) (L bl[1] 4))[1], (T (L bl[0] 5) (L bl[1] 5))[0], (T (L bl[0] 5) (L bl[1] 5))[1], (T (L bl[0] 6) (L bl[1] 6))[0], (T (L bl[0] 6) (L bl[1] 6))[1], (T (L bl[0] 7) (L bl[1] 7))[0], (T (L bl[0] 7) (L bl[1] 7))[1]] := by
  simp only [Vector.getElem_map]

theorem pack4 {R : Type} (T : R → R → R → R → Vector R 4) (L : List Byte → Nat → R) (bl : Vector (List Byte) 4) :
    #v[(T (bl.map fun b => L b 0)[0] (bl.map fun b => L b 0)[1] (bl.map fun b => L b 0)[2] (bl.map fun b => L b 0)[3])[0], (T (bl.map fun b => L b 0)[0] (bl.map fun b => L b 0)[1] (bl.map fun b => L b 0)[2] (bl.map fun b => L b 0)[3])[1], (T (bl.map fun b => L b 0)[0] (bl.map fun b => L b 0)[1] (bl.map fun b => L b 0)[2] (bl.map fun b => L b 0)[3])[2], (T (bl.map fun b => L b 0)[0] (bl.map fun b => L b 0)[1] (bl.map fun b => L b 0)[2] (bl.map fun b => L b 0)[3])[3], (T (bl.map fun b => L b 1)[0] (bl.map fun b => L b 1)[1] (bl.map fun b => L b 1)[2] (bl.map fun b => L b 1)[3])[0], (T (bl.map fun b => L b 1)[0] (bl.map fun b => L b 1)[1] (bl.map fun b => L b 1)[2] (bl.map fun b => L b 1)[3])[1], (T (bl.map fun b => L b 1)[0] (bl.map fun b => L b 1)[1] (bl.map fun b => L b 1)[2] (bl.map fun b => L b 1)[3])[2], (T (bl.map fun b => L b 1)[0] (bl.map fun b => L b 1)[1] (bl.map fun b => L b 1)[2] (bl.map fun b => L b 1)[3])[3], (T (bl.map fun b => L b 2)[0] (bl.map fun b => L b 2)[1] (bl.map fun b => L b 2)[2] (bl.map fun b => L b 2)[3])[0], (T (bl.map fun b => L b 2)[0] (bl.map fun b => L b 2)[1] (bl.map fun b => L b 2)[2] (bl.map fun b => L b 2)[3])[1], (T (bl.map fun b => L b 2)[0] (bl.map fun b => L b 2)[1] (bl.map fun b => L b 2)[2] (bl.map fun b => L b 2)[3])[2], (T (bl.map fun b => L b 2)[0] (bl.map fun b => L b 2)[1] (bl.map fun b => L b 2)[2] (bl.map fun b => L b 2)[3])[3], (T (bl.map fun b => L b 3)[0] (bl.map fun b => L b 3)[1] (bl.map fun b => L b 3)[2] (bl.map fun b => L b 3)[3])[0], (T (bl.map fun b => L b 3)[0] (bl.map fun b => L b 3)[1] (bl.map fun b => L b 3)[2] (bl.map fun b => L b 3)[3])[1], (T (bl.map fun b => L b 3)[0] (bl.map fun b => L b 3)[1] (bl.map fun b => L b 3)[2] (bl.map fun b => L b 3)[3])[2], (T (bl.map fun b => L b 3)[0] (bl.map fun b => L b 3)[1] (bl.map fun b => L b 3)[2] (bl.map fun b => L b 3)[3])[3]] =
    #v[(T (L bl[0] 0) (L bl[1] 0) (L bl[2] 0) (L bl[3] 0))[0], (T (L bl[0] 0) (L bl[1] 0) (L bl[2] 0) (L bl[3] 0))[1], (T (L bl[0] 0) (L bl[1] 0) (L bl[2] 0) (L bl[3] 0))[2], (T (L bl[0] 0) (L bl[1] 0) (L bl[2] 0) (L bl[3] 0))[3], (T (L bl[0] 1) (L bl[1] 1) (L bl[2] 1) (L bl[3] 1))[0], (T (L bl[0] 1) (L bl[1] 1) (L bl[2] 1) (L bl[3] 1))[1], (T (L bl[0] 1) (L bl[1] 1) (L bl[2] 1) (L bl[3] 1))[2], (T (L bl[0] 1) (L bl[1] 1) (L bl[2] 1) (L bl[3] 1))[3], (T (L bl[0] 2) (L bl[1] 2) (L bl[2] 2) (L bl[3] 2))[0], (T (L bl[0] 2) (L bl[1] 2) (L bl[2] 2) (L bl[3] 2))[1], (T (L bl[0] 2) (L bl[1] 2) (L bl[2] 2) (L bl[3] 2))[2], (T (L bl[0] 2) (L bl[1] 2) (L bl[2] 2) (L bl[3] 2))[3], (T (L bl[0] 3) (L bl[1] 3) (L bl[2] 3) (L bl[3] 3))[0], (T (L bl[0] 3) (L bl[1] 3) (L bl[2] 3) (L bl[3] 3))[1], (T (L bl[0] 3) (L bl[1] 3) (L bl[2] 3) (L bl[3] 3))[2], (T (L bl[0] 3) (L bl[1] 3) (L bl[2] 3) (L bl[3] 3))[3]] := by
  simp only [Vector.getElem_map]

theorem pack8 {R : Type} (T : R → R → R → R → R → R → R → R → Vector R 8) (L : List Byte → Nat → R) (bl : Vector (List Byte) 8) :
    #v[(T (bl.map fun b => L b 0)[0] (bl.map fun b => L b 0)[1] (bl.map fun b => L b 0)[2] (bl.map fun b => L b 0)[3] (bl.map fun b => L b 0)[4] (bl.map fun b => L b 0)[5] (bl.map fun b => L b 0)[6] (bl.map fun b => L b 0)[7])[0], (T (bl.map fun b => L b 0)[0] (bl.map fun b => L b 0)[1] (bl.map fun b => L b 0)[2] (bl.map fun b => L b 0)[3] (bl.map fun b => L b 0)[4] (bl.map fun b => L b 0)[5] (bl.map fun b => L b 0)[6] (bl.map fun b => L b 0)[7])[1], (T (bl.map fun b => L b 0)[0] (bl.map fun b => L b 0)[1] (bl.map fun b => L b 0)[2] (bl.map fun b => L b 0)[3] (bl.map fun b => L b 0)[4] (bl.map fun b => L b 0)[5] (bl.map fun b => L b 0)[6] (bl.map fun b => L b 0)[7])[2], (T (bl.map fun b => L b 0)[0] (bl.map fun b => L b 0)[1] (bl.map fun b => L b 0)[2] (bl.map fun b => L b 0)[3] (bl.map fun b => L b 0)[4] (bl.map fun b => L b 0)[5] (bl.map fun b => L b 0)[6] (bl.map fun b => L b 0)[7])[3], (T (bl.map fun b => L b 0)[0] (bl.map fun b => L b 0)[1] (bl.map fun b => L b 0)[2] (bl.map fun b => L b 0)[3] (bl.map fun b => L b 0)[4] (bl.map fun b => L b 0)[5] (bl.map fun b => L b 0)[6] (bl.map fun b => L b 0)[7])[4], (T (bl.map fun b => L b 0)[0] (bl.map fun b => L b 0)[1] (bl.map fun b => L b 0)[2] (bl.map fun b => L b 0)[3] (bl.map fun b => L b 0)[4] (bl.map fun b => L b 0)[5] (bl.map fun b => L b 0)[6] (bl.map fun b => L b 0)[7])[5], (T (bl.map fun b => L b 0)[0] (bl.map fun b => L b 0)[1] (bl.map fun b => L b 0)[2] (bl.map fun b => L b 0)[3] (bl.map fun b => L b 0)[4] (bl.map fun b => L b 0)[5] (bl.map fun b => L b 0)[6] (bl.map fun b => L b 0)[7])[6], (T (bl.map fun b => L b 0)[0] (bl.map fun b => L b 0)[1] (bl.map fun b => L b 0)[2] (bl.map fun b => L b 0)[3] (bl.map fun b => L b 0)[4] (bl.map fun b => L b 0)[5] (bl.map fun b => L b 0)[6] (bl.map fun b => L b 0)[7])[7], (T (bl.map fun b => L b 1)[0] (bl.map fun b => L b 1)[1] (bl.map fun b => L b 1)[2] (bl.map fun b => L b 1)[3] (bl.map fun b => L b 1)[4] (bl.map fun b => L b 1)[5] (bl.map fun b => L b 1)[6] (bl.map fun b => L b 1)[7])[0], (T (bl.map fun b => L b 1)[0] (bl.map fun b => L b 1)[1] (bl.map fun b => L b 1)[2] (bl.map fun b => L b 1)[3] (bl.map fun b => L b 1)[4] (bl.map fun b => L b 1)[5] (bl.map fun b => L b 1)[6] (bl.map fun b => L b 1)[7])[1], (T (bl.map fun b => L b 1)[0] (bl.map fun b => L b 1)[1] (bl.map fun b => L b 1)[2] (bl.map fun b => L b 1)[3] (bl.map fun b => L b 1)[4] (bl.map fun b => L b 1)[5] (bl.map fun b => L b 1)[6] (bl.map fun b => L b 1)[7])[2], (T (bl.map fun b => L b 1)[0] (bl.map fun b => L b 1)[1] (bl.map fun b => L b 1)[2] (bl.map fun b => L b 1)[3] (bl.map fun b => L b 1)[4] (bl.map fun b => L b 1)[5] (bl.map fun b => L b 1)[6] (bl.map fun b => L b 1)[7])[3], (T (bl.map fun b => L b 1)[0] (bl.map fun b => L b 1)[1] (bl.map fun b => L b 1)[2] (bl.map fun b => L b 1)[3] (bl.map fun b => L b 1)[4] (bl.map fun b => L b 1)[5] (bl.map fun b => L b 1)[6] (bl.map fun b => L b 1)[7])[4], (T (bl.map fun b => L b 1)[0] (bl.map fun b => L b 1)[1] (bl.map fun b => L b 1)[2] (bl.map fun b => L b 1)[3] (bl.map fun b => L b 1)[4] (bl.map fun b => L b 1)[5] (bl.map fun b => L b 1)[6] (bl.map fun b => L b 1)[7])[5], (T (bl.map fun b => L b 1)[0] (bl.map fun b => L b 1)[1] (bl.map fun b => L b 1)[2] (bl.map fun b => L b 1)[3] (bl.map fun b => L b 1)[4] (bl.map fun b => L b 1)[5] (bl.map fun b => L b 1)[6] (bl.map fun b => L b 1)[7])[6], (T (bl.map fun b => L b 1)[0] (bl.map fun b => L b 1)[1] (bl.map fun b => L b 1)[2] (bl.map fun b => L b 1)[3] (bl.map fun b => L b 1)[4] (bl.map fun b => L b 1)[5] (bl.map fun b => L b 1)[6] (bl.map fun b => L b 1)[7])[7]] =
    #v[(T (L bl[0] 0) (L bl[1] 0) (L bl[2] 0) (L bl[3] 0) (L bl[4] 0) (L bl[5] 0) (L bl[6] 0) (L bl[7] 0))[0], (T (L bl[0] 0) (L bl[1] 0) (L bl[2] 0) (L bl[3] 0) (L bl[4] 0) (L bl[5] 0) (L bl[6] 0) (L bl[7] 0))[1], (T (L bl[0] 0) (L bl[1] 0) (L bl[2] 0) (L bl[3] 0) (L bl[4] 0) (L bl[5] 0) (L bl[6] 0) (L bl[7] 0))[2], (T (L bl[0] 0) (L bl[1] 0) (L bl[2] 0) (L bl[3] 0) (L bl[4] 0) (L bl[5] 0) (L bl[6] 0) (L bl[7] 0))[3], (T (L bl[0] 0) (L bl[1] 0) (L bl[2] 0) (L bl[3] 0) (L bl[4] 0) (L bl[5] 0) (L bl[6] 0) (L bl[7] 0))[4], (T (L bl[0] 0) (L bl[1] 0) (L bl[2] 0) (L bl[3] 0) (L bl[4] 0) (L bl[5] 0) (L bl[6] 0) (L bl[7] 0))[5], (T (L bl[0] 0) (L bl[1] 0) (L bl[2] 0) (L bl[3] 0) (L bl[4] 0) (L bl[5] 0) (L bl[6] 0) (L bl[7] 0))[6], (T (L bl[0] 0) (L bl[1] 0) (L bl[2] 0) (L bl[3] 0) (L bl[4] 0) (L bl[5] 0) (L bl[6] 0) (L bl[7] 0))[7], (T (L bl[0] 1) (L bl[1] 1) (L bl[2] 1) (L bl[3] 1) (L bl[4] 1) (L bl[5] 1) (L bl[6] 1) (L bl[7] 1))[0], (T (L bl[0] 1) (L bl[1] 1) (L bl[2] 1) (L bl[3] 1) (L bl[4] 1) (L bl[5] 1) (L bl[6] 1) (L bl[7] 1))[1], (T (L bl[0] 1) (L bl[1] 1) (L bl[2] 1) (L bl[3] 1) (L bl[4] 1) (L bl[5] 1) (L bl[6] 1) (L bl[7] 1))[2], (T (L bl[0] 1) (L bl[1] 1) (L bl[2] 1) (L bl[3] 1) (L bl[4] 1) (L bl[5] 1) (L bl[6] 1) (L bl[7] 1))[3], (T (L bl[0] 1) (L bl[1] 1) (L bl[2] 1) (L bl[3] 1) (L bl[4] 1) (L bl[5] 1) (L bl[6] 1) (L bl[7] 1))[4], (T (L bl[0] 1) (L bl[1] 1) (L bl[2] 1) (L bl[3] 1) (L bl[4] 1) (L bl[5] 1) (L bl[6] 1) (L bl[7] 1))[5], (T (L bl[0] 1) (L bl[1] 1) (L bl[2] 1) (L bl[3] 1) (L bl[4] 1) (L bl[5] 1) (L bl[6] 1) (L bl[7] 1))[6], (T (L bl[0] 1) (L bl[1] 1) (L bl[2] 1) (L bl[3] 1) (L bl[4] 1) (L bl[5] 1) (L bl[6] 1) (L bl[7] 1))[7]] := by
  simp only [Vector.getElem_map]

theorem BAvx2.reads_ok (ps : Vector Ptr 4) (bl : Vector (List Byte) 4)
    (e : ∀ k, k < 4 → ps.mapM (load256 · k) = .ok (bl.map fun b => Blake2.BAvx2.loadBlock b k)) :
    BAvx2.transposeMsg ps = .ok (Blake2.BAvx2.transposeMsg bl) := by
  unfold BAvx2.transposeMsg
  refine (seq4 (e 0 (by decide)) (e 1 (by decide)) (e 2 (by decide)) (e 3 (by decide)) _).trans ?_
  exact congrArg Except.ok (pack4 Blake2.BAvx2.transposeVecs Blake2.BAvx2.loadBlock bl)

theorem BAvx2.reads : ReadsBlocks Blake2.BAvx2.impl BAvx2.transposeMsg := by
  intro ps
  have hbb : Alg.bb .b = 128 := rfl
  by_cases h : ∀ p ∈ ps, p.Fits (Alg.bb .b)
  · rw [if_pos h]
    refine BAvx2.reads_ok ps _ fun k hk => ?_
    rw [loads256, if_pos (fun p hp => Fits.mono (h p hp) (by omega)), Vector.map_map]
    refine congrArg Except.ok (Vector.map_congr_left fun p _ => ?_)
    exact congrArg mm256_loadu_si256 (block_chunk p (Alg.bb .b) 32 (32 * k) (by omega)).symm
  · have h' : ¬ ∀ p ∈ ps, p.Fits (32 * 3 + 32) := h
    rw [if_neg h]
    unfold BAvx2.transposeMsg
    simp only [loads256]
    rw [if_neg h']
    exact seq_ub (seq_ub (seq_ub rfl))

theorem BSse41.reads_ok (ps : Vector Ptr 2) (bl : Vector (List Byte) 2)
    (e : ∀ k, k < 8 → ps.mapM (load128 · k) = .ok (bl.map fun b => Blake2.BSse41.loadBlock b k)) :
    BSse41.transposeMsg ps = .ok (Blake2.BSse41.transposeMsg bl) := by
  unfold BSse41.transposeMsg
  refine (seq8 (e 0 (by decide)) (e 1 (by decide)) (e 2 (by decide)) (e 3 (by decide)) (e 4 (by decide)) (e 5 (by decide)) (e 6 (by decide)) (e 7 (by decide)) _).trans ?_
  exact congrArg Except.ok (pack2 Blake2.BSse41.transposeVecs Blake2.BSse41.loadBlock bl)

theorem BSse41.reads : ReadsBlocks Blake2.BSse41.impl BSse41.transposeMsg := by
  intro ps
  have hbb : Alg.bb .b = 128 := rfl
  by_cases h : ∀ p ∈ ps, p.Fits (Alg.bb .b)
  · rw [if_pos h]
    refine BSse41.reads_ok ps _ fun k hk => ?_
    rw [loads128, if_pos (fun p hp => Fits.mono (h p hp) (by omega)), Vector.map_map]
    refine congrArg Except.ok (Vector.map_congr_left fun p _ => ?_)
    exact congrArg mm_loadu_si128 (block_chunk p (Alg.bb .b) 16 (16 * k) (by omega)).symm
  · have h' : ¬ ∀ p ∈ ps, p.Fits (16 * 7 + 16) := h
    rw [if_neg h]
    unfold BSse41.transposeMsg
    simp only [loads128]
    rw [if_neg h']
    exact seq_ub (seq_ub (seq_ub (seq_ub (seq_ub (seq_ub (seq_ub rfl))))))

theorem SSse41.reads_ok (ps : Vector Ptr 4) (bl : Vector (List Byte) 4)
    (e : ∀ k, k < 4 → ps.mapM (load128 · k) = .ok (bl.map fun b => Blake2.SSse41.loadBlock b k)) :
    SSse41.transposeMsg ps = .ok (Blake2.SSse41.transposeMsg bl) := by
  unfold SSse41.transposeMsg
  refine (seq4 (e 0 (by decide)) (e 1 (by decide)) (e 2 (by decide)) (e 3 (by decide)) _).trans ?_
  exact congrArg Except.ok (pack4 Blake2.SSse41.transposeVecs Blake2.SSse41.loadBlock bl)

theorem SSse41.reads : ReadsBlocks Blake2.SSse41.impl SSse41.transposeMsg := by
  intro ps
  have hbb : Alg.bb .s = 64 := rfl
  by_cases h : ∀ p ∈ ps, p.Fits (Alg.bb .s)
  · rw [if_pos h]
    refine SSse41.reads_ok ps _ fun k hk => ?_
    rw [loads128, if_pos (fun p hp => Fits.mono (h p hp) (by omega)), Vector.map_map]
    refine congrArg Except.ok (Vector.map_congr_left fun p _ => ?_)
    exact congrArg mm_loadu_si128 (block_chunk p (Alg.bb .s) 16 (16 * k) (by omega)).symm
  · have h' : ¬ ∀ p ∈ ps, p.Fits (16 * 3 + 16) := h
    rw [if_neg h]
    unfold SSse41.transposeMsg
    simp only [loads128]
    rw [if_neg h']
    exact seq_ub (seq_ub (seq_ub rfl))

theorem SAvx2.reads_ok (ps : Vector Ptr 8) (bl : Vector (List Byte) 8)
    (e : ∀ k, k < 2 → ps.mapM (load256 · k) = .ok (bl.map fun b => Blake2.SAvx2.loadBlock b k)) :
    SAvx2.transposeMsg ps = .ok (Blake2.SAvx2.transposeMsg bl) := by
  unfold SAvx2.transposeMsg
  refine (seq2 (e 0 (by decide)) (e 1 (by decide)) _).trans ?_
  exact congrArg Except.ok (pack8 Blake2.SAvx2.transposeVecs Blake2.SAvx2.loadBlock bl)

theorem SAvx2.reads : ReadsBlocks Blake2.SAvx2.impl SAvx2.transposeMsg := by
  intro ps
  have hbb : Alg.bb .s = 64 := rfl
  by_cases h : ∀ p ∈ ps, p.Fits (Alg.bb .s)
  · rw [if_pos h]
    refine SAvx2.reads_ok ps _ fun k hk => ?_
    rw [loads256, if_pos (fun p hp => Fits.mono (h p hp) (by omega)), Vector.map_map]
    refine congrArg Except.ok (Vector.map_congr_left fun p _ => ?_)
    exact congrArg mm256_loadu_si256 (block_chunk p (Alg.bb .s) 32 (32 * k) (by omega)).symm
  · have h' : ¬ ∀ p ∈ ps, p.Fits (32 * 1 + 32) := h
    rw [if_neg h]
    unfold SAvx2.transposeMsg
    simp only [loads256]
    rw [if_neg h']
    exact seq_ub rfl

theorem SSse41.compressBlock_eq (block : List Byte) (hb : block.length = Alg.bb .s) (words : Vector (Word .s) 8) (count : Count .s)
    (lastBlock lastNode : Word .s) :
    SSse41.compressBlock block words count lastBlock lastNode =
      .ok (Blake2.SSse41.compressBlock block words count lastBlock lastNode) := by
  have e : ∀ k, k < 4 → load128 (asPtr block) k = .ok (Blake2.SSse41.loadBlock block k) := fun k hk => by
    rw [load128_eq, if_pos]
    · simp only [asPtr, Nat.zero_add, Blake2.SSse41.loadBlock]
    · show 0 + _ ≤ block.length
      rw [hb]; show _ ≤ 64; omega
  unfold SSse41.compressBlock
  simp only [e 0 (by decide), e 1 (by decide), e 2 (by decide), e 3 (by decide), bind, Except.bind]
  rfl

/-! ## The final block is a whole block -/

theorem finalBlock_length {a : Alg} {input : List Byte} {off : Nat} {buf : List Byte} {s : Stride} {b : List Byte} {n : Nat} {f : Bool}
    (hbuf : buf.length = a.bb) (h : finalBlock a input off buf s = .ok (b, n, f)) : b.length = a.bb := by
  unfold finalBlock sliceFrom at h
  simp only [bind, Except.bind] at h
  split at h
  · cases h
  · split at h
    · rename_i hl
      unfold arrayRef at h
      split at h
      · cases h
      · rename_i w heq
        split at heq
        · cases heq; cases h
          rw [List.length_take, List.length_drop]; omega
        · cases heq
    · unfold copyRange at h
      split at h
      · cases h
      · rename_i w heq
        split at heq
        · cases heq; cases h
          simp only [List.length_append, List.length_take, List.length_drop]
          omega
        · cases heq

/-! ## The loops -/

theorem rawRef_via (l : List Byte) (off n : Nat) : ((asPtr l).add off >>= fun p => p.read n) = rawRef l off n := by
  unfold Ptr.add Ptr.read rawRef asPtr
  by_cases h : off + n ≤ l.length
  · rw [if_pos h, if_pos (by simp only [Nat.zero_add]; omega)]
    simp only [bind, Except.bind, Nat.zero_add]
    rw [if_pos h]
  · rw [if_neg h]
    split
    · simp only [bind, Except.bind, Nat.zero_add]
      rw [if_neg h]
    · rfl

theorem rawRef_length {l b : List Byte} {off n : Nat} (h : rawRef l off n = .ok b) : b.length = n := by
  unfold rawRef at h
  split at h
  · cases h; rw [List.length_take, List.length_drop]; omega
  · cases h

theorem deref_eq : deref = rawRef := by
  funext l off n
  exact rawRef_via l off n

theorem arrayRef_length {l b : List Byte} {off n : Nat} (h : arrayRef l off n = .ok b) : b.length = n := by
  unfold arrayRef at h
  split at h
  · cases h; rw [List.length_take, List.length_drop]; omega
  · cases h

/-- What a block reader returns has the requested length. -/
def Whole (rd : List Byte → Nat → Nat → Res (List Byte)) : Prop := ∀ l off n b, rd l off n = .ok b → b.length = n

theorem compress1Iter_eq {a : Alg} (cb : Blake2.CompressBlock a) (cbR : CompressBlock a)
    (H : ∀ block, block.length = a.bb → ∀ w c l n, cbR block w c l n = .ok (cb block w c l n))
    {rd : List Byte → Nat → Nat → Res (List Byte)} (hrd : Whole rd)
    (input : List Byte) (finOffset : Nat) (finBlock : List Byte) (hb : finBlock.length = a.bb) (finLen : Nat)
    (fl fn : Word a) (s : Stride) (fuel : Nat) : ∀ (offset : Nat) (count : Count a) (words : Vector (Word a) 8),
    compress1Iter a cbR rd input finOffset finBlock finLen fl fn s fuel offset count words =
      Blake2.compress1Iter a cb rd input finOffset finBlock finLen fl fn s fuel offset count words := by
  induction fuel with
  | zero => intros; rfl
  | succ fuel ih =>
    intro offset count words
    unfold compress1Iter Blake2.compress1Iter
    by_cases ho : offset = finOffset
    · simp only [if_pos ho, bind, Except.bind, H finBlock hb]
    · simp only [if_neg ho]
      cases hr : rd input offset a.bb with
      | error e => rfl
      | ok block =>
        simp only [bind, Except.bind, H block (hrd _ _ _ _ hr)]
        cases addUsize input.length offset (s.padded a) with
        | error e => rfl
        | ok off => exact ih _ _ _

/-- The body of `compress1_loop` after the debug assertions. -/
theorem compress1Loop_eq {a : Alg} (cb : Blake2.CompressBlock a) (cbR : CompressBlock a)
    (H : ∀ block, block.length = a.bb → ∀ w c l n, cbR block w c l n = .ok (cb block w c l n))
    {rd : List Byte → Nat → Nat → Res (List Byte)} (hrd : Whole rd) :
    compress1Loop true a cbR rd = Blake2.compress1Loop a cb rd := by
  funext input words count ln fin s
  unfold compress1Loop Blake2.compress1Loop debugAsserts
  rw [if_pos rfl]
  cases inputDebugAsserts a input fin with
  | error e => rfl
  | ok _ =>
    simp only [bind, Except.bind]
    cases hf : finalBlock a input (input.length - 1 - (input.length - 1) % s.padded a) (List.replicate a.bb 0) s with
    | error e => rfl
    | ok r =>
      obtain ⟨b, n, f⟩ := r
      exact compress1Iter_eq cb cbR H hrd input _ b (finalBlock_length List.length_replicate hf) _ _ _ _ _ _ _ _

/-- A release build does what a debug build does, unless the debug build stops at an assertion. -/
theorem compress1Loop_release {a : Alg} (cbR : CompressBlock a) (rd : List Byte → Nat → Nat → Res (List Byte))
    (input : List Byte) (words : Vector (Word a) 8) (count : Count a) (ln fin : Bool) (s : Stride)
    (h : inputDebugAsserts a input fin = .ok ()) :
    compress1Loop false a cbR rd input words count ln fin s = compress1Loop true a cbR rd input words count ln fin s := by
  unfold compress1Loop debugAsserts
  rw [if_pos rfl, h]
  rfl

section NWay
open Blake2.NWay
variable {a : Alg} {N : Nat} {R : Type}

theorem loopIter_eq (o : VImpl a N R) (tm : Vector Ptr N → Res (Vector R 16)) (H : ReadsBlocks o tm)
    (inputs : Vector (List Byte) N) (minLen : Nat) (fin : Fin_ a N R) (hb : ∀ b ∈ fin.blocks, b.length = a.bb) (s : Stride)
    (fuel : Nat) : ∀ (offset : Nat) (h : Vector R 8) (lo hi : R),
    loopIter o tm (inputs.map asPtr) minLen fin s fuel offset h lo hi =
      Blake2.NWay.loopIter o inputs minLen fin s fuel offset h lo hi := by
  induction fuel with
  | zero => intros; rfl
  | succ fuel ih =>
    intro offset h lo hi
    unfold loopIter Blake2.NWay.loopIter
    by_cases ho : offset = fin.offset
    · simp only [if_pos ho, bind, Except.bind]
      have e : (fin.blocks.map asPtr).map (Ptr.block a.bb) = fin.blocks := by
        rw [Vector.map_map]
        refine (Vector.map_congr_left (g := id) fun b hm => ?_).trans (Vector.map_id _)
        show (b.drop 0).take a.bb = b
        rw [List.drop_zero, List.take_of_length_le (Nat.le_of_eq (hb b hm))]
      rw [H, if_pos, e]
      intro p hp
      obtain ⟨b, hm, rfl⟩ := Vector.mem_map.1 hp
      show 0 + a.bb ≤ b.length
      rw [hb b hm]; omega
    · simp only [if_neg ho]
      have e1 := vector_mapM_ub (fun p : Ptr => p.add offset) (fun p => p.off + offset ≤ p.bytes.length)
        (fun p => { p with off := p.off + offset }) (fun _ => rfl) (inputs.map asPtr)
      have e2 := vector_mapM_ub (fun input => rawRef input offset a.bb) (fun l => offset + a.bb ≤ l.length)
        (fun l => (l.drop offset).take a.bb) (fun _ => rfl) inputs
      rw [e1, e2]
      by_cases h2 : ∀ x ∈ inputs, offset + a.bb ≤ x.length
      · rw [if_pos h2, if_pos]
        · simp only [bind, Except.bind, H _]
          rw [if_pos]
          · have e : ((inputs.map asPtr).map fun p => ({ p with off := p.off + offset } : Ptr)).map (Ptr.block a.bb) =
                inputs.map fun l => (l.drop offset).take a.bb := by
              rw [Vector.map_map, Vector.map_map]
              refine Vector.map_congr_left fun l _ => ?_
              show (l.drop (0 + offset)).take a.bb = _
              rw [Nat.zero_add]
            rw [e]
            simp only [bind, Except.bind]
            cases addUsize minLen offset (s.padded a) with
            | error e => rfl
            | ok off => exact ih _ _ _ _
          · intro p hp
            obtain ⟨q, hq, rfl⟩ := Vector.mem_map.1 hp
            obtain ⟨l, hl, rfl⟩ := Vector.mem_map.1 hq
            show 0 + offset + a.bb ≤ l.length
            have := h2 l hl; omega
        · intro p hp
          obtain ⟨l, hl, rfl⟩ := Vector.mem_map.1 hp
          show 0 + offset ≤ l.length
          have := h2 l hl; omega
      · rw [if_neg h2]
        split
        · simp only [bind, Except.bind, H _]
          rw [if_neg]
          intro hall
          refine h2 fun l hl => ?_
          have := hall ⟨l, 0 + offset⟩ (Vector.mem_map.2 ⟨asPtr l, Vector.mem_map.2 ⟨l, hl, rfl⟩, rfl⟩)
          have h3 : 0 + offset + a.bb ≤ l.length := this
          omega
        · rfl

theorem mapM_mem {α β : Type} {n : Nat} {f : α → Res β} {v : Vector α n} {w : Vector β n} (h : v.mapM f = .ok w) :
    ∀ y ∈ w, ∃ x ∈ v, f x = .ok y := by
  have h1 : Vector.toArray <$> v.mapM f = v.toArray.mapM f := Vector.toArray_mapM
  rw [h, Array.mapM_eq_mapM_toList] at h1
  have h2 : v.toArray.toList.mapM f = .ok w.toArray.toList := by
    cases hl : v.toArray.toList.mapM f with
    | error e => rw [hl] at h1; cases h1
    | ok l =>
      rw [hl] at h1
      have h3 : (Except.ok w.toArray : Res (Array β)) = .ok l.toArray := h1
      rw [Except.ok.inj h3]
  have key : ∀ (l : List α) (r : List β), l.mapM f = .ok r → ∀ y ∈ r, ∃ x ∈ l, f x = .ok y := by
    intro l
    induction l with
    | nil => intro r hr y hy; cases hr; cases hy
    | cons x l ih =>
      intro r hr y hy
      rw [List.mapM_cons] at hr
      cases hx : f x with
      | error e => rw [hx] at hr; cases hr
      | ok z =>
        rw [hx] at hr
        cases hl : l.mapM f with
        | error e => rw [hl] at hr; cases hr
        | ok r' =>
          rw [hl] at hr
          cases hr
          rcases List.mem_cons.1 hy with rfl | hy
          · exact ⟨x, by simp, hx⟩
          · obtain ⟨x', hx', e⟩ := ih r' hl y hy
            exact ⟨x', by simp [hx'], e⟩
  intro y hy
  obtain ⟨x, hx, e⟩ := key _ _ h2 y (by simpa using hy)
  exact ⟨x, by simpa using hx, e⟩

theorem compressLoop_eq (o : VImpl a N R) (tm : Vector Ptr N → Res (Vector R 16)) (H : ReadsBlocks o tm) :
    compressLoop true o tm = Blake2.NWay.compressLoop o := by
  funext jobs fin s
  unfold compressLoop Blake2.NWay.compressLoop debugAsserts
  simp only [if_true]
  have e : (jobs.map fun job => asPtr job.input) = (jobs.map (·.input)).map asPtr := by rw [Vector.map_map]; rfl
  cases (jobs.toList.forM fun job => inputDebugAsserts a job.input fin) with
  | error e => rfl
  | ok _ =>
  cases hm : listMin (jobs.toList.map fun job => job.input.length) with
  | none => rfl
  | some minLen =>
  simp only [bind, Except.bind]
  cases hf : jobs.mapM fun job => finalBlock a job.input (minLen - 1 - (minLen - 1) % s.padded a) (List.replicate a.bb 0) s with
  | error e => rfl
  | ok fins =>
    have hb : ∀ b ∈ fins.map (·.1), b.length = a.bb := by
      intro b hbm
      obtain ⟨⟨b', n, f⟩, hm, rfl⟩ := Vector.mem_map.1 hbm
      obtain ⟨job, _, hj⟩ := mapM_mem hf _ hm
      exact finalBlock_length List.length_replicate hj
    simp only [e]
    rw [loopIter_eq o tm H _ _ _ hb]
end NWay

theorem whole_rawRef : Whole rawRef := fun _ _ _ _ h => rawRef_length h
theorem whole_arrayRef : Whole arrayRef := fun _ _ _ _ h => arrayRef_length h

theorem compress1_eq : Raw.compress1 true = Blake2.compress1 := by
  funext a plat
  cases a <;> cases plat <;> unfold Raw.compress1 <;> try rw [deref_eq]
  · exact compress1Loop_eq _ _ (fun _ _ _ _ _ _ => rfl) whole_arrayRef
  · exact compress1Loop_eq _ _ (fun _ _ _ _ _ _ => rfl) whole_arrayRef
  · exact compress1Loop_eq _ _ (fun _ _ _ _ _ _ => rfl) whole_rawRef
  · exact compress1Loop_eq _ _ (fun _ _ _ _ _ _ => rfl) whole_arrayRef
  · exact compress1Loop_eq _ _ SSse41.compressBlock_eq whole_rawRef
  · exact compress1Loop_eq _ _ SSse41.compressBlock_eq whole_rawRef

theorem compressHi_eq : Raw.compressHi true = Blake2.compressHi := by
  funext a plat
  cases a <;> cases plat
  · exact rfl
  · exact rfl
  · exact compressLoop_eq _ _ BAvx2.reads
  · exact rfl
  · exact rfl
  · exact compressLoop_eq _ _ SAvx2.reads

theorem compressLo_eq : Raw.compressLo true = Blake2.compressLo := by
  funext a plat
  cases a <;> cases plat
  · exact rfl
  · exact compressLoop_eq _ _ BSse41.reads
  · exact compressLoop_eq _ _ BSse41.reads
  · exact rfl
  · exact compressLoop_eq _ _ SSse41.reads
  · exact compressLoop_eq _ _ SSse41.reads

end Blake2.Raw
