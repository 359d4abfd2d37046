import Verif.Proofs.LeakErase
import Verif.Proofs.ManyInv
/-!
# How long a run takes

`Takes k Q m`: the log of `m` has at most `k` entries, and if `m` returns, what it returns satisfies `Q`.
`Costs n Q m`: `m` is given `n` entries; it uses no more, and if it returns `v` and has `c` entries left, then `Q v c`. The second
form is for the loops over a batch, where what is left over by one iteration pays for the next.
-/
namespace Blake2

/-- At most `k` entries in the log; what is returned satisfies `Q`. -/
structure Takes {α : Type} (k : Nat) (Q : α → Prop) (m : Leaky α) : Prop where
  log : m.log.length ≤ k
  res : ∀ v, m.erase = .ok v → Q v

/-- At most `n` entries in the log; what is returned, and the number of entries not used, satisfy `Q`. -/
structure Costs {α : Type} (n : Nat) (Q : α → Nat → Prop) (m : Leaky α) : Prop where
  log : m.log.length ≤ n
  res : ∀ v, m.erase = .ok v → Q v (n - m.log.length)

/-- Nothing is asked of the value. -/
abbrev TakesAny {α : Type} (k : Nat) (m : Leaky α) : Prop := Takes k (fun _ => True) m

namespace Takes
variable {α β : Type} {k l : Nat} {Q : α → Prop} {R : β → Prop}

theorem pure {x : α} (h : Q x) : Takes k Q (Pure.pure x : Leaky α) := ⟨Nat.zero_le _, fun _ e => by cases e; exact h⟩

theorem fault (e : Fault) : Takes k Q (Leaky.fault e : Leaky α) := ⟨Nat.zero_le _, nofun⟩

theorem reveal (x : Leak) : TakesAny 1 (Leaky.reveal x) := ⟨Nat.le_refl _, fun _ _ => trivial⟩

theorem bind {m : Leaky α} {f : α → Leaky β} (h : Takes k Q m) (hf : ∀ x, Q x → Takes l R (f x)) : Takes (k + l) R (m >>= f) := by
  obtain ⟨lg, r⟩ := m
  cases r with
  | error e => exact ⟨Nat.le_trans h.log (Nat.le_add_right _ _), nofun⟩
  | ok x =>
    have hx := hf x (h.res x rfl)
    refine ⟨?_, fun v hv => hx.res v hv⟩
    show (lg ++ (f x).log).length ≤ _
    rw [List.length_append]
    exact Nat.add_le_add h.log hx.log

theorem mono {k' : Nat} {Q' : α → Prop} {m : Leaky α} (h : Takes k Q m) (hk : k ≤ k') (hq : ∀ x, Q x → Q' x) : Takes k' Q' m :=
  ⟨Nat.le_trans h.log hk, fun v hv => hq v (h.res v hv)⟩

theorem up {k' : Nat} {m : Leaky α} (h : Takes k Q m) (hk : k ≤ k') : Takes k' Q m := h.mono hk fun _ h => h

theorem branch {c : Prop} [Decidable c] {t e : Leaky α} (ht : c → Takes k Q t) (he : ¬ c → Takes k Q e) :
    Takes (1 + k) Q (Leaky.branch c t e) := by
  unfold Leaky.branch
  by_cases hc : c
  · rw [if_pos hc]
    exact ⟨by rw [List.length_cons, Nat.add_comm]; exact Nat.add_le_add_left (ht hc).log 1, (ht hc).res⟩
  · rw [if_neg hc]
    exact ⟨by rw [List.length_cons, Nat.add_comm]; exact Nat.add_le_add_left (he hc).log 1, (he hc).res⟩

theorem within {f : Feature} {m : Leaky α} (h : Takes k Q m) : Takes (1 + k) Q (Leaky.within f m) :=
  ⟨by show (Leak.enter f :: m.log).length ≤ _; rw [List.length_cons, Nat.add_comm]; exact Nat.add_le_add_left h.log 1, h.res⟩

theorem ite {c : Prop} [Decidable c] {t e : Leaky α} (ht : c → Takes k Q t) (he : ¬ c → Takes k Q e) : Takes k Q (if c then t else e) := by
  split
  · exact ht ‹_›
  · exact he ‹_›

/-- A loop over the elements of a list. -/
theorem mapList {f : α → Leaky β} {xs : List α} {P : α → β → Prop} {cost : α → Nat} (hf : ∀ x ∈ xs, Takes (cost x) (P x) (f x)) :
    Takes (xs.map cost).sum (fun ys => ys.length = xs.length ∧ ∀ i (h : i < xs.length) (h' : i < ys.length), P xs[i] ys[i])
      (Leaky.mapList f xs) := by
  induction xs with
  | nil => exact pure ⟨rfl, fun i h => absurd h (Nat.not_lt_zero _)⟩
  | cons x xs ih =>
    rw [List.map_cons, List.sum_cons]
    refine (hf x (by simp)).bind fun y hy =>
      ((ih fun x hx => hf x (by simp [hx])).bind (l := 0) fun ys hys => pure ?_).up (Nat.le_refl _)
    refine ⟨by simp [hys.1], fun i h h' => ?_⟩
    cases i with
    | zero => exact hy
    | succ i => exact hys.2 i (by simpa using h) (by simpa using h')

theorem sum_const (xs : List α) (k : Nat) : (xs.map fun _ => k).sum = xs.length * k := by
  induction xs with
  | nil => simp
  | cons x xs ih => rw [List.map_cons, List.sum_cons, ih, List.length_cons, Nat.succ_mul, Nat.add_comm]

theorem mapVector {N : Nat} {f : α → Leaky β} {xs : Vector α N} {P : α → β → Prop} (hf : ∀ x, Takes k (P x) (f x)) :
    Takes (N * k) (fun ys => ∀ i (h : i < N), P xs[i] ys[i]) (Leaky.mapVector f xs) := by
  have h := (mapList (xs := xs.toList) (P := P) (cost := fun _ => k) fun x _ => hf x).up
    (k' := N * k) (by rw [sum_const, Vector.length_toList]; exact Nat.le_refl _)
  refine (h.bind (l := 0) fun ys hys => ?_).up (Nat.le_refl _)
  split
  · rename_i e
    refine pure fun i hi => ?_
    have := hys.2 i (by simpa using hi) (by rw [hys.1]; simpa using hi)
    simpa using this
  · exact fault _

theorem any {m : Leaky α} (h : Takes k Q m) : TakesAny k m := h.mono (Nat.le_refl _) fun _ _ => trivial

end Takes

namespace Costs
variable {α β : Type} {n : Nat} {Q : α → Nat → Prop} {R : β → Nat → Prop}

theorem pure {x : α} (h : Q x n) : Costs n Q (Pure.pure x : Leaky α) := ⟨Nat.zero_le _, fun _ e => by cases e; exact h⟩

theorem fault (e : Fault) : Costs n Q (Leaky.fault e : Leaky α) := ⟨Nat.zero_le _, nofun⟩

theorem bind {m : Leaky α} {f : α → Leaky β} (h : Costs n Q m) (hf : ∀ x c, Q x c → Costs c R (f x)) : Costs n R (m >>= f) := by
  obtain ⟨lg, r⟩ := m
  cases r with
  | error e => exact ⟨h.log, nofun⟩
  | ok x =>
    have hx := hf x _ (h.res x rfl)
    have h0 : lg.length ≤ n := h.log
    have h1 : (f x).log.length ≤ n - lg.length := hx.log
    refine ⟨?_, fun v hv => ?_⟩
    · show (lg ++ (f x).log).length ≤ _
      rw [List.length_append]
      omega
    · have := hx.res v hv
      show R v (n - (lg ++ (f x).log).length)
      rw [List.length_append, ← Nat.sub_sub]
      exact this

theorem mono {Q' : α → Nat → Prop} {m : Leaky α} (h : Costs n Q m) (hq : ∀ x c, Q x c → Q' x c) : Costs n Q' m :=
  ⟨h.log, fun v hv => hq v _ (h.res v hv)⟩

/-- Something of known cost; the rest is left over. -/
theorem of {k : Nat} {P : α → Prop} {m : Leaky α} (h : Takes k P m) (hk : k ≤ n) (hq : ∀ x c, P x → n - k ≤ c → Q x c) : Costs n Q m :=
  ⟨Nat.le_trans h.log hk, fun v hv => hq v _ (h.res v hv) (Nat.sub_le_sub_left h.log n)⟩

/-- Something of known cost, then something else. -/
theorem spend {k : Nat} {P : α → Prop} {m : Leaky α} {f : α → Leaky β} (h : Takes k P m) (hk : k ≤ n)
    (hf : ∀ x c, P x → n - k ≤ c → Costs c R (f x)) : Costs n R (m >>= f) :=
  (of (Q := fun x c => P x ∧ n - k ≤ c) h hk fun _ _ h1 h2 => ⟨h1, h2⟩).bind fun x c h => hf x c h.1 h.2

theorem branch {c : Prop} [Decidable c] {t e : Leaky α} (hn : 1 ≤ n) (ht : c → Costs (n - 1) Q t) (he : ¬ c → Costs (n - 1) Q e) :
    Costs n Q (Leaky.branch c t e) := by
  have key : ∀ (m : Leaky α) (b : Bool), Costs (n - 1) Q m → Costs n Q ⟨.branch b :: m.log, m.erase⟩ := fun m b h => by
    have := h.log
    refine ⟨by rw [List.length_cons]; omega, fun v hv => ?_⟩
    have := h.res v hv
    rwa [List.length_cons, Nat.add_comm, ← Nat.sub_sub]
  unfold Leaky.branch
  by_cases hc : c
  · rw [if_pos hc]; exact key _ _ (ht hc)
  · rw [if_neg hc]; exact key _ _ (he hc)

/-- What is not needed is left over. -/
theorem frame {m : Leaky α} (h : Costs n Q m) (x : Nat) : Costs (n + x) (fun v c => ∃ c', Q v c' ∧ c = c' + x) m :=
  ⟨Nat.le_trans h.log (Nat.le_add_right _ _), fun v hv => ⟨_, h.res v hv, by have := h.log; omega⟩⟩

theorem takes {P : α → Prop} {m : Leaky α} (h : Costs n Q m) (hq : ∀ x c, Q x c → P x) : Takes n P m :=
  ⟨h.log, fun v hv => hq v _ (h.res v hv)⟩

end Costs

variable {a : Alg}

/-! ## Slices and single blocks -/

theorem sliceFromL_takes (l : List Byte) (i : Nat) : Takes 2 (fun r => r.length = l.length - i ∧ r = l.drop i) (sliceFromL l i) :=
  (Takes.reveal _).bind (l := 1) fun _ _ => .branch (k := 0) (fun _ => .pure ⟨by simp, rfl⟩) fun _ => .fault _

theorem sliceToL_takes (l : List Byte) (i : Nat) : Takes 2 (fun r => r.length = i ∧ i ≤ l.length) (sliceToL l i) :=
  (Takes.reveal _).bind (l := 1) fun _ _ => .branch (k := 0) (fun h => .pure ⟨by simp; omega, h⟩) fun _ => .fault _

theorem copyRangeL_takes (l : List Byte) (i j : Nat) (x : List Byte) : Takes 2 (fun r => r.length = l.length) (copyRangeL l i j x) :=
  (Takes.reveal _).bind (l := 1) fun _ _ => .branch (k := 0) (fun h => .pure (by simp; omega)) fun _ => .fault _

theorem arrayRefL_takes (l : List Byte) (i n : Nat) : TakesAny 2 (arrayRefL l i n) :=
  (Takes.reveal _).bind (l := 1) fun _ _ => .branch (k := 0) (fun _ => .pure trivial) fun _ => .fault _

theorem rawRefL_takes (l : List Byte) (i n : Nat) : TakesAny 1 (rawRefL l i n) :=
  (Takes.reveal _).bind (l := 0) fun _ _ => .ite (fun _ => .pure trivial) fun _ => .fault _

theorem rassertL_takes (c : Bool) : TakesAny 1 (rassertL c) := .branch (k := 0) (fun _ => .pure trivial) fun _ => .fault _

theorem checkedSubL_takes (x y : Nat) : Takes 1 (fun r => r = x - y) (checkedSubL x y) :=
  .branch (k := 0) (fun _ => .pure rfl) fun _ => .fault _

theorem addUsizeL_takes (l x y : Nat) : Takes 1 (fun r => r = x + y) (addUsizeL l x y) :=
  .branch (k := 0) (fun _ => .pure rfl) fun _ => .fault _

theorem addU8L_takes (x y : Nat) : TakesAny 1 (addU8L x y) := .branch (k := 0) (fun _ => .pure trivial) fun _ => .fault _
theorem addU16L_takes (x y : Nat) : TakesAny 1 (addU16L x y) := .branch (k := 0) (fun _ => .pure trivial) fun _ => .fault _

theorem minL_takes (x y : Nat) : Takes 1 (fun r => r = min x y) (minL x y) :=
  .branch (k := 0) (fun _ => .pure (by omega)) fun _ => .pure (by omega)

theorem flagWordL_takes (a : Alg) (b : Bool) : TakesAny 1 (flagWordL a b) :=
  .branch (k := 0) (fun _ => .pure trivial) fun _ => .pure trivial

theorem finalBlockL_takes (x : List Byte) (o : Nat) (b : List Byte) (s : Stride) : TakesAny 6 (finalBlockL a x o b s) :=
  (minL_takes _ _).bind (l := 5) fun _ _ => (sliceFromL_takes _ _).bind (l := 3) fun _ _ => .branch (k := 2)
    (fun _ => (arrayRefL_takes _ _ _).bind (l := 0) fun _ _ => .pure trivial)
    fun _ => (copyRangeL_takes _ _ _ _).bind (l := 0) fun _ _ => .pure trivial

theorem inputDebugAssertsL_takes (x : List Byte) (f : Bool) : TakesAny 3 (inputDebugAssertsL a x f) :=
  .branch (k := 2) (fun _ => (rassertL_takes _).bind (l := 1) fun _ _ => rassertL_takes _) fun _ => .pure trivial

/-- A block compression of known cost. -/
def BlockTakes (k : Nat) (f : CompressBlockL a) : Prop := ∀ b w c l n, TakesAny k (f b w c l n)

theorem straight_takes (k : Nat) (f : CompressBlock a) : BlockTakes k (straight f) := fun _ _ _ _ _ => .pure trivial

namespace Portable

theorem gL_takes (v : Vector (Word a) 16) (i j k l : Fin 16) (x y : Word a) : TakesAny 4 (gL a v i j k l x y) :=
  (Takes.reveal _).bind (l := 3) fun _ _ => (Takes.reveal _).bind (l := 2) fun _ _ => (Takes.reveal _).bind (l := 1) fun _ _ =>
    (Takes.reveal _).bind (l := 0) fun _ _ => .pure trivial

theorem loadL_takes (m : Vector (Word a) 16) (i : Fin 16) : TakesAny 1 (loadL m i) :=
  (Takes.reveal _).bind (l := 0) fun _ _ => .pure trivial

theorem roundL_takes (m v : Vector (Word a) 16) (r : Fin a.rows) : TakesAny 49 (roundL a m v r) := by
  have mix : ∀ (v : Vector (Word a) 16) (i j k l p q : Fin 16) {n : Nat} {β : Type} {R : β → Prop} {f : Vector (Word a) 16 → Leaky β},
      (∀ v, Takes n R (f v)) → Takes (6 + n) R (loadL m p >>= fun x => loadL m q >>= fun y => gL a v i j k l x y >>= f) :=
    fun v i j k l p q n β R f h =>
      ((loadL_takes m p).bind fun _ _ => (loadL_takes m q).bind fun _ _ => (gL_takes v i j k l _ _).bind fun v _ => h v).up (by omega)
  refine (Takes.reveal _).bind (l := 48) fun _ _ => mix _ _ _ _ _ _ _ (n := 42) fun _ => mix _ _ _ _ _ _ _ (n := 36) fun _ =>
    mix _ _ _ _ _ _ _ (n := 30) fun _ => mix _ _ _ _ _ _ _ (n := 24) fun _ => mix _ _ _ _ _ _ _ (n := 18) fun _ =>
    mix _ _ _ _ _ _ _ (n := 12) fun _ => mix _ _ _ _ _ _ _ (n := 6) fun _ => ?_
  exact (loadL_takes _ _).bind (l := 5) fun _ _ => (loadL_takes _ _).bind (l := 4) fun _ _ => gL_takes _ _ _ _ _ _ _

theorem roundsL_takes (m : Vector (Word a) 16) (rs : List (Fin a.rows)) (v : Vector (Word a) 16) :
    TakesAny (49 * rs.length) (roundsL a m rs v) := by
  induction rs generalizing v with
  | nil => exact .pure trivial
  | cons r rs ih => exact ((roundL_takes _ _ _).bind fun _ _ => ih _).up (by rw [List.length_cons]; omega)

theorem compressBlockL_takes : BlockTakes 588 (compressBlockL a) := fun _ _ _ _ _ =>
  ((roundsL_takes _ _ _).bind (l := 0) fun _ _ => .pure trivial).up (by cases a <;> decide)

end Portable

/-- The number of blocks in `n` bytes when a block is followed by a gap so that it takes up `p` bytes; at least one. -/
def blocksOf (p n : Nat) : Nat := (n - 1) / p + 1

theorem blocksOf_mono {p m n : Nat} (h : m ≤ n) : blocksOf p m ≤ blocksOf p n :=
  Nat.add_le_add_right (Nat.div_le_div_right (by omega)) 1

theorem blocksOf_pos (p n : Nat) : 1 ≤ blocksOf p n := Nat.le_add_left _ _

theorem compress1IterL_takes {cb : CompressBlockL a} {rd : List Byte → Nat → Nat → Leaky (List Byte)} (hcb : BlockTakes 588 cb)
    (hrd : ∀ x o n, TakesAny 2 (rd x o n)) (x : List Byte) (fo : Nat) (fb : List Byte) (fl : Nat) (flb fln : Word a) (s : Stride)
    (fuel o j : Nat) (hj : fo = o + j * s.padded a) (c : Count a) (w : Vector (Word a) 8) :
    TakesAny (595 * (j + 1)) (compress1IterL a cb rd x fo fb fl flb fln s fuel o c w) := by
  induction fuel generalizing o c w j with
  | zero => exact .fault _
  | succ fuel ih =>
    refine (Takes.bind (k := 5) (l := 588 + (1 + (1 + 595 * j))) (Q := fun _ => True)
      (.branch (k := 4) (fun _ => .pure trivial) fun _ => ?_) fun p _ => ?_).up (by omega)
    · exact (hrd _ _ _).bind (l := 2) fun _ _ => (flagWordL_takes _ _).bind (l := 1) fun _ _ => (flagWordL_takes _ _).bind (l := 0) fun _ _ =>
        .pure trivial
    · refine (hcb _ _ _ _ _).bind fun _ _ => .branch (fun _ => .pure trivial) fun hne => (addUsizeL_takes _ _ _).bind fun o' ho => ?_
      cases j with
      | zero => exact absurd (by rw [hj, Nat.zero_mul, Nat.add_zero]) hne
      | succ j =>
        refine ih _ j ?_ _ _
        subst ho
        rw [hj, Nat.succ_mul]
        omega

theorem finOffset_eq (n p : Nat) : n - 1 - (n - 1) % p = 0 + (n - 1) / p * p := by
  have := Nat.div_add_mod (n - 1) p
  rw [Nat.mul_comm] at this
  omega

theorem compress1LoopL_takes {cb : CompressBlockL a} {rd : List Byte → Nat → Nat → Leaky (List Byte)} (hcb : BlockTakes 588 cb)
    (hrd : ∀ x o n, TakesAny 2 (rd x o n)) (x : List Byte) (w : Vector (Word a) 8) (c : Count a) (ln fin : Bool) (s : Stride) :
    TakesAny (606 * blocksOf (s.padded a) x.length) (compress1LoopL a cb rd x w c ln fin s) := by
  refine ((inputDebugAssertsL_takes _ _).bind (l := 6 + (1 + (1 + 595 * ((x.length - 1) / s.padded a + 1)))) fun _ _ =>
    (finalBlockL_takes _ _ _ _).bind fun _ _ => (flagWordL_takes _ _).bind fun _ _ => (flagWordL_takes _ _).bind fun _ _ =>
    compress1IterL_takes hcb hrd _ _ _ _ _ _ _ _ _ ((x.length - 1) / s.padded a) (finOffset_eq _ _) _ _).up ?_
  unfold blocksOf
  generalize (x.length - 1) / s.padded a = j
  omega

/-- **One message.** At most 608 entries per block. -/
theorem compress1L_takes (imp : Platform) (x : List Byte) (w : Vector (Word a) 8) (c : Count a) (ln fin : Bool) (s : Stride) :
    TakesAny (608 * blocksOf (s.padded a) x.length) (compress1L a imp x w c ln fin s) := by
  have hr : ∀ x o n, TakesAny 2 (rawRefL x o n) := fun x o n => (rawRefL_takes x o n).up (by omega)
  have hb := blocksOf_pos (s.padded a) x.length
  refine ((Takes.reveal _).bind (l := 1 + 606 * blocksOf (s.padded a) x.length) fun _ _ => ?_).up (by omega)
  cases a with
  | b =>
    cases imp with
    | AVX2 => exact (compress1LoopL_takes (straight_takes _ BAvx2.compressBlock) hr _ _ _ _ _ _).within
    | SSE41 => exact (compress1LoopL_takes (Portable.compressBlockL_takes (a := .b)) arrayRefL_takes _ _ _ _ _ _).up (by omega)
    | Portable => exact (compress1LoopL_takes (Portable.compressBlockL_takes (a := .b)) arrayRefL_takes _ _ _ _ _ _).up (by omega)
  | s =>
    cases imp with
    | AVX2 => exact (compress1LoopL_takes (straight_takes _ SSse41.compressBlock) hr _ _ _ _ _ _).within
    | SSE41 => exact (compress1LoopL_takes (straight_takes _ SSse41.compressBlock) hr _ _ _ _ _ _).within
    | Portable => exact (compress1LoopL_takes (Portable.compressBlockL_takes (a := .s)) arrayRefL_takes _ _ _ _ _ _).up (by omega)

end Blake2
