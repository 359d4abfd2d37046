import Verif.Model.Leak
/-!
# Two runs on public-equal arguments reveal the same

`Same R m n`: the two computations reveal the same, and either both fault in the same way or both return, values related by `R`.
-/
namespace Blake2

/-- Both fault in the same way, or both return related values. -/
inductive ResRel {α β : Type} (R : α → β → Prop) : Res α → Res β → Prop
  | ok {x : α} {y : β} : R x y → ResRel R (.ok x) (.ok y)
  | error (e : Fault) : ResRel R (.error e) (.error e)

/-- The same is revealed, with related outcomes. -/
structure Same {α β : Type} (R : α → β → Prop) (m : Leaky α) (n : Leaky β) : Prop where
  log : m.log = n.log
  res : ResRel R m.erase n.erase

/-- Lists related element by element. -/
inductive All2 {α β : Type} (R : α → β → Prop) : List α → List β → Prop
  | nil : All2 R [] []
  | cons {x : α} {y : β} {xs : List α} {ys : List β} : R x y → All2 R xs ys → All2 R (x :: xs) (y :: ys)

namespace All2
variable {α β γ δ : Type} {R : α → β → Prop}

theorem length {xs : List α} {ys : List β} (h : All2 R xs ys) : xs.length = ys.length := by
  induction h with
  | nil => rfl
  | cons _ _ ih => simp [ih]

theorem append {xs xs' : List α} {ys ys' : List β} (h : All2 R xs ys) (h' : All2 R xs' ys') : All2 R (xs ++ xs') (ys ++ ys') := by
  induction h with
  | nil => exact h'
  | cons r _ ih => exact .cons r ih

theorem take {xs : List α} {ys : List β} (h : All2 R xs ys) (n : Nat) : All2 R (xs.take n) (ys.take n) := by
  induction h generalizing n with
  | nil => simp only [List.take_nil]; exact .nil
  | cons r _ ih =>
    cases n with
    | zero => exact .nil
    | succ n => exact .cons r (ih n)

theorem drop {xs : List α} {ys : List β} (h : All2 R xs ys) (n : Nat) : All2 R (xs.drop n) (ys.drop n) := by
  induction h generalizing n with
  | nil => simp only [List.drop_nil]; exact .nil
  | cons r t ih =>
    cases n with
    | zero => exact .cons r t
    | succ n => exact ih n

theorem eraseIdx {xs : List α} {ys : List β} (h : All2 R xs ys) (n : Nat) : All2 R (xs.eraseIdx n) (ys.eraseIdx n) := by
  induction h generalizing n with
  | nil => exact .nil
  | cons r t ih =>
    cases n with
    | zero => exact t
    | succ n => exact .cons r (ih n)

theorem set {xs : List α} {ys : List β} (h : All2 R xs ys) (n : Nat) {x : α} {y : β} (r : R x y) : All2 R (xs.set n x) (ys.set n y) := by
  induction h generalizing n with
  | nil => exact .nil
  | cons r' t ih =>
    cases n with
    | zero => exact .cons r t
    | succ n => exact .cons r' (ih n)

theorem get? {xs : List α} {ys : List β} (h : All2 R xs ys) (i : Nat) :
    (xs[i]? = none ∧ ys[i]? = none) ∨ ∃ x y, xs[i]? = some x ∧ ys[i]? = some y ∧ R x y := by
  induction h generalizing i with
  | nil => exact .inl ⟨rfl, rfl⟩
  | cons r t ih =>
    cases i with
    | zero => exact .inr ⟨_, _, rfl, rfl, r⟩
    | succ i => exact ih i

theorem get {xs : List α} {ys : List β} (h : All2 R xs ys) (i : Nat) (hx : i < xs.length) (hy : i < ys.length) : R xs[i] ys[i] := by
  rcases h.get? i with ⟨h1, _⟩ | ⟨x, y, h1, h2, r⟩
  · rw [List.getElem?_eq_getElem hx] at h1; cases h1
  · rw [List.getElem?_eq_getElem hx] at h1; rw [List.getElem?_eq_getElem hy] at h2
    cases h1; cases h2; exact r

theorem of_get {xs : List α} {ys : List β} (hl : xs.length = ys.length)
    (h : ∀ i (hx : i < xs.length) (hy : i < ys.length), R xs[i] ys[i]) : All2 R xs ys := by
  induction xs generalizing ys with
  | nil => cases ys with
    | nil => exact .nil
    | cons y ys => simp at hl
  | cons x xs ih => cases ys with
    | nil => simp at hl
    | cons y ys =>
      refine .cons (h 0 (by simp) (by simp)) (ih (by simpa using hl) fun i hx hy => ?_)
      exact h (i + 1) (by simpa using hx) (by simpa using hy)

theorem map {S : γ → δ → Prop} {f : α → γ} {g : β → δ} {xs : List α} {ys : List β} (h : All2 R xs ys)
    (hf : ∀ x y, R x y → S (f x) (g y)) : All2 S (xs.map f) (ys.map g) := by
  induction h with
  | nil => exact .nil
  | cons r _ ih => exact .cons (hf _ _ r) ih

theorem map_eq {f : α → γ} {g : β → γ} {xs : List α} {ys : List β} (h : All2 R xs ys)
    (hf : ∀ x y, R x y → f x = g y) : xs.map f = ys.map g := by
  induction h with
  | nil => rfl
  | cons r _ ih => rw [List.map_cons, List.map_cons, hf _ _ r, ih]

theorem zip {S : γ → δ → Prop} {xs : List α} {ys : List β} {us : List γ} {vs : List δ} (h : All2 R xs ys) (h' : All2 S us vs) :
    All2 (fun p q => R p.1 q.1 ∧ S p.2 q.2) (xs.zip us) (ys.zip vs) := by
  induction h generalizing us vs with
  | nil => exact .nil
  | cons r _ ih =>
    cases h' with
    | nil => exact .nil
    | cons s t' => exact .cons ⟨r, s⟩ (ih t')

theorem mono {S : α → β → Prop} {xs : List α} {ys : List β} (h : All2 R xs ys) (hs : ∀ x y, R x y → S x y) : All2 S xs ys := by
  induction h with
  | nil => exact .nil
  | cons r _ ih => exact .cons (hs _ _ r) ih

end All2

/-- Byte strings of the same length. -/
def LEq (x y : List Byte) : Prop := x.length = y.length

namespace Same
variable {α β γ δ : Type} {R : α → β → Prop} {S : γ → δ → Prop}

theorem pure {x : α} {y : β} (h : R x y) : Same R (Pure.pure x : Leaky α) (Pure.pure y) := ⟨rfl, .ok h⟩

theorem fault (e : Fault) : Same R (Leaky.fault e : Leaky α) (Leaky.fault e) := ⟨rfl, .error e⟩

theorem reveal (x : Leak) : Same (fun _ _ => True) (Leaky.reveal x) (Leaky.reveal x) := ⟨rfl, .ok trivial⟩

theorem bind {m : Leaky α} {n : Leaky β} {f : α → Leaky γ} {g : β → Leaky δ} (h : Same R m n)
    (hf : ∀ x y, R x y → Same S (f x) (g y)) : Same S (m >>= f) (n >>= g) := by
  obtain ⟨lm, rm⟩ := m
  obtain ⟨ln, rn⟩ := n
  obtain ⟨hl, hr⟩ := h
  dsimp only at hl hr
  subst hl
  cases hr with
  | error e => exact ⟨rfl, .error e⟩
  | ok r =>
    have := hf _ _ r
    exact ⟨congrArg (lm ++ ·) this.log, this.res⟩

/-- The first computation returns nothing of interest. -/
theorem seq {m n : Leaky Unit} {f g : Leaky γ} {S : γ → γ → Prop} (h : Same (fun _ _ => True) m n) (hf : Same S f g) :
    Same S (m >>= fun _ => f) (n >>= fun _ => g) := h.bind fun _ _ _ => hf

theorem branch {c d : Prop} [Decidable c] [Decidable d] (h : c ↔ d) {t e : Leaky α} {t' e' : Leaky β} (ht : c → Same R t t')
    (he : ¬ c → Same R e e') : Same R (Leaky.branch c t e) (Leaky.branch d t' e') := by
  unfold Leaky.branch
  by_cases hc : c
  · have hd := h.1 hc
    rw [if_pos hc, if_pos hd]
    refine ⟨?_, (ht hc).res⟩
    show Leak.branch (decide c) :: t.log = Leak.branch (decide d) :: t'.log
    rw [decide_eq_true hc, decide_eq_true hd, (ht hc).log]
  · have hd : ¬ d := fun x => hc (h.2 x)
    rw [if_neg hc, if_neg hd]
    refine ⟨?_, (he hc).res⟩
    show Leak.branch (decide c) :: e.log = Leak.branch (decide d) :: e'.log
    rw [decide_eq_false hc, decide_eq_false hd, (he hc).log]

theorem within (f : Feature) {m : Leaky α} {n : Leaky β} (h : Same R m n) : Same R (Leaky.within f m) (Leaky.within f n) :=
  ⟨congrArg (Leak.enter f :: ·) h.log, h.res⟩

theorem mono {R' : α → β → Prop} {m : Leaky α} {n : Leaky β} (h : Same R m n) (hr : ∀ x y, R x y → R' x y) : Same R' m n := by
  refine ⟨h.log, ?_⟩
  have := h.res
  revert this
  generalize m.erase = u
  generalize n.erase = v
  intro hh
  cases hh with
  | ok r => exact .ok (hr _ _ r)
  | error e => exact .error e

theorem mapList {f : α → Leaky γ} {g : β → Leaky δ} {xs : List α} {ys : List β} (h : All2 R xs ys)
    (hf : ∀ x y, R x y → Same S (f x) (g y)) : Same (All2 S) (Leaky.mapList f xs) (Leaky.mapList g ys) := by
  induction h with
  | nil => exact Same.pure .nil
  | cons r _ ih => exact (hf _ _ r).bind fun _ _ s => ih.bind fun _ _ t => Same.pure (.cons s t)

theorem mapVector {N : Nat} {f : α → Leaky γ} {g : β → Leaky δ} {v : Vector α N} {w : Vector β N}
    (h : ∀ i (hi : i < N), R v[i] w[i]) (hf : ∀ x y, R x y → Same S (f x) (g y)) :
    Same (fun v w => ∀ i (hi : i < N), S v[i] w[i]) (Leaky.mapVector f v) (Leaky.mapVector g w) := by
  have h2 : All2 R v.toList w.toList := All2.of_get (by simp) fun i hx hy => by
    simpa using h i (by simpa using hx)
  refine (Same.mapList h2 hf).bind fun xs ys t => ?_
  by_cases e : xs.toArray.size = N
  · have e' : ys.toArray.size = N := by simpa [← t.length] using e
    rw [dif_pos e, dif_pos e']
    refine Same.pure fun i hi => ?_
    have l1 : xs.length = N := by simpa using e
    have l2 : ys.length = N := by simpa using e'
    simpa using t.get i (by omega) (by omega)
  · have e' : ¬ ys.toArray.size = N := by simpa [← t.length] using e
    rw [dif_neg e, dif_neg e']
    exact Same.fault _

end Same

/-! ## Slices -/

theorem LEq.isEmpty {x y : List Byte} (h : LEq x y) : x.isEmpty = y.isEmpty := by
  unfold LEq at h
  cases x <;> cases y <;> simp_all

theorem sliceFromL_same {l l' : List Byte} (h : LEq l l') (i : Nat) : Same LEq (sliceFromL l i) (sliceFromL l' i) := by
  unfold LEq at h
  unfold sliceFromL
  rw [h]
  exact (Same.reveal _).seq (.branch Iff.rfl (fun _ => .pure (by simp [LEq, h])) fun _ => .fault _)

theorem sliceToL_same {l l' : List Byte} (h : LEq l l') (i : Nat) : Same LEq (sliceToL l i) (sliceToL l' i) := by
  unfold LEq at h
  unfold sliceToL
  rw [h]
  exact (Same.reveal _).seq (.branch Iff.rfl (fun _ => .pure (by simp [LEq, h])) fun _ => .fault _)

theorem copyRangeL_same {l l' : List Byte} (h : LEq l l') (lo hi : Nat) {s s' : List Byte} (hs : LEq s s') :
    Same LEq (copyRangeL l lo hi s) (copyRangeL l' lo hi s') := by
  unfold LEq at h hs
  unfold copyRangeL
  rw [h, hs]
  exact (Same.reveal _).seq (.branch Iff.rfl (fun _ => .pure (by simp [LEq, h, hs])) fun _ => .fault _)

theorem arrayRefL_same {l l' : List Byte} (h : LEq l l') (off n : Nat) : Same LEq (arrayRefL l off n) (arrayRefL l' off n) := by
  unfold LEq at h
  unfold arrayRefL
  rw [h]
  exact (Same.reveal _).seq (.branch Iff.rfl (fun _ => .pure (by simp [LEq, h])) fun _ => .fault _)

theorem rawRefL_same {l l' : List Byte} (h : LEq l l') (off n : Nat) : Same LEq (rawRefL l off n) (rawRefL l' off n) := by
  unfold LEq at h
  unfold rawRefL
  rw [h]
  refine (Same.reveal _).seq ?_
  split
  · exact .pure (by simp [LEq, h])
  · exact .fault _

theorem rassertL_same {c d : Bool} (h : c = d) : Same (fun _ _ => True) (rassertL c) (rassertL d) := by
  subst h
  exact .branch Iff.rfl (fun _ => .pure trivial) fun _ => .fault _

theorem checkedSubL_same (x y : Nat) : Same Eq (checkedSubL x y) (checkedSubL x y) :=
  .branch Iff.rfl (fun _ => .pure rfl) fun _ => .fault _

theorem addUsizeL_same (l x y : Nat) : Same Eq (addUsizeL l x y) (addUsizeL l x y) :=
  .branch Iff.rfl (fun _ => .pure rfl) fun _ => .fault _

theorem addU8L_same (x y : Nat) : Same Eq (addU8L x y) (addU8L x y) :=
  .branch Iff.rfl (fun _ => .pure rfl) fun _ => .fault _

theorem addU16L_same (x y : Nat) : Same Eq (addU16L x y) (addU16L x y) :=
  .branch Iff.rfl (fun _ => .pure rfl) fun _ => .fault _

theorem minL_same (x y : Nat) : Same Eq (minL x y) (minL x y) :=
  .branch Iff.rfl (fun _ => .pure rfl) fun _ => .pure rfl

/-! ## guts.rs and portable.rs -/

section
variable {a : Alg}

theorem flagWordL_same (b : Bool) : Same Eq (flagWordL a b) (flagWordL a b) :=
  .branch Iff.rfl (fun _ => .pure rfl) fun _ => .pure rfl

theorem finalBlockL_same {x x' : List Byte} (h : LEq x x') (off : Nat) {buf buf' : List Byte} (hb : LEq buf buf') (s : Stride) :
    Same (fun r r' => LEq r.1 r'.1 ∧ r.2 = r'.2) (finalBlockL a x off buf s) (finalBlockL a x' off buf' s) := by
  unfold finalBlockL
  have e : x.length = x'.length := h
  rw [e]
  refine (minL_same _ _).bind fun c c' hc => ?_
  subst hc
  refine (sliceFromL_same h c).bind fun o o' ho => ?_
  have eo : o.length = o'.length := ho
  rw [eo]
  refine .branch Iff.rfl (fun _ => ?_) fun _ => ?_
  · exact (arrayRefL_same ho _ _).bind fun _ _ r => .pure ⟨r, rfl⟩
  · exact (copyRangeL_same hb _ _ ho).bind fun _ _ r => .pure ⟨r, rfl⟩

theorem inputDebugAssertsL_same {x x' : List Byte} (h : LEq x x') (fin : Bool) :
    Same (fun _ _ => True) (inputDebugAssertsL a x fin) (inputDebugAssertsL a x' fin) := by
  unfold inputDebugAssertsL
  have e : x.length = x'.length := h
  rw [e, LEq.isEmpty h]
  exact .branch Iff.rfl (fun _ => (rassertL_same rfl).seq (rassertL_same rfl)) fun _ => .pure trivial

/-- A `compress_block` that reveals nothing about the block, the words and the flags. -/
def BlindBlock (cb : CompressBlockL a) : Prop :=
  ∀ b b' w w' c f f' f1 f1', Same (fun _ _ => True) (cb b w c f f1) (cb b' w' c f' f1')

theorem straight_blind (f : CompressBlock a) : BlindBlock (straight f) := fun _ _ _ _ _ _ _ _ _ => .pure trivial

namespace Portable

theorem gL_same (v v' : Vector (Word a) 16) (i j k l : Fin 16) (x x' y y' : Word a) :
    Same (fun _ _ => True) (gL a v i j k l x y) (gL a v' i j k l x' y') :=
  (Same.reveal _).seq ((Same.reveal _).seq ((Same.reveal _).seq ((Same.reveal _).seq (.pure trivial))))

theorem loadL_same (m m' : Vector (Word a) 16) (i : Fin 16) : Same (fun _ _ => True) (loadL m i) (loadL m' i) :=
  (Same.reveal _).seq (.pure trivial)

theorem mixL_same (m m' : Vector (Word a) 16) (s t : Fin 16) {f f' : Word a → Word a → Leaky (Vector (Word a) 16)}
    (h : ∀ x x' y y', Same (fun _ _ => True) (f x y) (f' x' y')) :
    Same (fun _ _ => True) (do f (← loadL m s) (← loadL m t)) (do f' (← loadL m' s) (← loadL m' t)) :=
  (loadL_same m m' s).bind fun _ _ _ => (loadL_same m m' t).bind fun _ _ _ => h _ _ _ _

theorem roundL_same (m m' v v' : Vector (Word a) 16) (r : Fin a.rows) :
    Same (fun _ _ => True) (roundL a m v r) (roundL a m' v' r) := by
  unfold roundL
  refine (Same.reveal _).seq ?_
  have step : ∀ {γ : Type} (w w' : Vector (Word a) 16) (i j k l s t : Fin 16) {f f' : Vector (Word a) 16 → Leaky γ} {S : γ → γ → Prop},
      (∀ u u', Same S (f u) (f' u')) →
      Same S (do let x ← loadL m s; let y ← loadL m t; let v ← gL a w i j k l x y; f v)
        (do let x ← loadL m' s; let y ← loadL m' t; let v ← gL a w' i j k l x y; f' v) := fun w w' i j k l s t f f' S h =>
    (loadL_same m m' s).bind fun _ _ _ => (loadL_same m m' t).bind fun _ _ _ => (gL_same w w' i j k l _ _ _ _).bind fun _ _ _ => h _ _
  refine step _ _ _ _ _ _ _ _ fun _ _ => step _ _ _ _ _ _ _ _ fun _ _ => step _ _ _ _ _ _ _ _ fun _ _ =>
    step _ _ _ _ _ _ _ _ fun _ _ => step _ _ _ _ _ _ _ _ fun _ _ => step _ _ _ _ _ _ _ _ fun _ _ =>
    step _ _ _ _ _ _ _ _ fun _ _ => ?_
  exact (loadL_same m m' _).bind fun _ _ _ => (loadL_same m m' _).bind fun _ _ _ => gL_same _ _ _ _ _ _ _ _ _ _

theorem roundsL_same (m m' : Vector (Word a) 16) (rs : List (Fin a.rows)) (v v' : Vector (Word a) 16) :
    Same (fun _ _ => True) (roundsL a m rs v) (roundsL a m' rs v') := by
  induction rs generalizing v v' with
  | nil => exact .pure trivial
  | cons r rs ih => exact (roundL_same m m' v v' r).bind fun _ _ _ => ih _ _

theorem compressBlockL_blind : BlindBlock (compressBlockL a) := fun _ _ _ _ _ _ _ _ _ =>
  (roundsL_same _ _ _ _ _).bind fun _ _ _ => .pure trivial

end Portable

/-- A way of reading blocks that reveals only positions. -/
def BlindRead (rd : List Byte → Nat → Nat → Leaky (List Byte)) : Prop :=
  ∀ l l' : List Byte, LEq l l' → ∀ off n, Same LEq (rd l off n) (rd l' off n)

theorem compress1IterL_same {cb : CompressBlockL a} (hcb : BlindBlock cb) {rd : List Byte → Nat → Nat → Leaky (List Byte)}
    (hrd : BlindRead rd) {x x' : List Byte} (h : LEq x x') (off : Nat) (blk blk' : List Byte) (len : Nat)
    (f f' f1 f1' : Word a) (s : Stride) (fuel k : Nat) (c : Count a) (w w' : Vector (Word a) 8) :
    Same (fun _ _ => True) (compress1IterL a cb rd x off blk len f f1 s fuel k c w)
      (compress1IterL a cb rd x' off blk' len f' f1' s fuel k c w') := by
  induction fuel generalizing k c w w' with
  | zero => exact .fault _
  | succ fuel ih =>
    unfold compress1IterL
    have e : x.length = x'.length := h
    rw [e]
    refine Same.bind (R := fun r r' => r.2.1 = r'.2.1) (.branch Iff.rfl (fun _ => .pure rfl) fun _ => ?_) ?_
    · exact (hrd _ _ h _ _).bind fun _ _ _ => (flagWordL_same _).bind fun _ _ _ => (flagWordL_same _).bind fun _ _ _ => .pure rfl
    · rintro ⟨b, d, u, v⟩ ⟨b', d', u', v'⟩ hd
      dsimp only at hd ⊢
      subst hd
      refine (hcb _ _ _ _ _ _ _ _ _).bind fun _ _ _ => .branch Iff.rfl (fun _ => .pure trivial) fun _ => ?_
      exact (addUsizeL_same _ _ _).bind fun _ _ r => by subst r; exact ih _ _ _ _

theorem compress1LoopL_same {cb : CompressBlockL a} (hcb : BlindBlock cb) {rd : List Byte → Nat → Nat → Leaky (List Byte)}
    (hrd : BlindRead rd) {x x' : List Byte} (h : LEq x x') (w w' : Vector (Word a) 8) (c : Count a) (ln fin : Bool) (s : Stride) :
    Same (fun _ _ => True) (compress1LoopL a cb rd x w c ln fin s) (compress1LoopL a cb rd x' w' c ln fin s) := by
  unfold compress1LoopL
  refine (inputDebugAssertsL_same h fin).seq ?_
  have e : x.length = x'.length := h
  rw [e]
  refine (finalBlockL_same h _ (rfl : LEq _ _) s).bind ?_
  rintro ⟨b, n, f⟩ ⟨b', n', f'⟩ ⟨_, hn⟩
  cases hn
  refine (flagWordL_same _).bind fun _ _ _ => (flagWordL_same _).bind fun _ _ _ => ?_
  rw [← e]
  exact compress1IterL_same hcb hrd h _ _ _ _ _ _ _ _ _ _ _ _ _ _

theorem compress1L_same (imp : Platform) {x x' : List Byte} (h : LEq x x') (w w' : Vector (Word a) 8) (c : Count a) (ln fin : Bool)
    (s : Stride) : Same (fun _ _ => True) (compress1L a imp x w c ln fin s) (compress1L a imp x' w' c ln fin s) := by
  refine (Same.reveal _).seq ?_
  have hraw : BlindRead rawRefL := fun _ _ h _ _ => rawRefL_same h _ _
  have harr : BlindRead arrayRefL := fun _ _ h _ _ => arrayRefL_same h _ _
  cases a with
  | b =>
    cases imp with
    | AVX2 => exact (compress1LoopL_same (straight_blind BAvx2.compressBlock) hraw h _ _ _ _ _ _).within _
    | SSE41 => exact compress1LoopL_same (Portable.compressBlockL_blind (a := .b)) harr h _ _ _ _ _ _
    | Portable => exact compress1LoopL_same (Portable.compressBlockL_blind (a := .b)) harr h _ _ _ _ _ _
  | s =>
    cases imp with
    | AVX2 => exact (compress1LoopL_same (straight_blind SSse41.compressBlock) hraw h _ _ _ _ _ _).within _
    | SSE41 => exact (compress1LoopL_same (straight_blind SSse41.compressBlock) hraw h _ _ _ _ _ _).within _
    | Portable => exact compress1LoopL_same (Portable.compressBlockL_blind (a := .s)) harr h _ _ _ _ _ _

end

end Blake2
