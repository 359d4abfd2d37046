import Verif.Model.Leak
/-!
# Which instruction sets a run uses

`Uses P Q m`: every function compiled for a certain feature that `m` enters is one whose feature satisfies `P`, and if `m` returns, what
it returns satisfies `Q`.
-/
namespace Blake2

/-- Everything entered satisfies `P`; what is returned satisfies `Q`. -/
structure Uses {α : Type} (P : Feature → Prop) (Q : α → Prop) (m : Leaky α) : Prop where
  log : ∀ f, Leak.enter f ∈ m.log → P f
  res : ∀ v, m.erase = .ok v → Q v

/-- What a client gets from `Uses`: nothing is asked of the value. -/
abbrev UsesAny {α : Type} (P : Feature → Prop) (m : Leaky α) : Prop := Uses P (fun _ => True) m

namespace Uses
variable {α β : Type} {P : Feature → Prop} {Q : α → Prop} {R : β → Prop}

theorem pure {x : α} (h : Q x) : Uses P Q (Pure.pure x : Leaky α) := ⟨fun _ h => (nomatch h), fun _ e => by cases e; exact h⟩

theorem fault (e : Fault) : Uses P Q (Leaky.fault e : Leaky α) := ⟨fun _ h => (nomatch h), nofun⟩

theorem branchLog (b : Bool) : UsesAny P (Leaky.reveal (.branch b)) :=
  ⟨fun _ h => by simp [Leaky.reveal] at h, fun _ _ => trivial⟩

theorem armLog (n : Nat) : UsesAny P (Leaky.reveal (.arm n)) := ⟨fun _ h => by simp [Leaky.reveal] at h, fun _ _ => trivial⟩

theorem accessLog (i j : Nat) : UsesAny P (Leaky.reveal (.access i j)) :=
  ⟨fun _ h => by simp [Leaky.reveal] at h, fun _ _ => trivial⟩

theorem bind {m : Leaky α} {f : α → Leaky β} (h : Uses P Q m) (hf : ∀ x, Q x → Uses P R (f x)) : Uses P R (m >>= f) := by
  obtain ⟨l, r⟩ := m
  cases r with
  | error e => exact ⟨h.log, nofun⟩
  | ok x =>
    have hx := hf x (h.res x rfl)
    refine ⟨fun g hg => ?_, fun v hv => hx.res v hv⟩
    rcases List.mem_append.1 (show Leak.enter g ∈ l ++ (f x).log from hg) with hg | hg
    · exact h.log g hg
    · exact hx.log g hg

theorem branch {c : Prop} [Decidable c] {t e : Leaky α} (ht : Uses P Q t) (he : Uses P Q e) : Uses P Q (Leaky.branch c t e) := by
  unfold Leaky.branch
  by_cases hc : c
  · rw [if_pos hc]
    exact ⟨fun f hf => ht.log f (by simpa using hf), ht.res⟩
  · rw [if_neg hc]
    exact ⟨fun f hf => he.log f (by simpa using hf), he.res⟩

theorem within {f : Feature} (hf : P f) {m : Leaky α} (h : Uses P Q m) : Uses P Q (Leaky.within f m) :=
  ⟨fun g hg => by
    rcases List.mem_cons.1 (show Leak.enter g ∈ Leak.enter f :: m.log from hg) with e | hg
    · cases e; exact hf
    · exact h.log g hg, h.res⟩

theorem mono {Q' : α → Prop} {m : Leaky α} (h : Uses P Q m) (hq : ∀ x, Q x → Q' x) : Uses P Q' m :=
  ⟨h.log, fun v hv => hq v (h.res v hv)⟩

theorem any {m : Leaky α} (h : Uses P Q m) : UsesAny P m := h.mono fun _ _ => trivial

theorem ite {c : Prop} [Decidable c] {t e : Leaky α} (ht : Uses P Q t) (he : Uses P Q e) : Uses P Q (if c then t else e) := by
  split
  · exact ht
  · exact he

theorem mapList {f : α → Leaky β} {xs : List α} (hf : ∀ x ∈ xs, Uses P R (f x)) : Uses P (fun ys => ∀ y ∈ ys, R y) (Leaky.mapList f xs) := by
  induction xs with
  | nil => exact pure (by simp)
  | cons x xs ih =>
    refine (hf x (by simp)).bind fun y hy => (ih fun x hx => hf x (by simp [hx])).bind fun ys hys => pure ?_
    intro z hz
    rcases List.mem_cons.1 hz with rfl | hz
    · exact hy
    · exact hys z hz

theorem mapVector {N : Nat} {f : α → Leaky β} {xs : Vector α N} (hf : ∀ x, UsesAny P (f x)) : UsesAny P (Leaky.mapVector f xs) := by
  refine (mapList (R := fun _ => True) fun x _ => hf x).bind fun ys _ => ?_
  split
  · exact pure trivial
  · exact fault _

end Uses

/-- Straight-line combinations of the rules. -/
macro "uses" : tactic => `(tactic|
  repeat (first
    | exact Uses.pure trivial
    | exact Uses.fault _
    | exact Uses.accessLog _ _
    | exact Uses.armLog _
    | exact Uses.branchLog _
    | assumption
    | refine Uses.branch ?_ ?_
    | refine Uses.ite ?_ ?_
    | refine Uses.mapVector fun _ => ?_
    | refine Uses.bind (Q := fun _ => True) ?_ fun _ _ => ?_))

variable {P : Feature → Prop}

/-! ## Slices and single blocks -/

theorem sliceFromL_uses (l : List Byte) (i : Nat) : UsesAny P (sliceFromL l i) := by unfold sliceFromL; uses
theorem sliceToL_uses (l : List Byte) (i : Nat) : UsesAny P (sliceToL l i) := by unfold sliceToL; uses
theorem copyRangeL_uses (l : List Byte) (i j : Nat) (x : List Byte) : UsesAny P (copyRangeL l i j x) := by unfold copyRangeL; uses
theorem arrayRefL_uses (l : List Byte) (i n : Nat) : UsesAny P (arrayRefL l i n) := by unfold arrayRefL; uses
theorem rawRefL_uses (l : List Byte) (i n : Nat) : UsesAny P (rawRefL l i n) := by unfold rawRefL; uses
theorem rassertL_uses (c : Bool) : UsesAny P (rassertL c) := by unfold rassertL; uses
theorem checkedSubL_uses (x y : Nat) : UsesAny P (checkedSubL x y) := by unfold checkedSubL; uses
theorem addUsizeL_uses (l x y : Nat) : UsesAny P (addUsizeL l x y) := by unfold addUsizeL; uses
theorem addU8L_uses (x y : Nat) : UsesAny P (addU8L x y) := by unfold addU8L; uses
theorem addU16L_uses (x y : Nat) : UsesAny P (addU16L x y) := by unfold addU16L; uses
theorem minL_uses (x y : Nat) : UsesAny P (minL x y) := by unfold minL; uses
theorem flagWordL_uses (a : Alg) (b : Bool) : UsesAny P (flagWordL a b) := by unfold flagWordL; uses

variable {a : Alg}

theorem finalBlockL_uses (x : List Byte) (o : Nat) (b : List Byte) (s : Stride) : UsesAny P (finalBlockL a x o b s) :=
  (minL_uses _ _).bind fun _ _ => (sliceFromL_uses _ _).bind fun _ _ => .branch
    ((arrayRefL_uses _ _ _).bind fun _ _ => .pure trivial) ((copyRangeL_uses _ _ _ _).bind fun _ _ => .pure trivial)

theorem inputDebugAssertsL_uses (x : List Byte) (f : Bool) : UsesAny P (inputDebugAssertsL a x f) :=
  .branch ((rassertL_uses _).bind fun _ _ => rassertL_uses _) (.pure trivial)

/-- A block compression that enters nothing. -/
def BlockUses (P : Feature → Prop) (f : CompressBlockL a) : Prop := ∀ b w c l n, UsesAny P (f b w c l n)

theorem straight_uses (f : CompressBlock a) : BlockUses P (straight f) := fun _ _ _ _ _ => .pure trivial

namespace Portable

theorem gL_uses (v : Vector (Word a) 16) (i j k l : Fin 16) (x y : Word a) : UsesAny P (gL a v i j k l x y) := by unfold gL; uses
theorem loadL_uses (m : Vector (Word a) 16) (i : Fin 16) : UsesAny P (loadL m i) := by unfold loadL; uses

theorem roundL_uses (m v : Vector (Word a) 16) (r : Fin a.rows) : UsesAny P (roundL a m v r) := by
  unfold roundL
  repeat (first
    | exact gL_uses _ _ _ _ _ _ _
    | exact loadL_uses _ _
    | exact Uses.accessLog _ _
    | refine Uses.bind (Q := fun _ => True) ?_ fun _ _ => ?_)

theorem roundsL_uses (m : Vector (Word a) 16) (rs : List (Fin a.rows)) (v : Vector (Word a) 16) : UsesAny P (roundsL a m rs v) := by
  induction rs generalizing v with
  | nil => exact .pure trivial
  | cons r rs ih => exact (roundL_uses _ _ _).bind fun _ _ => ih _

theorem compressBlockL_uses : BlockUses P (compressBlockL a) := fun _ _ _ _ _ => (roundsL_uses _ _ _).bind fun _ _ => .pure trivial

end Portable

theorem compress1IterL_uses {cb : CompressBlockL a} {rd : List Byte → Nat → Nat → Leaky (List Byte)} (hcb : BlockUses P cb)
    (hrd : ∀ x o n, UsesAny P (rd x o n)) (x : List Byte) (fo : Nat) (fb : List Byte) (fl : Nat) (flb fln : Word a) (s : Stride)
    (fuel o : Nat) (c : Count a) (w : Vector (Word a) 8) :
    UsesAny P (compress1IterL a cb rd x fo fb fl flb fln s fuel o c w) := by
  induction fuel generalizing o c w with
  | zero => exact .fault _
  | succ fuel ih =>
    refine Uses.bind (Q := fun _ => True) (.branch (.pure trivial) ?_) ?_
    · exact (hrd _ _ _).bind fun _ _ => (flagWordL_uses _ _).bind fun _ _ => (flagWordL_uses _ _).bind fun _ _ => .pure trivial
    · intro p _
      exact (hcb _ _ _ _ _).bind fun _ _ => .branch (.pure trivial) ((addUsizeL_uses _ _ _).bind fun _ _ => ih _ _ _)

theorem compress1LoopL_uses {cb : CompressBlockL a} {rd : List Byte → Nat → Nat → Leaky (List Byte)} (hcb : BlockUses P cb)
    (hrd : ∀ x o n, UsesAny P (rd x o n)) (x : List Byte) (w : Vector (Word a) 8) (c : Count a) (ln fin : Bool) (s : Stride) :
    UsesAny P (compress1LoopL a cb rd x w c ln fin s) :=
  (inputDebugAssertsL_uses _ _).bind fun _ _ => (finalBlockL_uses _ _ _ _).bind fun _ _ => (flagWordL_uses _ _).bind fun _ _ =>
    (flagWordL_uses _ _).bind fun _ _ => compress1IterL_uses hcb hrd _ _ _ _ _ _ _ _ _ _ _

/-- The features the arms of this implementation need. -/
def Allowed (P : Feature → Prop) (imp : Platform) : Prop :=
  match imp with
  | .Portable => True
  | .SSE41 => P .sse41
  | .AVX2 => P .sse41 ∧ P .avx2

theorem compress1L_uses {imp : Platform} (h : Allowed P imp) (x : List Byte) (w : Vector (Word a) 8) (c : Count a) (ln fin : Bool)
    (s : Stride) : UsesAny P (compress1L a imp x w c ln fin s) := by
  refine (Uses.armLog _).bind fun _ _ => ?_
  cases a with
  | b =>
    cases imp with
    | AVX2 => exact (compress1LoopL_uses (straight_uses BAvx2.compressBlock) rawRefL_uses _ _ _ _ _ _).within h.2
    | SSE41 => exact compress1LoopL_uses (Portable.compressBlockL_uses (a := .b)) arrayRefL_uses _ _ _ _ _ _
    | Portable => exact compress1LoopL_uses (Portable.compressBlockL_uses (a := .b)) arrayRefL_uses _ _ _ _ _ _
  | s =>
    cases imp with
    | AVX2 => exact (compress1LoopL_uses (straight_uses SSse41.compressBlock) rawRefL_uses _ _ _ _ _ _).within h.1
    | SSE41 => exact (compress1LoopL_uses (straight_uses SSse41.compressBlock) rawRefL_uses _ _ _ _ _ _).within h
    | Portable => exact compress1LoopL_uses (Portable.compressBlockL_uses (a := .s)) arrayRefL_uses _ _ _ _ _ _

/-! ## N-way loops -/

namespace NWay
variable {N : Nat} {R : Type}

theorem revealRounds_uses (rs : List (Fin a.rows)) : UsesAny P (loopIterL.revealRounds (a := a) rs) := by
  induction rs with
  | nil => exact .pure trivial
  | cons r rs ih =>
    refine (Uses.accessLog _ _).bind fun _ _ => Uses.bind (Q := fun _ => True) ⟨fun f hf => ?_, fun _ _ => trivial⟩ fun _ _ => ih
    simp at hf

theorem loopIterL_uses (o : VImpl a N R) (xs : Vector (List Byte) N) (n : Nat) (fin : Fin_ a N R) (s : Stride) (fuel off : Nat)
    (h : Vector R 8) (lo hi : R) : UsesAny P (loopIterL o xs n fin s fuel off h lo hi) := by
  induction fuel generalizing off h lo hi with
  | zero => exact .fault _
  | succ fuel ih =>
    refine Uses.bind (Q := fun _ => True) (.branch (.pure trivial) ?_) fun p _ => ?_
    · exact (Uses.mapVector fun _ => rawRefL_uses _ _ _).bind fun _ _ => .pure trivial
    · exact (revealRounds_uses _).bind fun _ _ => .branch (.pure trivial) ((addUsizeL_uses _ _ _).bind fun _ _ => ih _ _ _ _)

theorem assertJobsL_uses (fin : Bool) (jobs : List (Job a)) : UsesAny P (assertJobsL a fin jobs) := by
  induction jobs with
  | nil => exact .pure trivial
  | cons j js ih => exact (inputDebugAssertsL_uses _ _).bind fun _ _ => ih

theorem listMinL_uses (l : List Nat) : UsesAny P (listMinL l) := by
  induction l with
  | nil => exact .pure trivial
  | cons x xs ih =>
    refine ih.bind fun y _ => ?_
    cases y with
    | none => exact .pure trivial
    | some y => exact (minL_uses _ _).bind fun _ _ => .pure trivial

theorem compressLoopL_uses (o : VImpl a N R) (jobs : Vector (Job a) N) (fin : Bool) (s : Stride) :
    UsesAny P (compressLoopL o jobs fin s) := by
  refine (assertJobsL_uses _ _).bind fun _ _ => Uses.bind (Q := fun _ => True) ((listMinL_uses _).bind fun m _ => ?_) fun n _ => ?_
  · cases m with
    | none => exact .fault _
    | some => exact .pure trivial
  · refine (Uses.mapVector fun _ => finalBlockL_uses _ _ _ _).bind fun fins _ => Uses.bind (Q := fun _ => True) (.branch ?_ (.pure trivial))
      fun p _ => (loopIterL_uses _ _ _ _ _ _ _ _ _ _).bind fun r _ => Uses.mapVector fun i => ?_
    · exact (Uses.mapVector fun _ => flagWordL_uses _ _).bind fun _ _ => (Uses.mapVector fun _ => flagWordL_uses _ _).bind fun _ _ =>
        .pure trivial
    · exact (minL_uses _ _).bind fun _ _ => (sliceFromL_uses _ _).bind fun _ _ => .pure trivial

end NWay

theorem compressHiL_uses {imp : Platform} (h : Allowed P imp) (js : Vector (Job a) (hiDegree a)) (fin : Bool) (s : Stride) :
    UsesAny P (compressHiL a imp js fin s) := by
  cases a <;> cases imp <;> first | exact Uses.fault _ | exact (NWay.compressLoopL_uses _ _ _ _).within h.2

theorem compressLoL_uses {imp : Platform} (h : Allowed P imp) (js : Vector (Job a) (loDegree a)) (fin : Bool) (s : Stride) :
    UsesAny P (compressLoL a imp js fin s) := by
  cases a <;> cases imp <;>
    first | exact Uses.fault _ | exact (NWay.compressLoopL_uses _ _ _ _).within h | exact (NWay.compressLoopL_uses _ _ _ _).within h.1

/-! ## `compress_many` -/

namespace Many
variable {ι E : Type} [DecidableEq ι] {Inv : E → Prop}

/-- Every element keeps the invariant, whatever the iterator and the loops do to it. -/
structure SourceUses (P : Feature → Prop) (Inv : E → Prop) (src : SourceL a ι E) : Prop where
  pull : ∀ i e, Inv e → Uses P (fun r => Inv r.1) (src.pull i e)
  set : ∀ e w, Inv e → Inv (src.setWords e w)

theorem store_inv {mem : ι → E} (h : ∀ i, Inv (mem i)) (i : ι) {e : E} (he : Inv e) (j : ι) : Inv (store mem i e j) := by
  unfold store
  split
  · exact he
  · exact h j

theorem fillJobsVecL_uses {src : SourceL a ι E} (hs : SourceUses P Inv src) (n : Nat) (q : List ι) {mem : ι → E}
    (hm : ∀ i, Inv (mem i)) (vec : List (JobRef a ι)) : Uses P (fun r => ∀ i, Inv (r.1 i)) (fillJobsVecL src n mem q vec) := by
  induction q generalizing mem vec with
  | nil => exact (Uses.armLog _).bind fun _ _ => .pure hm
  | cons i q ih =>
    refine .branch ((Uses.armLog _).bind fun _ _ => (hs.pull i _ (hm i)).bind ?_) (.pure hm)
    rintro ⟨e, job⟩ he
    cases job with
    | none => exact ih (store_inv hm i he) vec
    | some job =>
      refine Uses.bind (Q := fun _ => True) ?_ fun vec _ => ih (store_inv hm i he) vec
      unfold pushL
      uses

theorem evictAllL_uses (is : List Nat) (vec : List (JobRef a ι)) : UsesAny P (evictAllL vec is) := by
  induction is generalizing vec with
  | nil => exact .pure trivial
  | cons i is ih =>
    refine Uses.bind (Q := fun _ => True) ((rassertL_uses _).bind fun _ _ => (Uses.accessLog _ _).bind fun _ _ => ?_) fun _ _ => ih _
    split
    · exact .branch (.pure trivial) (.pure trivial)
    · exact .pure trivial

theorem writeBack_inv {src : Source a ι E} (hs : ∀ e w, Inv e → Inv (src.setWords e w)) (l : List (JobRef a ι × Job a)) {mem : ι → E}
    (hm : ∀ i, Inv (mem i)) : ∀ i, Inv ((writeBack src mem l).1 i) := by
  induction l generalizing mem with
  | nil => exact hm
  | cons x l ih => exact ih (store_inv hm _ (hs _ _ (hm _)))

theorem runWideL_uses {src : SourceL a ι E} (hs : SourceUses P Inv src) (N : Nat) {loopN : Vector (Job a) N → Leaky (Vector (Job a) N)}
    (hl : ∀ js, UsesAny P (loopN js)) {mem : ι → E} (hm : ∀ i, Inv (mem i)) (vec : List (JobRef a ι)) :
    Uses P (fun r => ∀ i, Inv (r.1 i)) (runWideL src N loopN mem vec) := by
  refine (Uses.accessLog _ _).bind fun _ _ => ?_
  split
  · exact (hl _).bind fun js _ => .pure (writeBack_inv hs.set _ hm)
  · exact .fault _

theorem levelIterL_uses {src : SourceL a ι E} (hs : SourceUses P Inv src) (N : Nat) {loopN : Vector (Job a) N → Leaky (Vector (Job a) N)}
    (hl : ∀ js, UsesAny P (loopN js)) (fuel : Nat) (q : List ι) {mem : ι → E} (hm : ∀ i, Inv (mem i)) (vec : List (JobRef a ι)) :
    Uses P (fun r => ∀ i, Inv (r.1 i)) (levelIterL src N loopN fuel mem q vec) := by
  induction fuel generalizing mem q vec with
  | zero => exact .fault _
  | succ fuel ih =>
    refine (fillJobsVecL_uses hs N q hm vec).bind ?_
    rintro ⟨mem1, q1, vec1⟩ h1
    refine .branch (.pure h1) ((runWideL_uses hs N hl h1 vec1).bind ?_)
    rintro ⟨mem2, vec2⟩ h2
    exact (evictAllL_uses _ _).bind fun vec3 _ => ih q1 h2 vec3

theorem runOneL_uses {src : SourceL a ι E} (hs : SourceUses P Inv src) {imp : Platform} (hi : Allowed P imp) (fin : Bool) (s : Stride)
    {mem : ι → E} (hm : ∀ i, Inv (mem i)) (job : JobRef a ι) : Uses P (fun m => ∀ i, Inv (m i)) (runOneL src imp fin s mem job) :=
  (compress1L_uses hi _ _ _ _ _ _).bind fun _ _ => .pure (store_inv hm _ (hs.set _ _ (hm _)))

theorem compressManyL_uses {src : SourceL a ι E} (hs : SourceUses P Inv src) {imp : Platform} (hi : Allowed P imp) (fin : Bool)
    (s : Stride) {mem : ι → E} (hm : ∀ i, Inv (mem i)) (q : List ι) :
    Uses P (fun m => ∀ i, Inv (m i)) (compressManyL src imp fin s mem q) := by
  have level : ∀ N d (loopN : Vector (Job a) N → Leaky (Vector (Job a) N)), (∀ js, UsesAny P (loopN js)) → ∀ (mem : ι → E) q vec,
      (∀ i, Inv (mem i)) → Uses P (fun r => ∀ i, Inv (r.1 i)) (levelL src d N loopN mem q vec) := fun N d loopN hl mem q vec hm =>
    .branch (levelIterL_uses hs N hl _ q hm vec) (.pure hm)
  refine (level _ _ _ (fun js => compressHiL_uses hi js fin s) _ _ _ hm).bind ?_
  rintro ⟨m1, q1, v1⟩ h1
  refine (level _ _ _ (fun js => compressLoL_uses hi js fin s) _ _ _ h1).bind ?_
  rintro ⟨m2, q2, v2⟩ h2
  refine Uses.bind (Q := fun m => ∀ i, Inv (m i)) ?_ ?_
  · show Uses P _ (runVecL src imp fin s m2 v2)
    dsimp only at h2
    induction v2 generalizing m2 with
    | nil => exact (Uses.armLog _).bind fun _ _ => .pure h2
    | cons j v ih => exact (Uses.armLog _).bind fun _ _ => (runOneL_uses hs hi fin s h2 j).bind fun m hm => ih m hm
  · intro m3 h3
    show Uses P _ (runQueueL src imp fin s m3 q2)
    clear h1 h2
    induction q2 generalizing m3 with
    | nil => exact (Uses.armLog _).bind fun _ _ => .pure h3
    | cons i q ih =>
      refine (Uses.armLog _).bind fun _ _ => (hs.pull i _ (h3 i)).bind ?_
      rintro ⟨e, job⟩ he
      cases job with
      | none => exact ih _ (store_inv h3 i he)
      | some job => exact (runOneL_uses hs hi fin s (store_inv h3 i he) job).bind fun m hm => ih m hm

end Many

/-! ## The sequential API -/

theorem setter_uses (c : Spec.Setter) (p : Params a) : Uses P (fun q => q.implementation = p.implementation) (c.runL p) := by
  cases c with
  | hashLength n => exact (rassertL_uses _).bind fun _ _ => .pure rfl
  | key k => exact (rassertL_uses _).bind fun _ _ => (copyRangeL_uses _ _ _ _).bind fun _ _ => .pure rfl
  | salt k => exact (rassertL_uses _).bind fun _ _ => (copyRangeL_uses _ _ _ _).bind fun _ _ => .pure rfl
  | personal k => exact (rassertL_uses _).bind fun _ _ => (copyRangeL_uses _ _ _ _).bind fun _ _ => .pure rfl
  | nodeOffset n =>
    cases a with
    | b => exact .pure rfl
    | s => exact (rassertL_uses _).bind fun _ _ => .pure rfl
  | innerHashLength n => exact (rassertL_uses _).bind fun _ _ => .pure rfl
  | fanout n => exact .pure rfl
  | maxDepth n => exact .pure rfl
  | maxLeafLength n => exact .pure rfl
  | nodeDepth n => exact .pure rfl
  | lastNode b => exact .pure rfl

theorem buildL_uses (calls : List Spec.Setter) (p : Params a) :
    Uses P (fun q => q.implementation = p.implementation) (p.buildL calls) := by
  induction calls generalizing p with
  | nil => exact .pure rfl
  | cons c cs ih => exact (setter_uses c p).bind fun q hq => (ih q).mono fun _ h => h.trans hq

namespace State

theorem withParamsL_uses (p : Params a) : Uses P (fun s : State a => s.implementation = p.implementation) (withParamsL p) :=
  .branch (.pure rfl) (.pure rfl)

theorem fillBufL_uses (s : State a) (x : List Byte) : Uses P (fun r => r.1.implementation = s.implementation) (s.fillBufL x) :=
  (checkedSubL_uses _ _).bind fun _ _ => (minL_uses _ _).bind fun _ _ => (sliceToL_uses _ _).bind fun _ _ =>
    (copyRangeL_uses _ _ _ _).bind fun _ _ => (addU8L_uses _ _).bind fun _ _ => (sliceFromL_uses _ _).bind fun _ _ => .pure rfl

theorem compressBufferIfPossibleL_uses {s : State a} (h : Allowed P s.implementation) (x : List Byte) :
    Uses P (fun r => r.1.implementation = s.implementation) (s.compressBufferIfPossibleL x) := by
  refine .branch ((fillBufL_uses s x).bind ?_) (.pure rfl)
  rintro ⟨t, y⟩ ht
  dsimp only at ht ⊢
  exact .branch ((compress1L_uses (by rw [ht]; exact h) _ _ _ _ _ _).bind fun _ _ => .pure ht) (.pure ht)

theorem updateL_uses {s : State a} (h : Allowed P s.implementation) (x : List Byte) :
    Uses P (fun t => t.implementation = s.implementation) (s.updateL x) := by
  refine (compressBufferIfPossibleL_uses h x).bind ?_
  rintro ⟨t, y⟩ ht
  dsimp only at ht ⊢
  refine Uses.bind (Q := fun r => r.1.implementation = s.implementation) (.branch ?_ (.pure ht)) ?_
  · exact (sliceToL_uses _ _).bind fun _ _ => (compress1L_uses (by rw [ht]; exact h) _ _ _ _ _ _).bind fun _ _ =>
      (sliceFromL_uses _ _).bind fun _ _ => .pure ht
  · rintro ⟨u, z⟩ hu
    exact (fillBufL_uses u z).bind fun r hr => .pure (hr.trans hu)

theorem finalizeL_uses {s : State a} (h : Allowed P s.implementation) : UsesAny P s.finalizeL :=
  (sliceToL_uses _ _).bind fun _ _ => (compress1L_uses h _ _ _ _ _ _).bind fun _ _ => .pure trivial

theorem getCountL_uses (dbg : Bool) (s : State a) : UsesAny P (s.getCountL dbg) :=
  .branch (.branch (.fault _) (.pure trivial)) (.pure trivial)

end State

theorem hashL_uses {p : Params a} (h : Allowed P p.implementation) (x : List Byte) : UsesAny P (p.hashL x) :=
  .branch ((State.withParamsL_uses p).bind fun s hs => (State.updateL_uses (by rw [hs]; exact h) x).bind fun t ht =>
      State.finalizeL_uses (by rw [ht, hs]; exact h))
    ((compress1L_uses h _ _ _ _ _ _).bind fun _ _ => .pure trivial)

theorem asBytesL_uses (h : Hash a) : UsesAny P h.asBytesL := sliceToL_uses _ _

/-! ## `update_many` and `hash_many` -/

theorem updateManyPullL_uses {ι : Type} (i : ι) (x : List Byte) {s : State a} (h : Allowed P s.implementation) :
    Uses P (fun r => Allowed P r.1.implementation) (updateManyPullL i x s) := by
  refine (State.compressBufferIfPossibleL_uses h x).bind ?_
  rintro ⟨t, y⟩ ht
  dsimp only at ht ⊢
  have ht' : Allowed P t.implementation := by rw [ht]; exact h
  exact .branch (.pure ht') ((checkedSubL_uses _ _).bind fun _ _ => (sliceToL_uses _ _).bind fun _ _ => (sliceFromL_uses _ _).bind fun _ _ =>
    (copyRangeL_uses _ _ _ _).bind fun _ _ => .branch (.pure ht') (.pure ht'))

theorem updateManyL_uses (pairs : List (State a × List Byte)) (h : ∀ p ∈ pairs, Allowed P p.1.implementation) :
    Uses P (fun out => ∀ s ∈ out, Allowed P s.implementation) (updateManyL pairs) := by
  cases pairs with
  | nil => exact (Uses.armLog _).bind fun _ _ => .pure (by simp)
  | cons first rest =>
    refine (Uses.armLog _).bind fun _ _ => Uses.bind (Q := fun m => ∀ i, Allowed P (m i).implementation) ?_ fun m hm => .pure ?_
    · refine Many.compressManyL_uses (Inv := fun s : State a => Allowed P s.implementation) ⟨fun i s hs => updateManyPullL_uses i _ hs,
        fun s w hs => hs⟩ (h first (by simp)) false .Serial (fun i => h _ ?_) _
      exact List.getElem_mem i.isLt
    · intro s hs
      obtain ⟨i, rfl⟩ := List.mem_ofFn.1 hs
      exact hm i

theorem newL_uses {p : Params a} (h : Allowed P p.implementation) (x : List Byte) :
    Uses P (fun j => Allowed P j.implementation) (HashManyJob.newL p x) := by
  refine Uses.bind (Q := fun _ => True) (.branch (.branch ?_ ?_) (.pure trivial)) fun _ _ => .pure h
  · exact (compress1L_uses h _ _ _ _ _ _).bind fun _ _ => .pure trivial
  · exact (compress1L_uses h _ _ _ _ _ _).bind fun _ _ => .pure trivial

theorem hashManyPullL_uses {ι : Type} (i : ι) {j : HashManyJob a} (h : Allowed P j.implementation) :
    Uses P (fun r => Allowed P r.1.implementation) (hashManyPullL i j) := by
  unfold hashManyPullL
  exact .branch (.pure (Q := fun r : HashManyJob a × Option (JobRef a ι) => Allowed P r.1.implementation) h)
    (.pure (Q := fun r : HashManyJob a × Option (JobRef a ι) => Allowed P r.1.implementation) h)

theorem hashManyL_uses (jobs : List (HashManyJob a)) (h : ∀ j ∈ jobs, Allowed P j.implementation) :
    Uses P (fun out => ∀ j ∈ out, Allowed P j.implementation) (hashManyL jobs) := by
  cases jobs with
  | nil => exact (Uses.armLog _).bind fun _ _ => .pure (by simp)
  | cons first rest =>
    refine (Uses.armLog _).bind fun _ _ => Uses.bind (Q := fun m => ∀ i, Allowed P (m i).implementation) ?_ fun m hm => .pure ?_
    · refine Many.compressManyL_uses (Inv := fun j : HashManyJob a => Allowed P j.implementation)
        ⟨fun i s hs => hashManyPullL_uses i hs, fun s w hs => hs⟩ (h first (by simp)) true .Serial (fun i => h _ ?_) _
      exact List.getElem_mem i.isLt
    · intro s hs
      obtain ⟨i, rfl⟩ := List.mem_ofFn.1 hs
      exact hm i

/-! ## Tree states -/

theorem compressLeavesL_uses {mk : Fin (parDegree a) → Leaky (List Byte × Count a × Bool)} (hmk : ∀ i, UsesAny P (mk i)) {imp : Platform}
    (h : Allowed P imp) (fin : Bool) (leaves : LeafWords a) : UsesAny P (compressLeavesL mk imp fin leaves) :=
  (Many.compressManyL_uses (Inv := fun _ => True) ⟨fun i _ _ => (hmk i).bind fun _ _ => .pure trivial, fun _ _ _ => trivial⟩ h fin
    .Parallel (fun _ => trivial) _).bind fun _ _ => .pure trivial

theorem finalizeRootWordsL_uses (lw : LeafWords a) (rw : Vector (Word a) 8) (n : BitVec 8) {imp : Platform} (h : Allowed P imp) :
    UsesAny P (finalizeRootWordsL lw rw n imp) := (compress1L_uses h _ _ _ _ _ _).bind fun _ _ => .pure trivial

namespace PParams

theorem toWordsL_uses (p : PParams a) : UsesAny P p.toWordsL := by
  have off : ∀ (q : Params a) n, UsesAny P (q.setNodeOffsetL n) := fun q n => by
    cases a with
    | b => exact .pure trivial
    | s => exact (rassertL_uses _).bind fun _ _ => .pure trivial
  refine Uses.bind (Q := fun _ => True) ?_ fun base _ => (Uses.mapVector fun i => (off _ _).bind fun _ _ => .pure trivial).bind fun _ _ =>
    Uses.bind (Q := fun _ => True) ((off _ _).bind fun _ _ => .pure trivial) fun _ _ => .pure trivial
  refine Uses.bind (Q := fun _ => True) ((rassertL_uses _).bind fun _ _ => .pure trivial) fun _ _ => (sliceToL_uses _ _).bind fun _ _ =>
    Uses.bind (Q := fun _ => True) ((rassertL_uses _).bind fun _ _ => (copyRangeL_uses _ _ _ _).bind fun _ _ => .pure trivial) fun _ _ =>
      (rassertL_uses _).bind fun _ _ => .pure trivial

theorem setter_uses (c : Spec.PSetter) (p : PParams a) : Uses P (fun q => q.implementation = p.implementation) (c.runL p) := by
  cases c with
  | hashLength n => exact (rassertL_uses _).bind fun _ _ => .pure rfl
  | key k => exact (rassertL_uses _).bind fun _ _ => (copyRangeL_uses _ _ _ _).bind fun _ _ => .pure rfl

theorem buildL_uses (calls : List Spec.PSetter) (p : PParams a) :
    Uses P (fun q => q.implementation = p.implementation) (p.buildL calls) := by
  induction calls generalizing p with
  | nil => exact .pure rfl
  | cons c cs ih => exact (setter_uses c p).bind fun q hq => (ih q).mono fun _ h => h.trans hq

end PParams

theorem copyAtL_uses (b : List Byte) (o : Nat) (x : List Byte) : UsesAny P (copyAtL b o x) := .branch (copyRangeL_uses _ _ _ _) (.fault _)

namespace PState

theorem withParamsL_uses (p : PParams a) : Uses P (fun s : PState a => s.implementation = p.implementation) (withParamsL p) := by
  refine (PParams.toWordsL_uses p).bind fun lr _ => Uses.bind (Q := fun _ => True) (.branch ?_ (.pure trivial)) fun _ _ => .pure rfl
  have : ∀ (is : List Nat) st, UsesAny P (placeKeysL p is st) := by
    intro is
    induction is with
    | nil => exact fun _ => .pure trivial
    | cons i is ih => exact fun st => (sliceToL_uses _ _).bind fun _ _ => (copyAtL_uses _ _ _).bind fun _ _ => ih _
  exact this _ _

theorem fillBufL_uses (s : PState a) (x : List Byte) : Uses P (fun r => r.1.implementation = s.implementation) (s.fillBufL x) :=
  (checkedSubL_uses _ _).bind fun _ _ => (minL_uses _ _).bind fun _ _ => (sliceToL_uses _ _).bind fun _ _ =>
    (copyAtL_uses _ _ _).bind fun _ _ => (addU16L_uses _ _).bind fun _ _ => (sliceFromL_uses _ _).bind fun _ _ => .pure rfl

theorem compressToLeavesL_uses {s : PState a} (h : Allowed P s.implementation) (x : List Byte) :
    Uses P (fun t => t.implementation = s.implementation) (s.compressToLeavesL x) :=
  (compressLeavesL_uses (fun _ => (sliceFromL_uses _ _).bind fun _ _ => .pure trivial) h _ _).bind fun _ _ => .pure rfl

theorem updateL_uses {s : PState a} (h : Allowed P s.implementation) (x : List Byte) :
    Uses P (fun t => t.implementation = s.implementation) (s.updateL x) := by
  refine Uses.bind (Q := fun r => r.1.implementation = s.implementation) (.branch ((fillBufL_uses s x).bind ?_) (.pure rfl)) ?_
  · rintro ⟨t, y⟩ ht
    dsimp only at ht ⊢
    have ht' : Allowed P t.implementation := by rw [ht]; exact h
    refine .branch (.branch ?_ ?_) (.pure ht)
    · exact (compressToLeavesL_uses ht' _).bind fun u hu => .pure (hu.trans ht)
    · exact (sliceToL_uses _ _).bind fun _ _ => (compressToLeavesL_uses ht' _).bind fun u hu => (sliceToL_uses _ _).bind fun _ _ =>
        (sliceFromL_uses _ _).bind fun _ _ => (copyRangeL_uses _ _ _ _).bind fun _ _ => .pure (hu.trans ht)
  rintro ⟨t, y⟩ ht
  dsimp only at ht ⊢
  have ht' : Allowed P t.implementation := by rw [ht]; exact h
  refine Uses.bind (Q := fun r => r.1.implementation = s.implementation) (.branch ?_ (.pure ht)) ?_
  · exact (sliceToL_uses _ _).bind fun _ _ => (compressToLeavesL_uses ht' _).bind fun u hu => (sliceFromL_uses _ _).bind fun _ _ =>
      .pure (hu.trans ht)
  rintro ⟨u, z⟩ hu
  dsimp only at hu ⊢
  exact (fillBufL_uses u z).bind fun r hr => (rassertL_uses _).bind fun _ _ => .pure (hr.trans hu)

theorem finalizeL_uses {s : PState a} (h : Allowed P s.implementation) : UsesAny P s.finalizeL :=
  (compressLeavesL_uses (fun _ => (sliceToL_uses _ _).bind fun _ _ => (minL_uses _ _).bind fun _ _ => (sliceFromL_uses _ _).bind fun _ _ =>
    .pure trivial) h _ _).bind fun _ _ => finalizeRootWordsL_uses _ _ _ h

theorem getCountL_uses (dbg : Bool) (s : PState a) : UsesAny P (s.getCountL dbg) :=
  .branch (.branch (.fault _) (.pure trivial)) (.pure trivial)

end PState

theorem phashL_uses {p : PParams a} (h : Allowed P p.implementation) (x : List Byte) : UsesAny P (p.hashL x) :=
  .branch ((PState.withParamsL_uses p).bind fun s hs => (PState.updateL_uses (by rw [hs]; exact h) x).bind fun t ht =>
      PState.finalizeL_uses (by rw [ht, hs]; exact h))
    ((PParams.toWordsL_uses p).bind fun _ _ => (compressLeavesL_uses (fun _ => (minL_uses _ _).bind fun _ _ =>
      (sliceFromL_uses _ _).bind fun _ _ => .pure trivial) h _ _).bind fun _ _ => finalizeRootWordsL_uses _ _ _ h)

/-! ## Histories -/

theorem getStateL_uses {S : Type} {Q : S → Prop} {ss : List S} (h : ∀ s ∈ ss, Q s) (i : Nat) : Uses P Q (getStateL ss i) := by
  refine (Uses.accessLog _ _).bind fun _ _ => ?_
  split
  · next s e => exact .pure (h s (List.mem_of_getElem? e))
  · exact .fault _

theorem set_inv {S : Type} {Q : S → Prop} {ss : List S} (h : ∀ s ∈ ss, Q s) (i : Nat) {t : S} (ht : Q t) : ∀ s ∈ ss.set i t, Q s :=
  fun s hs => (List.mem_or_eq_of_mem_set hs).elim (h s) fun e => e ▸ ht

theorem append_inv {S : Type} {Q : S → Prop} {ss : List S} (h : ∀ s ∈ ss, Q s) {t : S} (ht : Q t) : ∀ s ∈ ss ++ [t], Q s :=
  fun s hs => (List.mem_append.1 hs).elim (h s) fun e => by rw [List.mem_singleton.1 e]; exact ht

/-- The platform an operation detects is allowed. -/
def OpAllowed (P : Feature → Prop) : Spec.Op Platform → Prop
  | .create plat _ => Allowed P plat
  | _ => True

/-- The platform an operation on tree states detects is allowed. -/
def POpAllowed (P : Feature → Prop) : Spec.POp Platform → Prop
  | .create plat _ => Allowed P plat
  | _ => True

theorem execL_uses (dbg : Bool) {ss : List (State a)} (h : ∀ s ∈ ss, Allowed P s.implementation) (op : Spec.Op Platform)
    (ho : OpAllowed P op) : Uses P (fun r => ∀ s ∈ r.1, Allowed P s.implementation) (op.execL dbg ss) := by
  cases op with
  | create plat calls =>
    refine (buildL_uses calls _).bind fun p hp => (State.withParamsL_uses p).bind fun s hs => .pure (append_inv h ?_)
    rw [hs, hp]; exact ho
  | clone i => exact (getStateL_uses h i).bind fun s hs => .pure (append_inv h hs)
  | update i x => exact (getStateL_uses h i).bind fun s hs => (State.updateL_uses hs x).bind fun t ht => .pure (set_inv h i (by rw [ht]; exact hs))
  | updateMany jobs =>
    have hpick : ∀ j : Nat × List Byte, Uses P (fun p : State a × List Byte => Allowed P p.1.implementation)
        (do let s ← getStateL ss j.1; pure (s, j.2)) := fun j =>
      Uses.bind (getStateL_uses h j.1) fun s hs => Uses.pure (Q := fun p : State a × List Byte => Allowed P p.1.implementation) hs
    refine (Uses.mapList fun j _ => hpick j).bind fun pairs hp => (updateManyL_uses pairs hp).bind fun out ho => .pure ?_
    have : ∀ (l : List ((Nat × List Byte) × State a)) (ss : List (State a)), (∀ q ∈ l, Allowed P q.2.implementation) →
        (∀ s ∈ ss, Allowed P s.implementation) → ∀ s ∈ l.foldl (fun ss p => ss.set p.1.1 p.2) ss, Allowed P s.implementation := by
      intro l
      induction l with
      | nil => exact fun ss _ h => h
      | cons q l ih =>
        intro ss hq h
        exact ih _ (fun q' h' => hq q' (List.mem_cons_of_mem _ h')) (set_inv h _ (hq q (by simp)))
    exact this _ _ (fun q hq => ho _ (List.of_mem_zip hq).2) h
  | write i x => exact (getStateL_uses h i).bind fun s hs => (State.updateL_uses hs x).bind fun t ht => .pure (set_inv h i (by rw [ht]; exact hs))
  | flush i => exact (getStateL_uses h i).bind fun s hs => .pure (set_inv h i hs)
  | setLastNode i b => exact (getStateL_uses h i).bind fun s hs => .pure (set_inv h i hs)
  | finalize i => exact (getStateL_uses h i).bind fun s hs => (State.finalizeL_uses hs).bind fun g _ => (asBytesL_uses g).bind fun _ _ => .pure h
  | count i => exact (getStateL_uses h i).bind fun s hs => (State.getCountL_uses dbg s).bind fun _ _ => .pure h

theorem execAllL_uses (dbg : Bool) (ops : List (Spec.Op Platform)) {ss : List (State a)} (h : ∀ s ∈ ss, Allowed P s.implementation)
    (ho : ∀ op ∈ ops, OpAllowed P op) : UsesAny P (execAllL dbg ss ops) := by
  induction ops generalizing ss with
  | nil => exact .pure trivial
  | cons op ops ih =>
    refine (execL_uses dbg h op (ho op (by simp))).bind ?_
    rintro ⟨ss1, o⟩ h1
    exact (ih h1 fun op' h' => ho op' (List.mem_cons_of_mem _ h')).bind fun _ _ => .pure trivial

theorem pexecL_uses (dbg : Bool) {ss : List (PState a)} (h : ∀ s ∈ ss, Allowed P s.implementation) (op : Spec.POp Platform)
    (ho : POpAllowed P op) : Uses P (fun r => ∀ s ∈ r.1, Allowed P s.implementation) (op.execL dbg ss) := by
  cases op with
  | create plat calls =>
    refine (PParams.buildL_uses calls _).bind fun p hp => (PState.withParamsL_uses p).bind fun s hs => .pure (append_inv h ?_)
    rw [hs, hp]; exact ho
  | clone i => exact (getStateL_uses h i).bind fun s hs => .pure (append_inv h hs)
  | update i x => exact (getStateL_uses h i).bind fun s hs => (PState.updateL_uses hs x).bind fun t ht => .pure (set_inv h i (by rw [ht]; exact hs))
  | write i x => exact (getStateL_uses h i).bind fun s hs => (PState.updateL_uses hs x).bind fun t ht => .pure (set_inv h i (by rw [ht]; exact hs))
  | flush i => exact (getStateL_uses h i).bind fun s hs => .pure (set_inv h i hs)
  | finalize i => exact (getStateL_uses h i).bind fun s hs => (PState.finalizeL_uses hs).bind fun g _ => (asBytesL_uses g).bind fun _ _ => .pure h
  | count i => exact (getStateL_uses h i).bind fun s hs => (PState.getCountL_uses dbg s).bind fun _ _ => .pure h

theorem pexecAllL_uses (dbg : Bool) (ops : List (Spec.POp Platform)) {ss : List (PState a)} (h : ∀ s ∈ ss, Allowed P s.implementation)
    (ho : ∀ op ∈ ops, POpAllowed P op) : UsesAny P (pexecAllL dbg ss ops) := by
  induction ops generalizing ss with
  | nil => exact .pure trivial
  | cons op ops ih =>
    refine (pexecL_uses dbg h op (ho op (by simp))).bind ?_
    rintro ⟨ss1, o⟩ h1
    exact (ih h1 fun op' h' => ho op' (List.mem_cons_of_mem _ h')).bind fun _ _ => .pure trivial

theorem hashAllL_uses (dbg : Bool) (reqs : List (Platform × List Spec.Setter × List Byte)) (h : ∀ r ∈ reqs, Allowed P r.1) :
    UsesAny P (hashAllL (a := a) dbg reqs) := by
  refine (Uses.mapList (R := fun j : HashManyJob a => Allowed P j.implementation) fun r hr => (buildL_uses r.2.1 _).bind fun p hp =>
    newL_uses (by rw [hp]; exact h r hr) r.2.2).bind fun jobs hj => (hashManyL_uses jobs hj).bind fun out _ =>
      (Uses.mapList (R := fun _ => True) fun j _ => ?_).any
  exact Uses.bind (Q := fun _ => True) (.branch (.fault _) (.pure trivial)) fun g _ => asBytesL_uses g

end Blake2
