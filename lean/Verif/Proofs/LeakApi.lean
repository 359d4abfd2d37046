import Verif.Proofs.LeakRel
import Verif.LeakSpec
/-! # The functions of the API reveal only what is public -/
namespace Blake2
open Spec

variable {a : Alg}

/-! ## lib.rs -/

/-- Parameters that agree on what is public. -/
structure PubParams (p q : Params a) : Prop where
  hashLength : p.hashLength = q.hashLength
  keyLength : p.keyLength = q.keyLength
  keyBlock : LEq p.keyBlock q.keyBlock
  salt : LEq p.salt q.salt
  personal : LEq p.personal q.personal
  lastNode : p.lastNode = q.lastNode
  implementation : p.implementation = q.implementation

theorem PubParams.rfl {p : Params a} : PubParams p p := ⟨Eq.refl _, Eq.refl _, Eq.refl _, Eq.refl _, Eq.refl _, Eq.refl _, Eq.refl _⟩

theorem setHashLengthL_same {p q : Params a} (h : PubParams p q) (n : Nat) : Same PubParams (p.setHashLengthL n) (q.setHashLengthL n) :=
  (rassertL_same rfl).seq (.pure ⟨rfl, h.keyLength, h.keyBlock, h.salt, h.personal, h.lastNode, h.implementation⟩)

theorem setKeyL_same {p q : Params a} (h : PubParams p q) {k k' : List Byte} (hk : LEq k k') : Same PubParams (p.setKeyL k) (q.setKeyL k') := by
  have e : k.length = k'.length := hk
  unfold Params.setKeyL
  rw [e]
  exact (rassertL_same rfl).seq ((copyRangeL_same (rfl : LEq _ _) _ _ hk).bind fun _ _ r =>
    .pure ⟨h.hashLength, rfl, r, h.salt, h.personal, h.lastNode, h.implementation⟩)

theorem setSaltL_same {p q : Params a} (h : PubParams p q) {k k' : List Byte} (hk : LEq k k') : Same PubParams (p.setSaltL k) (q.setSaltL k') := by
  have e : k.length = k'.length := hk
  unfold Params.setSaltL
  rw [e]
  exact (rassertL_same rfl).seq ((copyRangeL_same (rfl : LEq _ _) _ _ hk).bind fun _ _ r =>
    .pure ⟨h.hashLength, h.keyLength, h.keyBlock, r, h.personal, h.lastNode, h.implementation⟩)

theorem setPersonalL_same {p q : Params a} (h : PubParams p q) {k k' : List Byte} (hk : LEq k k') :
    Same PubParams (p.setPersonalL k) (q.setPersonalL k') := by
  have e : k.length = k'.length := hk
  unfold Params.setPersonalL
  rw [e]
  exact (rassertL_same rfl).seq ((copyRangeL_same (rfl : LEq _ _) _ _ hk).bind fun _ _ r =>
    .pure ⟨h.hashLength, h.keyLength, h.keyBlock, h.salt, r, h.lastNode, h.implementation⟩)

theorem setNodeOffsetL_same {p q : Params a} (h : PubParams p q) {n m : BitVec 64}
    (hn : (Setter.nodeOffset n).InRange a ↔ (Setter.nodeOffset m).InRange a) :
    Same PubParams (p.setNodeOffsetL n) (q.setNodeOffsetL m) := by
  have r : PubParams (a := a) { p with nodeOffset := n } { q with nodeOffset := m } :=
    ⟨h.hashLength, h.keyLength, h.keyBlock, h.salt, h.personal, h.lastNode, h.implementation⟩
  cases a with
  | b => exact .pure r
  | s => exact (rassertL_same (decide_eq_decide.2 hn)).seq (.pure r)

theorem setInnerHashLengthL_same {p q : Params a} (h : PubParams p q) {n m : Nat} (hn : n ≤ a.outbytes ↔ m ≤ a.outbytes) :
    Same PubParams (p.setInnerHashLengthL n) (q.setInnerHashLengthL m) :=
  (rassertL_same (decide_eq_decide.2 hn)).seq
    (.pure ⟨h.hashLength, h.keyLength, h.keyBlock, h.salt, h.personal, h.lastNode, h.implementation⟩)

theorem setter_same {p q : Params a} (h : PubParams p q) {c d : Setter} (hc : c.Indist a d) : Same PubParams (c.runL p) (d.runL q) := by
  cases c <;> cases d <;> first | exact hc.elim | skip
  · cases hc; exact setHashLengthL_same h _
  · exact setKeyL_same h hc
  · exact setSaltL_same h hc
  · exact setPersonalL_same h hc
  · exact .pure ⟨h.hashLength, h.keyLength, h.keyBlock, h.salt, h.personal, h.lastNode, h.implementation⟩
  · exact .pure ⟨h.hashLength, h.keyLength, h.keyBlock, h.salt, h.personal, h.lastNode, h.implementation⟩
  · exact .pure ⟨h.hashLength, h.keyLength, h.keyBlock, h.salt, h.personal, h.lastNode, h.implementation⟩
  · exact setNodeOffsetL_same h hc
  · exact .pure ⟨h.hashLength, h.keyLength, h.keyBlock, h.salt, h.personal, h.lastNode, h.implementation⟩
  · exact setInnerHashLengthL_same h (by cases a <;> exact hc)
  · exact .pure ⟨h.hashLength, h.keyLength, h.keyBlock, h.salt, h.personal, hc, h.implementation⟩

theorem buildL_same {p q : Params a} (h : PubParams p q) {cs ds : List Setter} (hc : IndistCalls a cs ds) :
    Same PubParams (p.buildL cs) (q.buildL ds) := by
  induction cs generalizing p q ds with
  | nil => cases ds with
    | nil => exact .pure h
    | cons => exact hc.elim
  | cons c cs ih => cases ds with
    | nil => exact hc.elim
    | cons d ds => exact (setter_same h hc.1).bind fun _ _ r => ih r hc.2

/-- States that agree on what is public. -/
structure PubS (s t : State a) : Prop where
  count : s.count = t.count
  buf : LEq s.buf t.buf
  buflen : s.buflen = t.buflen
  lastNode : s.lastNode = t.lastNode
  hashLength : s.hashLength = t.hashLength
  implementation : s.implementation = t.implementation
  isKeyed : s.isKeyed = t.isKeyed

/-- Hashes that agree on what is public: the length. -/
structure PubHash (h k : Hash a) : Prop where
  bytes : LEq h.bytes k.bytes
  len : h.len = k.len

theorem stateWordsToBytes_leq (w w' : Vector (Word a) 8) : LEq (stateWordsToBytes a w) (stateWordsToBytes a w') := by
  unfold LEq stateWordsToBytes
  simp [toLE]

theorem withParamsL_same {p q : Params a} (h : PubParams p q) : Same PubS (State.withParamsL p) (State.withParamsL q) := by
  unfold State.withParamsL
  have e : p.keyBlock.length = q.keyBlock.length := h.keyBlock
  simp only [h.keyLength, h.lastNode, h.hashLength, h.implementation, e]
  refine .branch Iff.rfl (fun _ => .pure ⟨rfl, h.keyBlock, rfl, rfl, rfl, rfl, rfl⟩) fun _ => .pure ⟨rfl, rfl, rfl, rfl, rfl, rfl, rfl⟩

/-- A state and the rest of the input. -/
def PubSI (r r' : State a × List Byte) : Prop := PubS r.1 r'.1 ∧ LEq r.2 r'.2

theorem fillBufL_same {s t : State a} (h : PubS s t) {x y : List Byte} (hx : LEq x y) : Same PubSI (s.fillBufL x) (t.fillBufL y) := by
  unfold State.fillBufL
  have e : x.length = y.length := hx
  rw [h.buflen, e]
  refine (checkedSubL_same _ _).bind fun _ _ r => ?_
  subst r
  refine (minL_same _ _).bind fun _ _ r => ?_
  subst r
  refine (sliceToL_same hx _).bind fun _ _ r => (copyRangeL_same h.buf _ _ r).bind fun _ _ rb => (addU8L_same _ _).bind fun _ _ rl => ?_
  subst rl
  exact (sliceFromL_same hx _).bind fun _ _ r =>
    .pure ⟨⟨h.count, rb, rfl, h.lastNode, h.hashLength, h.implementation, h.isKeyed⟩, r⟩

theorem compressBufferIfPossibleL_same {s t : State a} (h : PubS s t) {x y : List Byte} (hx : LEq x y) :
    Same PubSI (s.compressBufferIfPossibleL x) (t.compressBufferIfPossibleL y) := by
  unfold State.compressBufferIfPossibleL
  refine .branch (by rw [h.buflen]) (fun _ => ?_) fun _ => .pure ⟨h, hx⟩
  refine (fillBufL_same h hx).bind ?_
  rintro ⟨s1, x1⟩ ⟨t1, y1⟩ ⟨h1, hx1⟩
  dsimp only at h1 hx1 ⊢
  refine .branch (by rw [LEq.isEmpty hx1]) (fun _ => ?_) fun _ => .pure ⟨h1, hx1⟩
  rw [h1.implementation, h1.count, h1.lastNode]
  exact (compress1L_same _ h1.buf _ _ _ _ _ _).bind fun _ _ _ =>
    .pure ⟨⟨rfl, h1.buf, rfl, rfl, h1.hashLength, rfl, h1.isKeyed⟩, hx1⟩

theorem updateL_same {s t : State a} (h : PubS s t) {x y : List Byte} (hx : LEq x y) : Same PubS (s.updateL x) (t.updateL y) := by
  unfold State.updateL
  refine (compressBufferIfPossibleL_same h hx).bind ?_
  rintro ⟨s1, x1⟩ ⟨t1, y1⟩ ⟨h1, hx1⟩
  dsimp only at h1 hx1 ⊢
  have e : x1.length = y1.length := hx1
  rw [e]
  refine Same.bind (R := PubSI) (.branch Iff.rfl (fun _ => ?_) fun _ => .pure ⟨h1, hx1⟩) ?_
  · refine (sliceToL_same hx1 _).bind fun _ _ rb => ?_
    rw [h1.implementation, h1.count, h1.lastNode]
    exact (compress1L_same _ rb _ _ _ _ _ _).bind fun _ _ _ => (sliceFromL_same hx1 _).bind fun _ _ r =>
      .pure ⟨⟨rfl, h1.buf, h1.buflen, rfl, h1.hashLength, rfl, h1.isKeyed⟩, r⟩
  · rintro ⟨s2, x2⟩ ⟨t2, y2⟩ ⟨h2, hx2⟩
    exact (fillBufL_same h2 hx2).bind fun _ _ r => .pure r.1

theorem finalizeL_same {s t : State a} (h : PubS s t) : Same PubHash s.finalizeL t.finalizeL := by
  unfold State.finalizeL
  rw [h.buflen, h.implementation, h.count, h.lastNode, h.hashLength]
  exact (sliceToL_same h.buf _).bind fun _ _ r => (compress1L_same _ r _ _ _ _ _ _).bind fun _ _ _ =>
    .pure ⟨stateWordsToBytes_leq _ _, rfl⟩

theorem getCountL_same (dbg : Bool) {s t : State a} (h : PubS s t) : Same Eq (s.getCountL dbg) (t.getCountL dbg) := by
  unfold State.getCountL
  rw [h.count, h.buflen, h.isKeyed]
  exact .branch Iff.rfl (fun _ => .branch Iff.rfl (fun _ => .fault _) fun _ => .pure rfl) fun _ => .pure rfl

theorem hashL_same {p q : Params a} (h : PubParams p q) {x y : List Byte} (hx : LEq x y) : Same PubHash (p.hashL x) (q.hashL y) := by
  unfold Params.hashL
  refine .branch (by rw [h.keyLength]) (fun _ => ?_) fun _ => ?_
  · exact (withParamsL_same h).bind fun _ _ r => (updateL_same r hx).bind fun _ _ r => finalizeL_same r
  · rw [h.implementation, h.lastNode, h.hashLength]
    exact (compress1L_same _ hx _ _ _ _ _ _).bind fun _ _ _ => .pure ⟨stateWordsToBytes_leq _ _, rfl⟩

theorem constantTimeLoopL_same (i : Nat) {ps qs : List (Byte × Byte)} (h : ps.length = qs.length) (acc acc' : Byte) :
    Same (fun _ _ => True) (constantTimeLoopL i ps acc) (constantTimeLoopL i qs acc') := by
  induction ps generalizing i qs acc acc' with
  | nil => cases qs with
    | nil => exact (Same.reveal _).seq (.pure trivial)
    | cons => simp at h
  | cons p ps ih => cases qs with
    | nil => simp at h
    | cons q qs => exact (Same.reveal _).seq ((Same.reveal _).seq (ih _ (by simpa using h) _ _))

theorem constantTimeEqL_same {x x' y y' : List Byte} (hx : LEq x x') (hy : LEq y y') :
    Same (fun _ _ => True) (constantTimeEqL x y) (constantTimeEqL x' y') := by
  unfold LEq at hx hy
  unfold constantTimeEqL
  refine .branch (by rw [hx, hy]) (fun _ => .pure trivial) fun _ => ?_
  exact (constantTimeLoopL_same 0 (by simp [hx, hy]) _ _).bind fun _ _ _ => .pure trivial

theorem asBytesL_same {h k : Hash a} (hh : PubHash h k) : Same LEq h.asBytesL k.asBytesL := by
  unfold Hash.asBytesL
  rw [hh.len]
  exact sliceToL_same hh.bytes _

theorem eqHashL_same {h h' k k' : Hash a} (hh : PubHash h h') (hk : PubHash k k') :
    Same (fun _ _ => True) (h.eqHashL k) (h'.eqHashL k') :=
  (asBytesL_same hh).bind fun _ _ r => (asBytesL_same hk).bind fun _ _ r' => constantTimeEqL_same r r'

theorem eqSliceL_same {h h' : Hash a} (hh : PubHash h h') {x x' : List Byte} (hx : LEq x x') :
    Same (fun _ _ => True) (h.eqSliceL x) (h'.eqSliceL x') :=
  (asBytesL_same hh).bind fun _ _ r => constantTimeEqL_same r hx

theorem absorbL_same {s t : State a} (h : PubS s t) {xs ys : List (List Byte)} (hx : All2 LEq xs ys) :
    Same PubS (verifyTagL.absorb s xs) (verifyTagL.absorb t ys) := by
  induction hx generalizing s t with
  | nil => exact .pure h
  | cons r _ ih => exact (updateL_same h r).bind fun _ _ r => ih r

theorem verifyTagL_same (plat : Platform) {cs ds : List Setter} (hc : IndistCalls a cs ds) {xs ys : List (List Byte)}
    (hx : All2 LEq xs ys) {t t' : List Byte} (ht : LEq t t') :
    Same (fun _ _ => True) (verifyTagL (a := a) plat cs xs t) (verifyTagL (a := a) plat ds ys t') :=
  (buildL_same PubParams.rfl hc).bind fun _ _ r => (withParamsL_same r).bind fun _ _ r => (absorbL_same r hx).bind fun _ _ r =>
    (finalizeL_same r).bind fun _ _ r => eqSliceL_same r ht

/-! ## many.rs -/

/-- Jobs that agree on what is public. -/
structure PubJ (j k : Job a) : Prop where
  input : LEq j.input k.input
  count : j.count = k.count
  lastNode : j.lastNode = k.lastNode

/-- Pointwise. -/
def PubV {N : Nat} (v w : Vector (Job a) N) : Prop := ∀ i (_ : i < N), PubJ v[i] w[i]

namespace NWay
variable {N : Nat} {R : Type}

theorem revealRounds_same (rs : List (Fin a.rows)) :
    Same (fun _ _ => True) (loopIterL.revealRounds rs) (loopIterL.revealRounds rs) := by
  induction rs with
  | nil => exact .pure trivial
  | cons r rs ih => exact (Same.reveal _).seq (Same.seq ⟨rfl, .ok trivial⟩ ih)

theorem loopIterL_same (o : VImpl a N R) {xs ys : Vector (List Byte) N} (hx : ∀ i (_ : i < N), LEq xs[i] ys[i]) (minLen : Nat)
    {f f' : Fin_ a N R} (ho : f.offset = f'.offset) (hd : f.countsDelta = f'.countsDelta) (s : Stride) (fuel off : Nat)
    (h h' : Vector R 8) (lo hi : R) :
    Same (fun r r' => r.1 = r'.1 ∧ r.2.2 = r'.2.2) (loopIterL o xs minLen f s fuel off h lo hi)
      (loopIterL o ys minLen f' s fuel off h' lo hi) := by
  induction fuel generalizing off h h' lo hi with
  | zero => exact .fault _
  | succ fuel ih =>
    unfold loopIterL
    refine Same.bind (R := fun r r' => r.2.1 = r'.2.1) (.branch (by rw [ho]) (fun _ => .pure hd) fun _ => ?_) ?_
    · exact (Same.mapVector hx fun _ _ r => rawRefL_same r _ _).bind fun _ _ _ => .pure rfl
    · rintro ⟨b, d, u, v⟩ ⟨b', d', u', v'⟩ hd
      dsimp only at hd ⊢
      subst hd
      refine (revealRounds_same _).seq (.branch (by rw [ho]) (fun _ => .pure ⟨rfl, rfl⟩) fun _ => ?_)
      exact (addUsizeL_same _ _ _).bind fun _ _ r => by subst r; exact ih _ _ _ _ _

theorem assertJobsL_same (fin : Bool) {js ks : List (Job a)} (h : All2 PubJ js ks) :
    Same (fun _ _ => True) (assertJobsL a fin js) (assertJobsL a fin ks) := by
  induction h with
  | nil => exact .pure trivial
  | cons r _ ih => exact (inputDebugAssertsL_same r.input fin).seq ih

theorem listMinL_same (l : List Nat) : Same Eq (listMinL l) (listMinL l) := by
  induction l with
  | nil => exact .pure rfl
  | cons x xs ih =>
    refine ih.bind fun m m' h => ?_
    subst h
    cases m with
    | none => exact .pure rfl
    | some y => exact (minL_same _ _).bind fun _ _ r => .pure (by rw [r])

theorem compressLoopL_same (o : VImpl a N R) {js ks : Vector (Job a) N} (h : PubV js ks) (fin : Bool) (s : Stride) :
    Same PubV (compressLoopL o js fin s) (compressLoopL o ks fin s) := by
  have hl : All2 PubJ js.toList ks.toList := All2.of_get (by simp) fun i hx hy => by simpa using h i (by simpa using hx)
  unfold compressLoopL
  refine (assertJobsL_same fin hl).seq ?_
  have e1 : js.toList.map (fun job => job.input.length) = ks.toList.map fun job => job.input.length :=
    hl.map_eq fun _ _ r => r.input
  have e2 : loadCounts o js = loadCounts o ks := by
    unfold loadCounts
    have c : ∀ (f : Count a → Word a), js.map (fun j => f j.count) = ks.map fun j => f j.count := fun f =>
      Vector.ext fun i hi => by simp [(h i hi).count]
    rw [c, c]
  rw [e1, e2]
  refine Same.bind (R := Eq) ((listMinL_same _).bind fun m m' hm => ?_) fun n n' hn => ?_
  · subst hm
    cases m with
    | none => exact .fault _
    | some n => exact .pure rfl
  subst hn
  refine (Same.mapVector h fun _ _ r => finalBlockL_same r.input _ (rfl : LEq _ _) s).bind fun fs gs hf => ?_
  refine (Same.branch (R := fun _ _ => True) Iff.rfl (fun _ => ?_) fun _ => .pure trivial).bind fun p q _ => ?_
  · refine (Same.mapVector (R := fun x y => LEq x.1 y.1 ∧ x.2 = y.2) (S := Eq) hf fun _ _ r => by rw [r.2]; exact flagWordL_same _).bind fun _ _ _ => ?_
    have e3 : (Vector.ofFn fun i : Fin N => fs[i].2.2 && js[i].lastNode) = Vector.ofFn fun i : Fin N => gs[i].2.2 && ks[i].lastNode :=
      Vector.ext fun i hi => by
        simp only [Vector.getElem_ofFn]
        have := (hf i hi).2
        have := (h i hi).lastNode
        simp_all
    rw [e3]
    exact (Same.mapVector (R := Eq) (S := Eq) (fun _ _ => rfl) fun _ _ r => by subst r; exact flagWordL_same _).bind fun _ _ _ =>
      .pure trivial
  · have e4 : (fs.map fun f => BitVec.ofNat a.w f.2.1) = gs.map fun f => BitVec.ofNat a.w f.2.1 :=
      Vector.ext fun i hi => by simp [(hf i hi).2]
    have ei : ∀ i (_ : i < N), LEq (js.map (·.input))[i] (ks.map (·.input))[i] := fun i hi => by simpa using (h i hi).input
    refine Same.bind (loopIterL_same o ei n ?_ ?_ s _ _ _ _ _ _) ?_
    · rfl
    · exact congrArg o.setN e4
    rintro ⟨off, h1, lo, hi⟩ ⟨off', h1', lo', hi'⟩ ⟨r1, r2⟩
    cases r1
    cases r2
    refine (Same.mapVector (R := Eq) (S := PubJ) (fun _ _ => rfl) fun i i' hi => ?_)
    subst hi
    have hj := h i.val i.isLt
    have e5 : js[i].input.length = ks[i].input.length := hj.input
    rw [e5]
    refine (minL_same _ _).bind fun _ _ r => ?_
    subst r
    exact (sliceFromL_same hj.input _).bind fun _ _ r => .pure ⟨r, rfl, hj.lastNode⟩

end NWay

theorem compressHiL_same (imp : Platform) {js ks : Vector (Job a) (hiDegree a)} (h : PubV js ks) (fin : Bool) (s : Stride) :
    Same PubV (compressHiL a imp js fin s) (compressHiL a imp ks fin s) := by
  cases a <;> cases imp <;> first | exact Same.fault _ | exact (NWay.compressLoopL_same _ h _ _).within _

theorem compressLoL_same (imp : Platform) {js ks : Vector (Job a) (loDegree a)} (h : PubV js ks) (fin : Bool) (s : Stride) :
    Same PubV (compressLoL a imp js fin s) (compressLoL a imp ks fin s) := by
  cases a <;> cases imp <;> first | exact Same.fault _ | exact (NWay.compressLoopL_same _ h _ _).within _

end Blake2
