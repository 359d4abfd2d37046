import Verif.Proofs.LeakApi
/-! # Hashing many inputs, and the tree variants, reveal only what is public -/
namespace Blake2
open Spec

variable {a : Alg}

/-- Jobs in the vector of jobs that agree on what is public. -/
structure PubR {ι : Type} (j k : JobRef a ι) : Prop where
  id : j.id = k.id
  input : LEq j.input k.input
  count : j.count = k.count
  lastNode : j.lastNode = k.lastNode

/-- What visiting an element gives, on two sides. -/
def PubO {ι E : Type} (RE : E → E → Prop) (r r' : E × Option (JobRef a ι)) : Prop :=
  RE r.1 r'.1 ∧ ((r.2 = none ∧ r'.2 = none) ∨ ∃ j k, r.2 = some j ∧ r'.2 = some k ∧ PubR j k)

/-- Two sources that behave alike on elements related by `RE`. -/
structure PubSrc {ι E : Type} (RE : E → E → Prop) (src src' : SourceL a ι E) : Prop where
  pull : ∀ i e e', RE e e' → Same (PubO RE) (src.pull i e) (src'.pull i e')
  set : ∀ e e' w w', RE e e' → RE (src.setWords e w) (src'.setWords e' w')

namespace Many
variable {ι E : Type} [DecidableEq ι] {RE : E → E → Prop} {src src' : SourceL a ι E}

/-- Memories related element by element. -/
def PubM (RE : E → E → Prop) (m m' : ι → E) : Prop := ∀ i, RE (m i) (m' i)

theorem PubM.store {m m' : ι → E} (h : PubM RE m m') (i : ι) {e e' : E} (r : RE e e') : PubM RE (store m i e) (store m' i e') := by
  intro j
  unfold Blake2.store
  by_cases c : j = i
  · rw [if_pos c, if_pos c]; exact r
  · rw [if_neg c, if_neg c]; exact h j

theorem pushL_same {v w : List (JobRef a ι)} (h : All2 PubR v w) {j k : JobRef a ι} (r : PubR j k) :
    Same (All2 PubR) (pushL v j) (pushL w k) := by
  unfold pushL
  rw [h.length]
  exact (Same.reveal _).seq (.branch Iff.rfl (fun _ => .pure (h.append (.cons r .nil))) fun _ => .fault _)

/-- Memory, queue and vector. -/
def Pub3 (RE : E → E → Prop) (r r' : (ι → E) × List ι × List (JobRef a ι)) : Prop :=
  PubM RE r.1 r'.1 ∧ r.2.1 = r'.2.1 ∧ All2 PubR r.2.2 r'.2.2

theorem fillJobsVecL_same (hs : PubSrc RE src src') (t : Nat) (q : List ι) {m m' : ι → E} (hm : PubM RE m m')
    {v w : List (JobRef a ι)} (h : All2 PubR v w) : Same (Pub3 RE) (fillJobsVecL src t m q v) (fillJobsVecL src' t m' q w) := by
  induction q generalizing m m' v w with
  | nil => exact (Same.reveal _).seq (.pure ⟨hm, rfl, h⟩)
  | cons i q ih =>
    unfold fillJobsVecL
    refine .branch (by rw [h.length]) (fun _ => ?_) fun _ => .pure ⟨hm, rfl, h⟩
    refine (Same.reveal _).seq ((hs.pull i _ _ (hm i)).bind ?_)
    rintro ⟨e, o⟩ ⟨e', o'⟩ ⟨re, hj⟩
    dsimp only at re hj ⊢
    rcases hj with ⟨h1, h2⟩ | ⟨j, k, h1, h2, r⟩
    · subst h1; subst h2
      exact ih (hm.store i re) h
    · subst h1; subst h2
      exact (pushL_same h r).bind fun _ _ h => ih (hm.store i re) h

theorem evictStepL_same {v w : List (JobRef a ι)} (h : All2 PubR v w) (i : Nat) :
    Same (All2 PubR) (evictStepL v i) (evictStepL w i) := by
  unfold evictStepL
  refine (rassertL_same (by rw [h.length])).seq ((Same.reveal _).seq ?_)
  rcases h.get? i with ⟨h1, h2⟩ | ⟨x, y, h1, h2, r⟩
  · rw [h1, h2]; exact .pure h
  · rw [h1, h2]
    exact .branch (by rw [LEq.isEmpty r.input]) (fun _ => .pure (h.eraseIdx i)) fun _ => .pure h

theorem evictAllL_same {v w : List (JobRef a ι)} (h : All2 PubR v w) (is : List Nat) :
    Same (All2 PubR) (evictAllL v is) (evictAllL w is) := by
  induction is generalizing v w with
  | nil => exact .pure h
  | cons i is ih => exact (evictStepL_same h i).bind fun _ _ h => ih h

theorem writeBack_pub (hs : PubSrc RE src src') {xs ys : List (JobRef a ι × Job a)}
    (h : All2 (fun p q => PubR p.1 q.1 ∧ PubJ p.2 q.2) xs ys) {m m' : ι → E} (hm : PubM RE m m') :
    PubM RE (writeBack src.erase m xs).1 (writeBack src'.erase m' ys).1 ∧
      All2 PubR (writeBack src.erase m xs).2 (writeBack src'.erase m' ys).2 := by
  induction h generalizing m m' with
  | nil => exact ⟨hm, .nil⟩
  | @cons x y xs ys r _ ih =>
    obtain ⟨x1, x2⟩ := x
    obtain ⟨y1, y2⟩ := y
    obtain ⟨r1, r2⟩ := r
    dsimp only at r1 r2
    have hm' : PubM RE (store m x1.id (src.erase.setWords (m x1.id) x2.words)) (store m' y1.id (src'.erase.setWords (m' y1.id) y2.words)) := by
      rw [r1.id]
      exact hm.store _ (hs.set _ _ _ _ (hm _))
    have := ih hm'
    exact ⟨this.1, .cons ⟨r1.id, r2.input, r2.count, r2.lastNode⟩ this.2⟩

/-- An N-way loop that reveals only what is public. -/
def BlindLoop {N : Nat} (f : Vector (Job a) N → Leaky (Vector (Job a) N)) : Prop := ∀ v w, PubV v w → Same PubV (f v) (f w)

theorem runWideL_same (hs : PubSrc RE src src') {N : Nat} {f : Vector (Job a) N → Leaky (Vector (Job a) N)} (hf : BlindLoop f)
    {m m' : ι → E} (hm : PubM RE m m') {v w : List (JobRef a ι)} (h : All2 PubR v w) :
    Same (fun r r' => PubM RE r.1 r'.1 ∧ All2 PubR r.2 r'.2) (runWideL src N f m v) (runWideL src' N f m' w) := by
  unfold runWideL
  refine (Same.reveal _).seq ?_
  have ht := h.take N
  by_cases c : (v.take N).length = N
  · have c' : (w.take N).length = N := by rw [← ht.length]; exact c
    rw [dif_pos c, dif_pos c']
    have hd : All2 PubJ ((v.take N).map (deref src.erase m)) ((w.take N).map (deref src'.erase m')) :=
      ht.map fun _ _ r => ⟨r.input, r.count, r.lastNode⟩
    refine (hf _ _ fun i hi => ?_).bind fun x y hxy => ?_
    · have l1 : i < ((v.take N).map (deref src.erase m)).length := by rw [List.length_map, c]; exact hi
      have l2 : i < ((w.take N).map (deref src'.erase m')).length := by rw [List.length_map, c']; exact hi
      exact hd.get i l1 l2
    · have hl : All2 PubJ x.toList y.toList := All2.of_get (by simp) fun i hx hy => by simpa using hxy i (by simpa using hx)
      have hw := writeBack_pub hs (ht.zip hl) hm
      exact .pure ⟨hw.1, hw.2.append (h.drop N)⟩
  · have c' : ¬ (w.take N).length = N := by rw [← ht.length]; exact c
    rw [dif_neg c, dif_neg c']
    exact .fault _

theorem levelIterL_same (hs : PubSrc RE src src') {N : Nat} {f : Vector (Job a) N → Leaky (Vector (Job a) N)} (hf : BlindLoop f)
    (fuel : Nat) (q : List ι) {m m' : ι → E} (hm : PubM RE m m') {v w : List (JobRef a ι)} (h : All2 PubR v w) :
    Same (Pub3 RE) (levelIterL src N f fuel m q v) (levelIterL src' N f fuel m' q w) := by
  induction fuel generalizing q m m' v w with
  | zero => exact .fault _
  | succ fuel ih =>
    unfold levelIterL
    refine (fillJobsVecL_same hs N q hm h).bind ?_
    rintro ⟨m1, q1, v1⟩ ⟨m1', q1', w1⟩ ⟨hm1, hq, h1⟩
    dsimp only at hm1 hq h1 ⊢
    subst hq
    refine .branch (by rw [h1.length]) (fun _ => .pure ⟨hm1, rfl, h1⟩) fun _ => ?_
    refine (runWideL_same hs hf hm1 h1).bind ?_
    rintro ⟨m2, v2⟩ ⟨m2', w2⟩ ⟨hm2, h2⟩
    exact (evictAllL_same h2 _).bind fun _ _ h => ih _ hm2 h

theorem levelL_same (hs : PubSrc RE src src') (d : Nat) {N : Nat} {f : Vector (Job a) N → Leaky (Vector (Job a) N)} (hf : BlindLoop f)
    (q : List ι) {m m' : ι → E} (hm : PubM RE m m') {v w : List (JobRef a ι)} (h : All2 PubR v w) :
    Same (Pub3 RE) (levelL src d N f m q v) (levelL src' d N f m' q w) := by
  unfold levelL
  rw [h.length]
  exact .branch Iff.rfl (fun _ => levelIterL_same hs hf _ q hm h) fun _ => .pure ⟨hm, rfl, h⟩

theorem runOneL_same (hs : PubSrc RE src src') (imp : Platform) (fin : Bool) (s : Stride) {m m' : ι → E} (hm : PubM RE m m')
    {j k : JobRef a ι} (r : PubR j k) : Same (PubM RE) (runOneL src imp fin s m j) (runOneL src' imp fin s m' k) := by
  unfold runOneL
  rw [r.id, r.count, r.lastNode]
  exact (compress1L_same imp r.input _ _ _ _ _ _).bind fun _ _ _ => .pure (hm.store _ (hs.set _ _ _ _ (hm _)))

theorem runVecL_same (hs : PubSrc RE src src') (imp : Platform) (fin : Bool) (s : Stride) {m m' : ι → E} (hm : PubM RE m m')
    {v w : List (JobRef a ι)} (h : All2 PubR v w) : Same (PubM RE) (runVecL src imp fin s m v) (runVecL src' imp fin s m' w) := by
  induction h generalizing m m' with
  | nil => exact (Same.reveal _).seq (.pure hm)
  | cons r _ ih => exact (Same.reveal _).seq ((runOneL_same hs imp fin s hm r).bind fun _ _ h => ih h)

theorem runQueueL_same (hs : PubSrc RE src src') (imp : Platform) (fin : Bool) (s : Stride) (q : List ι) {m m' : ι → E}
    (hm : PubM RE m m') : Same (PubM RE) (runQueueL src imp fin s m q) (runQueueL src' imp fin s m' q) := by
  induction q generalizing m m' with
  | nil => exact (Same.reveal _).seq (.pure hm)
  | cons i q ih =>
    unfold runQueueL
    refine (Same.reveal _).seq ((hs.pull i _ _ (hm i)).bind ?_)
    rintro ⟨e, o⟩ ⟨e', o'⟩ ⟨re, hj⟩
    dsimp only at re hj ⊢
    rcases hj with ⟨h1, h2⟩ | ⟨j, k, h1, h2, r⟩
    · subst h1; subst h2
      exact ih (hm.store i re)
    · subst h1; subst h2
      exact (runOneL_same hs imp fin s (hm.store i re) r).bind fun _ _ h => ih h

theorem compressManyL_same (hs : PubSrc RE src src') (imp : Platform) (fin : Bool) (s : Stride) (q : List ι) {m m' : ι → E}
    (hm : PubM RE m m') : Same (PubM RE) (compressManyL src imp fin s m q) (compressManyL src' imp fin s m' q) := by
  unfold compressManyL
  refine (levelL_same hs _ (fun _ _ h => compressHiL_same imp h fin s) q hm .nil).bind ?_
  rintro ⟨m1, q1, v1⟩ ⟨m1', q1', w1⟩ ⟨hm1, hq, h1⟩
  dsimp only at hm1 hq h1 ⊢
  subst hq
  refine (levelL_same hs _ (fun _ _ h => compressLoL_same imp h fin s) q1 hm1 h1).bind ?_
  rintro ⟨m2, q2, v2⟩ ⟨m2', q2', w2⟩ ⟨hm2, hq2, h2⟩
  dsimp only at hm2 hq2 h2 ⊢
  subst hq2
  exact (runVecL_same hs imp fin s hm2 h2).bind fun _ _ h => runQueueL_same hs imp fin s _ h

/-- All elements in order, on two collections of the same size. -/
theorem compressManyL_all {n n' : Nat} (e : n = n') {src : SourceL a (Fin n) E} {src' : SourceL a (Fin n') E}
    (hp : ∀ i (hi : i < n) (hi' : i < n') x x', RE x x' →
      Same (fun r r' => RE r.1 r'.1 ∧ ((r.2 = none ∧ r'.2 = none) ∨ ∃ j k, r.2 = some j ∧ r'.2 = some k ∧
        j.id.val = k.id.val ∧ LEq j.input k.input ∧ j.count = k.count ∧ j.lastNode = k.lastNode))
        (src.pull ⟨i, hi⟩ x) (src'.pull ⟨i, hi'⟩ x'))
    (hset : ∀ x x' w w', RE x x' → RE (src.setWords x w) (src'.setWords x' w'))
    {imp imp' : Platform} (ei : imp = imp') (fin : Bool) (s : Stride) {m : Fin n → E} {m' : Fin n' → E}
    (hm : ∀ i (hi : i < n) (hi' : i < n'), RE (m ⟨i, hi⟩) (m' ⟨i, hi'⟩)) :
    Same (All2 RE) (compressManyL src imp fin s m (List.finRange n) >>= fun r => pure (List.ofFn r))
      (compressManyL src' imp' fin s m' (List.finRange n') >>= fun r => pure (List.ofFn r)) := by
  subst e
  subst ei
  have hs : PubSrc RE src src' := ⟨fun i x x' r => (hp i.val i.isLt i.isLt x x' r).mono fun _ _ h => ⟨h.1, h.2.imp id fun ⟨j, k, h1, h2, h3, h4, h5, h6⟩ =>
    ⟨j, k, h1, h2, Fin.ext h3, h4, h5, h6⟩⟩, hset⟩
  refine (compressManyL_same hs imp fin s _ (fun i => hm i.val i.isLt i.isLt)).bind fun r r' h => .pure ?_
  exact All2.of_get (by simp) fun i hx hy => by simpa using h ⟨i, by simpa using hx⟩

end Many

theorem updateManyPullL_same {n n' : Nat} (i : Fin n) (i' : Fin n') (hi : i.val = i'.val) {s t : State a} (h : PubS s t)
    {x y : List Byte} (hx : LEq x y) :
    Same (fun r r' => PubS r.1 r'.1 ∧ ((r.2 = none ∧ r'.2 = none) ∨ ∃ j k, r.2 = some j ∧ r'.2 = some k ∧
      j.id.val = k.id.val ∧ LEq j.input k.input ∧ j.count = k.count ∧ j.lastNode = k.lastNode))
      (updateManyPullL i x s) (updateManyPullL i' y t) := by
  unfold updateManyPullL
  refine (compressBufferIfPossibleL_same h hx).bind ?_
  rintro ⟨s1, x1⟩ ⟨t1, y1⟩ ⟨h1, hx1⟩
  dsimp only at h1 hx1 ⊢
  refine .branch (by rw [LEq.isEmpty hx1]) (fun _ => .pure ⟨h1, .inl ⟨rfl, rfl⟩⟩) fun _ => ?_
  have e : x1.length = y1.length := hx1
  rw [e]
  refine (checkedSubL_same _ _).bind fun _ _ r => ?_
  subst r
  refine (sliceToL_same hx1 _).bind fun b b' rb => (sliceFromL_same hx1 _).bind fun l l' rl => ?_
  have el : l.length = l'.length := rl
  have eb : b.length = b'.length := rb
  rw [el]
  refine (copyRangeL_same h1.buf _ _ rl).bind fun _ _ rbuf => ?_
  refine .branch (by rw [LEq.isEmpty rb])
    (fun _ => .pure ⟨⟨h1.count, rbuf, rfl, h1.lastNode, h1.hashLength, h1.implementation, h1.isKeyed⟩, .inl ⟨rfl, rfl⟩⟩) fun _ => ?_
  refine .pure ⟨⟨?_, rbuf, rfl, h1.lastNode, h1.hashLength, h1.implementation, h1.isKeyed⟩,
    .inr ⟨_, _, rfl, rfl, hi, rb, h1.count, h1.lastNode⟩⟩
  show s1.count + BitVec.ofNat _ b.length = t1.count + BitVec.ofNat _ b'.length
  rw [eb, h1.count]

/-- States and inputs. -/
def PubPair (p q : State a × List Byte) : Prop := PubS p.1 q.1 ∧ LEq p.2 q.2

theorem updateManyL_same {ps qs : List (State a × List Byte)} (h : All2 PubPair ps qs) :
    Same (All2 PubS) (updateManyL ps) (updateManyL qs) := by
  cases h with
  | nil => exact (Same.reveal _).seq (.pure .nil)
  | @cons p q ps qs r t =>
    have hl := All2.cons r t
    refine (Same.reveal _).seq ?_
    exact Many.compressManyL_all (RE := PubS) hl.length
      (fun i hi hi' x x' hx => updateManyPullL_same ⟨i, hi⟩ ⟨i, hi'⟩ rfl hx (hl.get i hi hi').2)
      (fun _ _ _ _ h => ⟨h.count, h.buf, h.buflen, h.lastNode, h.hashLength, h.implementation, h.isKeyed⟩)
      r.1.implementation _ _ (fun i hi hi' => (hl.get i hi hi').1)

/-- Jobs of `hash_many` that agree on what is public. -/
structure PubHM (j k : HashManyJob a) : Prop where
  count : j.count = k.count
  lastNode : j.lastNode = k.lastNode
  hashLength : j.hashLength = k.hashLength
  input : LEq j.input k.input
  finished : j.finished = k.finished
  implementation : j.implementation = k.implementation

theorem newL_same {p q : Params a} (h : PubParams p q) {x y : List Byte} (hx : LEq x y) :
    Same PubHM (HashManyJob.newL p x) (HashManyJob.newL q y) := by
  unfold HashManyJob.newL
  rw [h.keyLength, h.implementation, h.lastNode, h.hashLength]
  refine Same.bind (R := fun r r' => r.2 = r'.2) (.branch Iff.rfl (fun _ => .branch (by rw [LEq.isEmpty hx]) (fun _ => ?_) fun _ => ?_)
    fun _ => .pure rfl) ?_
  · exact (compress1L_same _ h.keyBlock _ _ _ _ _ _).bind fun _ _ _ => .pure rfl
  · exact (compress1L_same _ h.keyBlock _ _ _ _ _ _).bind fun _ _ _ => .pure rfl
  · rintro ⟨w, c, f⟩ ⟨w', c', f'⟩ e
    cases e
    exact .pure ⟨rfl, rfl, rfl, hx, rfl, rfl⟩

theorem toHashL_same (dbg : Bool) {j k : HashManyJob a} (h : PubHM j k) : Same PubHash (j.toHashL dbg) (k.toHashL dbg) := by
  unfold HashManyJob.toHashL
  rw [h.finished, h.hashLength]
  exact .branch Iff.rfl (fun _ => .fault _) fun _ => .pure ⟨stateWordsToBytes_leq _ _, rfl⟩

theorem hashManyPullL_same {n n' : Nat} (i : Fin n) (i' : Fin n') (hi : i.val = i'.val) {s t : HashManyJob a} (h : PubHM s t) :
    Same (fun r r' => PubHM r.1 r'.1 ∧ ((r.2 = none ∧ r'.2 = none) ∨ ∃ j k, r.2 = some j ∧ r'.2 = some k ∧
      j.id.val = k.id.val ∧ LEq j.input k.input ∧ j.count = k.count ∧ j.lastNode = k.lastNode))
      (hashManyPullL i s) (hashManyPullL i' t) := by
  unfold hashManyPullL
  refine .branch (by rw [h.finished]) (fun _ => .pure ⟨h, .inl ⟨rfl, rfl⟩⟩) fun _ => ?_
  exact .pure ⟨⟨h.count, h.lastNode, h.hashLength, h.input, rfl, h.implementation⟩,
    .inr ⟨_, _, rfl, rfl, hi, h.input, h.count, h.lastNode⟩⟩

theorem hashManyL_same {ps qs : List (HashManyJob a)} (h : All2 PubHM ps qs) : Same (All2 PubHM) (hashManyL ps) (hashManyL qs) := by
  cases h with
  | nil => exact (Same.reveal _).seq (.pure .nil)
  | @cons p q ps qs r t =>
    have hl := All2.cons r t
    refine (Same.reveal _).seq ?_
    exact Many.compressManyL_all (RE := PubHM) hl.length
      (fun i hi hi' x x' hx => hashManyPullL_same ⟨i, hi⟩ ⟨i, hi'⟩ rfl hx)
      (fun _ _ _ _ h => ⟨h.count, h.lastNode, h.hashLength, h.input, h.finished, h.implementation⟩)
      r.implementation _ _ (fun i hi hi' => hl.get i hi hi')

/-! ## blake2bp.rs and blake2sp.rs -/

theorem compressLeavesL_same {f g : Fin (parDegree a) → Leaky (List Byte × Count a × Bool)}
    (h : ∀ i, Same (fun r r' => LEq r.1 r'.1 ∧ r.2 = r'.2) (f i) (g i)) (imp : Platform) (fin : Bool) (l l' : LeafWords a) :
    Same (fun _ _ => True) (compressLeavesL f imp fin l) (compressLeavesL g imp fin l') := by
  unfold compressLeavesL
  refine (Many.compressManyL_same (RE := fun _ _ => True) ⟨fun i e e' _ => (h i).bind ?_, fun _ _ _ _ _ => trivial⟩ imp fin _ _
    (fun _ => trivial)).bind fun _ _ _ => .pure trivial
  rintro ⟨x, c, b⟩ ⟨x', c', b'⟩ ⟨hx, e⟩
  cases e
  exact .pure ⟨trivial, .inr ⟨_, _, rfl, rfl, rfl, hx, rfl, rfl⟩⟩

theorem leafBytes_length (l : LeafWords a) :
    ((l.toList.flatMap fun words => words.toList).flatMap fun word => toLE a.wb word).length = parDegree a * (8 * a.wb) := by
  have h8 : ∀ ws : List (Vector (Word a) 8), (ws.flatMap fun words => words.toList).length = 8 * ws.length := by
    intro ws
    induction ws with
    | nil => rfl
    | cons w ws ih => rw [List.flatMap_cons, List.length_append, ih, List.length_cons]; simp; omega
  have hb : ∀ ws : List (Word a), (ws.flatMap fun word => toLE a.wb word).length = a.wb * ws.length := by
    intro ws
    induction ws with
    | nil => rfl
    | cons w ws ih =>
      rw [List.flatMap_cons, List.length_append, ih, List.length_cons, Nat.mul_add, Nat.mul_one, Nat.add_comm]
      congr 1
      simp [toLE]
  rw [hb, h8, Vector.length_toList, Nat.mul_comm a.wb, Nat.mul_comm 8 (parDegree a), Nat.mul_assoc]

theorem finalizeRootWordsL_same (l l' : LeafWords a) (r r' : Vector (Word a) 8) (n : BitVec 8) (imp : Platform) :
    Same PubHash (finalizeRootWordsL l r n imp) (finalizeRootWordsL l' r' n imp) := by
  unfold finalizeRootWordsL
  exact (compress1L_same imp ((leafBytes_length l).trans (leafBytes_length l').symm) _ _ _ _ _ _).bind fun _ _ _ =>
    .pure ⟨stateWordsToBytes_leq _ _, rfl⟩

/-- Parameters of the tree variants that agree on what is public. -/
structure PubPP (p q : PParams a) : Prop where
  hashLength : p.hashLength = q.hashLength
  keyLength : p.keyLength = q.keyLength
  key : LEq p.key q.key
  implementation : p.implementation = q.implementation

theorem PubPP.rfl {p : PParams a} : PubPP p p := ⟨Eq.refl _, Eq.refl _, Eq.refl _, Eq.refl _⟩

theorem baseParamsL_same {p q : PParams a} (h : PubPP p q) : Same PubParams p.baseParamsL q.baseParamsL := by
  unfold PParams.baseParamsL
  rw [h.implementation, h.hashLength, h.keyLength]
  refine (setHashLengthL_same PubParams.rfl _).bind fun _ _ r => (sliceToL_same h.key _).bind fun _ _ rk =>
    (setKeyL_same r rk).bind fun _ _ r => ?_
  dsimp only
  refine setInnerHashLengthL_same ?_ Iff.rfl
  exact ⟨r.hashLength, r.keyLength, r.keyBlock, r.salt, r.personal, r.lastNode, r.implementation⟩

theorem toWordsL_same {p q : PParams a} (h : PubPP p q) : Same (fun _ _ => True) p.toWordsL q.toWordsL := by
  unfold PParams.toWordsL
  refine (baseParamsL_same h).bind fun b b' r => ?_
  refine (Same.mapVector (R := Eq) (S := fun _ _ => True) (fun _ _ => rfl) fun i i' hi => ?_).bind fun _ _ _ => ?_
  · subst hi
    exact (setNodeOffsetL_same r Iff.rfl).bind fun _ _ _ => .pure trivial
  · refine Same.bind (R := fun _ _ => True) ((setNodeOffsetL_same r Iff.rfl).bind fun _ _ _ => .pure trivial) fun _ _ _ => .pure trivial

theorem psetter_same {p q : PParams a} (h : PubPP p q) {c d : PSetter} (hc : c.Indist d) : Same PubPP (c.runL p) (d.runL q) := by
  cases c <;> cases d <;> first | exact hc.elim | skip
  · cases hc
    exact (rassertL_same rfl).seq (.pure ⟨rfl, h.keyLength, h.key, h.implementation⟩)
  · rename_i k k'
    have e : k.length = k'.length := hc
    show Same PubPP (p.setKeyL k) (q.setKeyL k')
    unfold PParams.setKeyL
    rw [e]
    exact (rassertL_same rfl).seq ((copyRangeL_same (rfl : LEq _ _) _ _ hc).bind fun _ _ r =>
      .pure ⟨h.hashLength, rfl, r, h.implementation⟩)

theorem pbuildL_same {p q : PParams a} (h : PubPP p q) {cs ds : List PSetter} (hc : IndistPCalls cs ds) :
    Same PubPP (p.buildL cs) (q.buildL ds) := by
  induction cs generalizing p q ds with
  | nil => cases ds with
    | nil => exact .pure h
    | cons => exact hc.elim
  | cons c cs ih => cases ds with
    | nil => exact hc.elim
    | cons d ds => exact (psetter_same h hc.1).bind fun _ _ r => ih r hc.2

theorem copyAtL_same {l l' : List Byte} (h : LEq l l') (off : Nat) {s s' : List Byte} (hs : LEq s s') :
    Same LEq (copyAtL l off s) (copyAtL l' off s') := by
  unfold copyAtL
  have e : l.length = l'.length := h
  have e' : s.length = s'.length := hs
  rw [e, e']
  exact .branch Iff.rfl (fun _ => copyRangeL_same h _ _ hs) fun _ => .fault _

/-- Tree states that agree on what is public. -/
structure PubPS (s t : PState a) : Prop where
  buf : LEq s.buf t.buf
  bufLen : s.bufLen = t.bufLen
  count : s.count = t.count
  hashLength : s.hashLength = t.hashLength
  implementation : s.implementation = t.implementation
  isKeyed : s.isKeyed = t.isKeyed

theorem placeKeysL_same {p q : PParams a} (h : PubPP p q) (is : List Nat) {st st' : List Byte × Nat}
    (hs : LEq st.1 st'.1 ∧ st.2 = st'.2) :
    Same (fun r r' => LEq r.1 r'.1 ∧ r.2 = r'.2) (PState.placeKeysL p is st) (PState.placeKeysL q is st') := by
  induction is generalizing st st' with
  | nil => exact .pure hs
  | cons i is ih =>
    unfold PState.placeKeysL
    rw [h.keyLength]
    exact (sliceToL_same h.key _).bind fun _ _ r => (copyAtL_same hs.1 _ r).bind fun _ _ r => ih ⟨r, rfl⟩

theorem pwithParamsL_same {p q : PParams a} (h : PubPP p q) : Same PubPS (PState.withParamsL p) (PState.withParamsL q) := by
  unfold PState.withParamsL
  refine (toWordsL_same h).bind fun _ _ _ => ?_
  rw [h.keyLength, h.hashLength, h.implementation]
  refine Same.bind (R := fun (r r' : List Byte × Nat) => LEq r.1 r'.1 ∧ r.2 = r'.2)
    (.branch Iff.rfl (fun _ => placeKeysL_same h _ ⟨(rfl : LEq _ _), rfl⟩) fun _ => .pure ⟨(rfl : LEq _ _), rfl⟩) ?_
  rintro ⟨b, n⟩ ⟨b', n'⟩ ⟨hb, hn⟩
  dsimp only at hb hn ⊢
  subst hn
  exact .pure ⟨hb, rfl, rfl, rfl, rfl, rfl⟩

/-- A tree state and the rest of the input. -/
def PubPSI (r r' : PState a × List Byte) : Prop := PubPS r.1 r'.1 ∧ LEq r.2 r'.2

theorem pfillBufL_same {s t : PState a} (h : PubPS s t) {x y : List Byte} (hx : LEq x y) :
    Same PubPSI (s.fillBufL x) (t.fillBufL y) := by
  unfold PState.fillBufL
  have e : x.length = y.length := hx
  have e' : s.buf.length = t.buf.length := h.buf
  rw [h.bufLen, e, e']
  refine (checkedSubL_same _ _).bind fun _ _ r => ?_
  subst r
  refine (minL_same _ _).bind fun _ _ r => ?_
  subst r
  refine (sliceToL_same hx _).bind fun _ _ r => (copyAtL_same h.buf _ r).bind fun _ _ rb => (addU16L_same _ _).bind fun _ _ rl => ?_
  subst rl
  exact (sliceFromL_same hx _).bind fun _ _ r =>
    .pure ⟨⟨rb, rfl, h.count, h.hashLength, h.implementation, h.isKeyed⟩, r⟩

theorem compressToLeavesL_same {s t : PState a} (h : PubPS s t) {x y : List Byte} (hx : LEq x y) :
    Same PubPS (s.compressToLeavesL x) (t.compressToLeavesL y) := by
  unfold PState.compressToLeavesL
  have e : x.length = y.length := hx
  rw [h.implementation, h.count, e]
  refine (compressLeavesL_same (fun i => ?_) _ _ _ _).bind fun _ _ _ =>
    .pure ⟨h.buf, h.bufLen, rfl, h.hashLength, rfl, h.isKeyed⟩
  exact (sliceFromL_same hx _).bind fun _ _ r => .pure ⟨r, rfl⟩

theorem updateBufferedL_same {s t : PState a} (h : PubPS s t) {x y : List Byte} (hx : LEq x y) :
    Same PubPSI (s.updateBufferedL x) (t.updateBufferedL y) := by
  unfold PState.updateBufferedL
  refine .branch (by rw [h.bufLen]) (fun _ => ?_) fun _ => .pure ⟨h, hx⟩
  refine (pfillBufL_same h hx).bind ?_
  rintro ⟨s1, x1⟩ ⟨t1, y1⟩ ⟨h1, hx1⟩
  dsimp only at h1 hx1 ⊢
  have e : x1.length = y1.length := hx1
  refine .branch (by rw [LEq.isEmpty hx1]) (fun _ => .branch (by rw [e]) (fun _ => ?_) fun _ => ?_) fun _ => .pure ⟨h1, hx1⟩
  · exact (compressToLeavesL_same h1 h1.buf).bind fun _ _ r =>
      .pure ⟨⟨r.buf, rfl, r.count, r.hashLength, r.implementation, r.isKeyed⟩, hx1⟩
  · refine (sliceToL_same h1.buf _).bind fun _ _ rf => (compressToLeavesL_same h1 rf).bind fun _ _ r => ?_
    refine (sliceToL_same r.buf _).bind fun f f' rf => (sliceFromL_same r.buf _).bind fun b b' rb => ?_
    have ef : f.length = f'.length := rf
    rw [ef]
    refine (copyRangeL_same rf _ _ rb).bind fun g g' rg => .pure ⟨⟨?_, rfl, r.count, r.hashLength, r.implementation, r.isKeyed⟩, hx1⟩
    show (g ++ b).length = (g' ++ b').length
    have eg : g.length = g'.length := rg
    have eb : b.length = b'.length := rb
    rw [List.length_append, List.length_append, eg, eb]

theorem updateBulkL_same {s t : PState a} (h : PubPS s t) {x y : List Byte} (hx : LEq x y) :
    Same PubPSI (s.updateBulkL x) (t.updateBulkL y) := by
  unfold PState.updateBulkL
  have e : x.length = y.length := hx
  rw [e]
  refine .branch Iff.rfl (fun _ => ?_) fun _ => .pure ⟨h, hx⟩
  exact (sliceToL_same hx _).bind fun _ _ r => (compressToLeavesL_same h r).bind fun _ _ h => (sliceFromL_same hx _).bind fun _ _ r =>
    .pure ⟨h, r⟩

theorem pupdateL_same {s t : PState a} (h : PubPS s t) {x y : List Byte} (hx : LEq x y) : Same PubPS (s.updateL x) (t.updateL y) := by
  unfold PState.updateL
  refine (updateBufferedL_same h hx).bind ?_
  rintro ⟨s1, x1⟩ ⟨t1, y1⟩ ⟨h1, hx1⟩
  refine (updateBulkL_same h1 hx1).bind ?_
  rintro ⟨s2, x2⟩ ⟨t2, y2⟩ ⟨h2, hx2⟩
  refine (pfillBufL_same h2 hx2).bind ?_
  rintro ⟨s3, x3⟩ ⟨t3, y3⟩ ⟨h3, hx3⟩
  have e : x3.length = y3.length := hx3
  exact (rassertL_same (by rw [e])).seq (.pure h3)

theorem pfinalizeL_same {s t : PState a} (h : PubPS s t) : Same PubHash s.finalizeL t.finalizeL := by
  unfold PState.finalizeL
  rw [h.implementation, h.hashLength, h.bufLen, h.count]
  refine (compressLeavesL_same (fun i => ?_) _ _ _ _).bind fun _ _ _ => finalizeRootWordsL_same _ _ _ _ _ _
  refine (sliceToL_same h.buf _).bind fun _ _ r => (minL_same _ _).bind fun _ _ rm => ?_
  subst rm
  exact (sliceFromL_same r _).bind fun _ _ r => .pure ⟨r, rfl⟩

theorem pgetCountL_same (dbg : Bool) {s t : PState a} (h : PubPS s t) : Same Eq (s.getCountL dbg) (t.getCountL dbg) := by
  unfold PState.getCountL
  rw [h.count, h.bufLen, h.isKeyed]
  exact .branch Iff.rfl (fun _ => .branch Iff.rfl (fun _ => .fault _) fun _ => .pure rfl) fun _ => .pure rfl

theorem phashL_same {p q : PParams a} (h : PubPP p q) {x y : List Byte} (hx : LEq x y) : Same PubHash (p.hashL x) (q.hashL y) := by
  unfold PParams.hashL
  have e : x.length = y.length := hx
  rw [h.implementation, h.hashLength]
  refine .branch (by rw [h.keyLength]) (fun _ => ?_) fun _ => ?_
  · exact (pwithParamsL_same h).bind fun _ _ r => (pupdateL_same r hx).bind fun _ _ r => pfinalizeL_same r
  · refine (toWordsL_same h).bind fun _ _ _ => ?_
    refine (compressLeavesL_same (fun i => ?_) _ _ _ _).bind fun _ _ _ => finalizeRootWordsL_same _ _ _ _ _ _
    rw [e]
    refine (minL_same _ _).bind fun _ _ rm => ?_
    subst rm
    exact (sliceFromL_same hx _).bind fun _ _ r => .pure ⟨r, rfl⟩

/-! ## Histories -/

theorem getStateL_same {S : Type} {R : S → S → Prop} {ss ts : List S} (h : All2 R ss ts) (i : Nat) :
    Same R (getStateL ss i) (getStateL ts i) := by
  unfold getStateL
  refine (Same.reveal _).seq ?_
  rcases h.get? i with ⟨h1, h2⟩ | ⟨x, y, h1, h2, r⟩
  · rw [h1, h2]; exact .fault _
  · rw [h1, h2]; exact .pure r

theorem foldl_set_pub {S : Type} {R : S → S → Prop} {js js' : List (Nat × List Byte)}
    (hj : All2 (fun j k => j.1 = k.1 ∧ LEq j.2 k.2) js js') {out out' : List S} (ho : All2 R out out') {ss ts : List S} (h : All2 R ss ts) :
    All2 R ((js.zip out).foldl (fun ss p => ss.set p.1.1 p.2) ss) ((js'.zip out').foldl (fun ss p => ss.set p.1.1 p.2) ts) := by
  induction hj generalizing out out' ss ts with
  | nil => exact h
  | cons r _ ih =>
    cases ho with
    | nil => exact h
    | cons r' t' =>
      refine ih t' ?_
      dsimp only
      rw [r.1]
      exact h.set _ r'

theorem all2_of_map {js js' : List (Nat × List Byte)}
    (h : js.map (fun j => (j.1, j.2.length)) = js'.map (fun j => (j.1, j.2.length))) : All2 (fun j k => j.1 = k.1 ∧ LEq j.2 k.2) js js' := by
  induction js generalizing js' with
  | nil => cases js' with
    | nil => exact .nil
    | cons => simp at h
  | cons j js ih => cases js' with
    | nil => simp at h
    | cons k ks =>
      simp only [List.map_cons, List.cons.injEq, Prod.mk.injEq] at h
      exact .cons h.1 (ih h.2)

theorem execL_same (dbg : Bool) {ss ts : List (State a)} (h : All2 PubS ss ts) {op op' : Op Platform} (ho : op.Indist a op') :
    Same (fun r r' => All2 PubS r.1 r'.1) (op.execL dbg ss) (op'.execL dbg ts) := by
  cases op <;> cases op' <;> first | exact ho.elim | skip
  · obtain ⟨rfl, hc⟩ := ho
    exact (buildL_same PubParams.rfl hc).bind fun _ _ r => (withParamsL_same r).bind fun _ _ r => .pure (h.append (.cons r .nil))
  · cases ho
    exact (getStateL_same h _).bind fun _ _ r => .pure (h.append (.cons r .nil))
  · obtain ⟨rfl, hx⟩ := ho
    exact (getStateL_same h _).bind fun _ _ r => (updateL_same r hx).bind fun _ _ r => .pure (h.set _ r)
  · have hj := all2_of_map ho
    refine (Same.mapList (S := PubPair) hj fun j k r => ?_).bind fun _ _ rp => (updateManyL_same rp).bind fun _ _ ro =>
      .pure (foldl_set_pub hj ro h)
    rw [r.1]
    exact (getStateL_same h _).bind fun _ _ rs => .pure ⟨rs, r.2⟩
  · obtain ⟨rfl, hx⟩ := ho
    exact (getStateL_same h _).bind fun _ _ r => (updateL_same r hx).bind fun _ _ r => .pure (h.set _ r)
  · cases ho
    exact (getStateL_same h _).bind fun _ _ r => .pure (h.set _ r)
  · obtain ⟨rfl, rfl⟩ := ho
    exact (getStateL_same h _).bind fun _ _ r =>
      .pure (h.set _ ⟨r.count, r.buf, r.buflen, rfl, r.hashLength, r.implementation, r.isKeyed⟩)
  · cases ho
    exact (getStateL_same h _).bind fun _ _ r => (finalizeL_same r).bind fun _ _ r => (asBytesL_same r).bind fun _ _ _ => .pure h
  · cases ho
    exact (getStateL_same h _).bind fun _ _ r => (getCountL_same dbg r).bind fun _ _ _ => .pure h

theorem execAllL_same (dbg : Bool) {ss ts : List (State a)} (h : All2 PubS ss ts) {ops ops' : List (Op Platform)}
    (ho : IndistHistory a ops ops') :
    Same (fun r r' => All2 PubS r.1 r'.1) (execAllL dbg ss ops) (execAllL dbg ts ops') := by
  induction ops generalizing ss ts ops' with
  | nil => cases ops' with
    | nil => exact .pure h
    | cons => exact ho.elim
  | cons op ops ih => cases ops' with
    | nil => exact ho.elim
    | cons op' ops' => exact (execL_same dbg h ho.1).bind fun _ _ r => (ih r ho.2).bind fun _ _ r => .pure r

theorem pexecL_same (dbg : Bool) {ss ts : List (PState a)} (h : All2 PubPS ss ts) {op op' : POp Platform} (ho : op.Indist op') :
    Same (fun r r' => All2 PubPS r.1 r'.1) (op.execL dbg ss) (op'.execL dbg ts) := by
  cases op <;> cases op' <;> first | exact ho.elim | skip
  · obtain ⟨rfl, hc⟩ := ho
    exact (pbuildL_same PubPP.rfl hc).bind fun _ _ r => (pwithParamsL_same r).bind fun _ _ r => .pure (h.append (.cons r .nil))
  · cases ho
    exact (getStateL_same h _).bind fun _ _ r => .pure (h.append (.cons r .nil))
  · obtain ⟨rfl, hx⟩ := ho
    exact (getStateL_same h _).bind fun _ _ r => (pupdateL_same r hx).bind fun _ _ r => .pure (h.set _ r)
  · obtain ⟨rfl, hx⟩ := ho
    exact (getStateL_same h _).bind fun _ _ r => (pupdateL_same r hx).bind fun _ _ r => .pure (h.set _ r)
  · cases ho
    exact (getStateL_same h _).bind fun _ _ r => .pure (h.set _ r)
  · cases ho
    exact (getStateL_same h _).bind fun _ _ r => (pfinalizeL_same r).bind fun _ _ r => (asBytesL_same r).bind fun _ _ _ => .pure h
  · cases ho
    exact (getStateL_same h _).bind fun _ _ r => (pgetCountL_same dbg r).bind fun _ _ _ => .pure h

theorem pexecAllL_same (dbg : Bool) {ss ts : List (PState a)} (h : All2 PubPS ss ts) {ops ops' : List (POp Platform)}
    (ho : IndistPHistory ops ops') :
    Same (fun r r' => All2 PubPS r.1 r'.1) (pexecAllL dbg ss ops) (pexecAllL dbg ts ops') := by
  induction ops generalizing ss ts ops' with
  | nil => cases ops' with
    | nil => exact .pure h
    | cons => exact ho.elim
  | cons op ops ih => cases ops' with
    | nil => exact ho.elim
    | cons op' ops' => exact (pexecL_same dbg h ho.1).bind fun _ _ r => (ih r ho.2).bind fun _ _ r => .pure r

theorem hashAllL_same (dbg : Bool) {rs qs : List (Platform × List Setter × List Byte)}
    (h : All2 (fun r q => r.1 = q.1 ∧ IndistCalls a r.2.1 q.2.1 ∧ LEq r.2.2 q.2.2) rs qs) :
    Same (fun _ _ => True) (hashAllL (a := a) dbg rs) (hashAllL (a := a) dbg qs) := by
  unfold hashAllL
  refine (Same.mapList (S := PubHM) h fun r q hr => ?_).bind fun _ _ rj => (hashManyL_same rj).bind fun _ _ rj =>
    (Same.mapList (S := LEq) rj fun _ _ hj => (toHashL_same dbg hj).bind fun _ _ r => asBytesL_same r).mono fun _ _ _ => trivial
  obtain ⟨r1, r2, r3⟩ := r
  obtain ⟨q1, q2, q3⟩ := q
  obtain ⟨h1, h2, h3⟩ := hr
  dsimp only at h1 h2 h3 ⊢
  subst h1
  exact (buildL_same PubParams.rfl h2).bind fun _ _ r => newL_same r h3

end Blake2
