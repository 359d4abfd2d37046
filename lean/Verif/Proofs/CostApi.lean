import Verif.Proofs.CostMany
/-!
# How long the calls of the API take
-/
namespace Blake2
variable {a : Alg}

/-! ## Setters and states -/

theorem setter_takes (c : Spec.Setter) (p : Params a) (hp : p.keyBlock.length = a.bb) :
    Takes 3 (fun q => q.keyBlock.length = a.bb) (c.runL p) := by
  cases c with
  | hashLength n => exact (rassertL_takes _).bind (l := 2) fun _ _ => .pure hp
  | key k =>
    refine (rassertL_takes _).bind (l := 2) fun _ _ => (copyRangeL_takes _ _ _ _).bind (l := 0) fun _ h => .pure ?_
    simpa using h
  | salt k => exact (rassertL_takes _).bind (l := 2) fun _ _ => (copyRangeL_takes _ _ _ _).bind (l := 0) fun _ _ => .pure hp
  | personal k => exact (rassertL_takes _).bind (l := 2) fun _ _ => (copyRangeL_takes _ _ _ _).bind (l := 0) fun _ _ => .pure hp
  | nodeOffset n =>
    cases a with
    | b => exact .pure hp
    | s => exact (rassertL_takes _).bind (l := 2) fun _ _ => .pure hp
  | innerHashLength n => exact (rassertL_takes _).bind (l := 2) fun _ _ => .pure hp
  | fanout n => exact .pure hp
  | maxDepth n => exact .pure hp
  | maxLeafLength n => exact .pure hp
  | nodeDepth n => exact .pure hp
  | lastNode b => exact .pure hp

theorem buildL_takes (calls : List Spec.Setter) (p : Params a) (hp : p.keyBlock.length = a.bb) :
    Takes (3 * calls.length) (fun q => q.keyBlock.length = a.bb) (p.buildL calls) := by
  induction calls generalizing p with
  | nil => exact .pure hp
  | cons c cs ih => exact ((setter_takes c p hp).bind fun q hq => ih q hq).up (by rw [List.length_cons]; omega)

theorem blocksOf_bb : blocksOf (Stride.Serial.padded a) a.bb = 1 := by cases a <;> decide

theorem blocksOf_le_div {n m : Nat} (h : n ≤ m) : blocksOf (Stride.Serial.padded a) n ≤ m / a.bb + 1 :=
  Nat.add_le_add_right (Nat.div_le_div_right (by omega)) 1

namespace State

theorem withParamsL_takes (p : Params a) (hp : p.keyBlock.length = a.bb) :
    Takes 1 (fun s : State a => s.buf.length = a.bb) (withParamsL p) :=
  .branch (k := 0) (fun _ => .pure hp) fun _ => .pure (by simp)

theorem fillBufL_takes (s : State a) (x : List Byte) :
    Takes 9 (fun r => r.1.buf.length = s.buf.length ∧ r.2.length ≤ x.length) (s.fillBufL x) :=
  (checkedSubL_takes _ _).bind (l := 8) fun _ _ => (minL_takes _ _).bind (l := 7) fun _ _ => (sliceToL_takes _ _).bind (l := 5) fun _ _ =>
    (copyRangeL_takes _ _ _ _).bind (l := 3) fun _ hb => (addU8L_takes _ _).bind (l := 2) fun _ _ =>
    (sliceFromL_takes _ _).bind (l := 0) fun _ hx => .pure ⟨hb, by dsimp only; omega⟩

theorem compressBufferIfPossibleL_takes {s : State a} (h : s.buf.length = a.bb) (x : List Byte) :
    Takes 619 (fun r => r.1.buf.length = a.bb ∧ r.2.length ≤ x.length) (s.compressBufferIfPossibleL x) := by
  refine .branch (k := 618) (fun _ => (fillBufL_takes s x).bind (l := 609) ?_) fun _ => .pure ⟨h, Nat.le_refl _⟩
  rintro ⟨t, y⟩ ⟨ht, hy⟩
  dsimp only at ht hy ⊢
  rw [h] at ht
  refine .branch (k := 608) (fun _ => (Takes.bind (l := 0) ((compress1L_takes _ _ _ _ _ _ _).up (k' := 608) ?_) fun _ _ => .pure ⟨ht, hy⟩))
    fun _ => .pure ⟨ht, hy⟩
  rw [ht, blocksOf_bb]
  decide

theorem updateL_takes {s : State a} (h : s.buf.length = a.bb) (x : List Byte) :
    Takes (1241 + 608 * (x.length / a.bb)) (fun t => t.buf.length = a.bb) (s.updateL x) := by
  refine Takes.up (k := 619 + ((1 + (2 + (608 * (x.length / a.bb + 1) + 2))) + 9)) ?_ ?_
  · refine (compressBufferIfPossibleL_takes h x).bind ?_
    rintro ⟨t, y⟩ ⟨ht, hy⟩
    dsimp only at ht hy ⊢
    refine Takes.bind (Q := fun r => r.1.buf.length = a.bb) (.branch (fun _ => ?_) fun _ => .pure ht) ?_
    · refine (sliceToL_takes _ _).bind fun b hb => Takes.bind ((compress1L_takes _ _ _ _ _ _ _).up
        (Nat.mul_le_mul_left 608 (blocksOf_le_div ?_))) fun _ _ => (sliceFromL_takes _ _).bind (l := 0) fun _ _ => .pure ht
      omega
    · rintro ⟨u, z⟩ hu
      exact (fillBufL_takes u z).bind (l := 0) fun r hr => .pure (hr.1.trans hu)
  · generalize x.length / a.bb = q
    omega

theorem finalizeL_takes {s : State a} (h : s.buf.length = a.bb) : TakesAny 610 s.finalizeL := by
  refine (sliceToL_takes _ _).bind (l := 608) fun b hb => Takes.bind (l := 0) ((compress1L_takes _ _ _ _ _ _ _).up (k' := 608) ?_) fun _ _ => .pure trivial
  have := blocksOf_mono (p := Stride.Serial.padded a) (show b.length ≤ a.bb by omega)
  rw [blocksOf_bb] at this
  omega

theorem getCountL_takes (dbg : Bool) (s : State a) : TakesAny 2 (s.getCountL dbg) :=
  .branch (k := 1) (fun _ => .branch (k := 0) (fun _ => .fault _) fun _ => .pure trivial) fun _ => .pure trivial

end State

theorem hashL_takes {p : Params a} (h : p.keyBlock.length = a.bb) (x : List Byte) : TakesAny (1853 + 608 * (x.length / a.bb)) (p.hashL x) := by
  refine Takes.up (k := 1 + (1 + ((1241 + 608 * (x.length / a.bb)) + 610))) (.branch (fun _ => ?_) fun _ => ?_) ?_
  · exact (State.withParamsL_takes p h).bind fun s hs => (State.updateL_takes hs x).bind fun t ht => State.finalizeL_takes ht
  · refine (Takes.bind (l := 0) ((compress1L_takes _ _ _ _ _ _ _).up (Nat.mul_le_mul_left 608 (blocksOf_le_div (Nat.le_refl _)))) fun _ _ =>
      .pure trivial).up ?_
    generalize x.length / a.bb = q
    omega
  · generalize x.length / a.bb = q
    omega

/-! ## Hashes -/

theorem asBytesL_takes (h : Hash a) : Takes 2 (fun d => d.length ≤ 255) h.asBytesL :=
  (sliceToL_takes _ _).mono (Nat.le_refl _) fun _ hd => by have := h.len.isLt; omega

theorem constantTimeLoopL_takes (i : Nat) (ps : List (Byte × Byte)) (acc : Byte) :
    TakesAny (2 * ps.length + 1) (constantTimeLoopL i ps acc) := by
  induction ps generalizing i acc with
  | nil => exact (Takes.reveal _).bind (l := 0) fun _ _ => .pure trivial
  | cons p ps ih =>
    exact ((Takes.reveal _).bind fun _ _ => (Takes.reveal _).bind fun _ _ => ih _ _).up (by rw [List.length_cons]; omega)

theorem constantTimeEqL_takes (x y : List Byte) (hx : x.length ≤ 255) : TakesAny 512 (constantTimeEqL x y) := by
  refine .branch (k := 511) (fun _ => .pure trivial) fun _ => Takes.bind (l := 0) ((constantTimeLoopL_takes _ _ _).up (k' := 511) ?_) fun _ _ =>
    .pure trivial
  rw [List.length_zip]
  omega

theorem eqHashL_takes (h k : Hash a) : TakesAny 516 (h.eqHashL k) :=
  (asBytesL_takes h).bind (l := 514) fun x hx => (asBytesL_takes k).bind (l := 512) fun y _ => constantTimeEqL_takes x y hx

theorem eqSliceL_takes (h : Hash a) (y : List Byte) : TakesAny 514 (h.eqSliceL y) :=
  (asBytesL_takes h).bind (l := 512) fun x hx => constantTimeEqL_takes x y hx

theorem bytesToHexL_takes (bytes : List Byte) (s : List Char) :
    Takes (4 * bytes.length) (fun t => t.length = s.length + 2 * bytes.length) (Hash.bytesToHexL a bytes s) := by
  have at_ : ∀ i, TakesAny 1 (Hash.hexAtL i) := fun i => (Takes.reveal _).bind (l := 0) fun _ _ => by
    split
    · exact .pure trivial
    · exact .fault _
  have push : ∀ (s : List Char) c, Takes 1 (fun t => t.length = s.length + 1) (Hash.pushL a s c) := fun s c =>
    .branch (k := 0) (fun _ => .pure (by simp)) fun _ => .fault _
  induction bytes generalizing s with
  | nil => exact .pure rfl
  | cons b bytes ih =>
    refine ((at_ _).bind fun _ _ => (push _ _).bind fun s1 h1 => (at_ _).bind fun _ _ => (push _ _).bind fun s2 h2 =>
      (ih s2).mono (Nat.le_refl _) fun t ht => ?_).up (by rw [List.length_cons]; omega)
    rw [List.length_cons]
    omega

theorem toHexL_takes (h : Hash a) : Takes 1022 (fun t => t.length ≤ 510) h.toHexL :=
  (asBytesL_takes h).bind (l := 1020) fun x hx => (bytesToHexL_takes x []).mono (by omega) fun t ht => by
    rw [List.length_nil] at ht
    omega

/-! ## `update_many` and `hash_many` -/

theorem queuePot_finRange {α : Type} (l : List α) (f : α → Nat) :
    Many.queuePot (fun i : Fin l.length => f l[i]) (List.finRange l.length) = (l.map fun x => f x + 5).sum := by
  unfold Many.queuePot
  congr 1
  apply List.ext_getElem
  · simp
  · intro i h1 h2
    simp

theorem updateManyPullL_costs {ι : Type} (i : ι) (x : List Byte) {s : State a} (h : s.buf.length = a.bb) :
    Costs (1238 + 610 * (x.length / a.bb)) (fun r c => r.1.buf.length = a.bb ∧
      ∀ j, r.2 = some j → Many.jobPot (Stride.Serial.padded a) j ≤ c) (updateManyPullL i x s) := by
  refine .spend (State.compressBufferIfPossibleL_takes h x) (by omega) ?_
  rintro ⟨t, y⟩ c ⟨ht, hy⟩ hc
  dsimp only at ht hy ⊢
  have hmul : ∀ n, 610 * (n + 1) = 610 * n + 610 := fun n => by omega
  refine .branch (by omega) (fun _ => .pure ⟨ht, nofun⟩) fun _ => .spend (checkedSubL_takes _ _) (by omega) fun n c1 _ h1 =>
    .spend (sliceToL_takes _ _) (by omega) fun b c2 hb h2 => .spend (sliceFromL_takes _ _) (by omega) fun b' c3 _ h3 =>
    .spend (copyRangeL_takes _ _ _ _) (by omega) fun buf c4 hbuf h4 => .branch (by omega) (fun _ => .pure ⟨hbuf.trans ht, nofun⟩) fun _ =>
    .pure ⟨hbuf.trans ht, fun j hj => ?_⟩
  cases hj
  refine Nat.le_trans (Nat.mul_le_mul_left 610 (blocksOf_le_div (m := x.length) ?_)) ?_
  · show b.length ≤ _
    omega
  · rw [hmul]
    omega

theorem updateManyL_takes (pairs : List (State a × List Byte)) (h : ∀ p ∈ pairs, p.1.buf.length = a.bb) :
    TakesAny (11 + (pairs.map fun p => 1243 + 610 * (p.2.length / a.bb)).sum) (updateManyL pairs) := by
  cases pairs with
  | nil => exact (Takes.reveal _).bind (l := 10) fun _ _ => .pure trivial
  | cons first rest =>
    generalize hl : first :: rest = l at h
    have key := Many.compressManyL_takes (a := a) (stride := .Serial) (E := State a) (Inv := fun _ s => s.buf.length = a.bb)
      (pot := fun i : Fin l.length => (fun p : State a × List Byte => 1238 + 610 * (p.2.length / a.bb)) l[i])
      (src := { pull := fun i s => updateManyPullL i (l[i]).2 s
                getWords := fun s => s.words
                setWords := fun s w => { s with words := w } })
      ⟨fun i s hs => updateManyPullL_costs i _ hs, fun _ _ _ hs => hs⟩ first.1.implementation false
      (mem := fun i : Fin l.length => (l[i]).1) (fun i => h _ (List.getElem_mem i.isLt)) (List.finRange l.length)
    rw [queuePot_finRange l fun p : State a × List Byte => 1238 + 610 * (p.2.length / a.bb)] at key
    subst hl
    refine ((Takes.reveal _).bind fun _ _ => key.bind (l := 0) fun _ _ => .pure trivial).up ?_
    have e : ((first :: rest).map fun p : State a × List Byte => 1238 + 610 * (p.2.length / a.bb) + 5) =
        (first :: rest).map fun p => 1243 + 610 * (p.2.length / a.bb) := List.map_congr_left fun p _ => by omega
    rw [e]
    omega

theorem newL_takes {p : Params a} (h : p.keyBlock.length = a.bb) (x : List Byte) : TakesAny 610 (HashManyJob.newL p x) := by
  have one : ∀ (w : Vector (Word a) 8) ln fin, TakesAny 608 (compress1L a p.implementation p.keyBlock w 0 ln fin .Serial) := fun w ln fin =>
    (compress1L_takes _ _ _ _ _ _ _).up (by rw [h, blocksOf_bb]; decide)
  exact Takes.bind (k := 610) (l := 0) (Q := fun _ => True) (.branch (k := 609) (fun _ => .branch (k := 608)
    (fun _ => (one _ _ _).bind (l := 0) fun _ _ => .pure trivial) fun _ => (one _ _ _).bind (l := 0) fun _ _ => .pure trivial)
    fun _ => .pure trivial) fun _ _ => .pure trivial

theorem toHashL_takes (dbg : Bool) (j : HashManyJob a) : TakesAny 1 (j.toHashL dbg) :=
  .branch (k := 0) (fun _ => .fault _) fun _ => .pure trivial

theorem hashManyPullL_costs {ι : Type} (i : ι) (n : Nat) {j : HashManyJob a} (h : j.input.length = n) :
    Costs (611 + 610 * (n / a.bb)) (fun r c => r.1.input.length = n ∧
      ∀ k, r.2 = some k → Many.jobPot (Stride.Serial.padded a) k ≤ c) (hashManyPullL i j) := by
  refine .branch (by omega) (fun _ => .pure ⟨h, nofun⟩) fun _ => .pure ⟨h, fun k hk => ?_⟩
  cases hk
  refine Nat.le_trans (Nat.mul_le_mul_left 610 (blocksOf_le_div (m := n) (by show j.input.length ≤ n; omega))) ?_
  generalize n / a.bb = q
  omega

theorem hashManyL_takes (jobs : List (HashManyJob a)) :
    TakesAny (11 + (jobs.map fun j => 616 + 610 * (j.input.length / a.bb)).sum) (hashManyL jobs) := by
  cases jobs with
  | nil => exact (Takes.reveal _).bind (l := 10) fun _ _ => .pure trivial
  | cons first rest =>
    generalize hl : first :: rest = l
    have key := Many.compressManyL_takes (a := a) (stride := .Serial) (E := HashManyJob a)
      (Inv := fun (i : Fin l.length) (j : HashManyJob a) => j.input.length = (l[i]).input.length)
      (pot := fun i : Fin l.length => (fun j : HashManyJob a => 611 + 610 * (j.input.length / a.bb)) l[i])
      (src := { pull := hashManyPullL
                getWords := fun j => j.words
                setWords := fun j w => { j with words := w } })
      ⟨fun i s hs => hashManyPullL_costs i _ hs, fun _ _ _ hs => hs⟩ first.implementation true
      (mem := fun i : Fin l.length => l[i]) (fun i => rfl) (List.finRange l.length)
    rw [queuePot_finRange l fun j : HashManyJob a => 611 + 610 * (j.input.length / a.bb)] at key
    subst hl
    refine ((Takes.reveal _).bind fun _ _ => key.bind (l := 0) fun _ _ => .pure trivial).up ?_
    have e : ((first :: rest).map fun j : HashManyJob a => 611 + 610 * (j.input.length / a.bb) + 5) =
        (first :: rest).map fun j => 616 + 610 * (j.input.length / a.bb) := List.map_congr_left fun p _ => by omega
    rw [e]
    omega

/-! ## Trees -/

theorem sum_replicate_le {ι : Type} (q : List ι) (n : Nat) : Many.queuePot (fun _ => n) q = q.length * (n + 5) := by
  unfold Many.queuePot
  exact Takes.sum_const q (n + 5)

theorem parDegree_blocks (n : Nat) : parDegree a * blocksOf (Stride.Parallel.padded a) n ≤ n / a.bb + parDegree a := by
  unfold blocksOf
  cases a
  · show 4 * ((n - 1) / 512 + 1) ≤ n / 128 + 4
    omega
  · show 8 * ((n - 1) / 512 + 1) ≤ n / 64 + 8
    omega

theorem parDegree_le : parDegree a ≤ 8 := by cases a <;> decide

theorem compressLeavesL_takes {mk : Fin (parDegree a) → Leaky (List Byte × Count a × Bool)} {n : Nat}
    (hmk : ∀ i, Takes 5 (fun r => r.1.length ≤ n) (mk i)) (imp : Platform) (fin : Bool) (leaves : LeafWords a) :
    TakesAny (90 + 610 * parDegree a + 610 * (n / a.bb)) (compressLeavesL mk imp fin leaves) := by
  have key := Many.compressManyL_takes (a := a) (stride := .Parallel) (E := Vector (Word a) 8) (Inv := fun _ _ => True)
    (pot := fun _ : Fin (parDegree a) => 5 + 610 * blocksOf (Stride.Parallel.padded a) n)
    (src := { pull := fun i w => do
                let (input, count, lastNode) ← mk i
                pure (w, some { id := i, input := input, count := count, lastNode := lastNode })
              getWords := fun w => w
              setWords := fun _ w => w })
    ⟨fun i e _ => .spend (hmk i) (by omega) fun r c hr hc => .pure ⟨trivial, fun j hj => by
        cases hj
        refine Nat.le_trans (Nat.mul_le_mul_left 610 (blocksOf_mono hr)) ?_
        omega⟩, fun _ _ _ _ => trivial⟩ imp fin (mem := fun i => leaves[i]) (fun _ => trivial) (List.finRange (parDegree a))
  rw [sum_replicate_le, List.length_finRange] at key
  refine (key.bind (l := 0) fun _ _ => .pure trivial).up ?_
  have h1 := parDegree_blocks (a := a) n
  have h2 := parDegree_le (a := a)
  have h3 : parDegree a * (5 + 610 * blocksOf (Stride.Parallel.padded a) n + 5) =
      10 * parDegree a + 610 * (parDegree a * blocksOf (Stride.Parallel.padded a) n) := by
    rw [Nat.mul_add, Nat.mul_add, Nat.mul_left_comm]
    omega
  rw [h3]
  generalize n / a.bb = q at *
  generalize parDegree a * blocksOf (Stride.Parallel.padded a) n = z at *
  omega

theorem finalizeRootWordsL_takes (lw : LeafWords a) (rw : Vector (Word a) 8) (n : BitVec 8) (imp : Platform) :
    TakesAny 2432 (finalizeRootWordsL lw rw n imp) := by
  refine Takes.bind (k := 2432) (l := 0) ((compress1L_takes _ _ _ _ _ _ _).up ?_) fun _ _ => .pure trivial
  have hle : ∀ (l : List (Word a)), (l.flatMap fun word => toLE a.wb word).length = l.length * a.wb := fun l => by
    induction l with
    | nil => simp
    | cons x l ih =>
      rw [List.flatMap_cons, List.length_append, ih, List.length_cons, Nat.succ_mul]
      simp [toLE, Nat.add_comm]
  have hlw : ∀ (l : List (Vector (Word a) 8)), (l.flatMap fun words => words.toList).length = l.length * 8 := fun l => by
    induction l with
    | nil => simp
    | cons x l ih =>
      rw [List.flatMap_cons, List.length_append, ih, List.length_cons, Nat.succ_mul, Vector.length_toList, Nat.add_comm]
  rw [hle, hlw, Vector.length_toList]
  cases a <;> decide

namespace PParams

theorem toWordsL_takes (p : PParams a) : TakesAny 16 p.toWordsL := by
  have off : ∀ (q : Params a) n, TakesAny 1 (q.setNodeOffsetL n) := fun q n => by
    cases a with
    | b => exact .pure trivial
    | s => exact (rassertL_takes _).bind (l := 0) fun _ _ => .pure trivial
  refine Takes.up (k := 7 + (parDegree a * 1 + (1 + 0))) ?_ (by have := parDegree_le (a := a); omega)
  refine Takes.bind (Q := fun _ => True) ?_ fun base _ => (Takes.mapVector (P := fun _ _ => True) fun i => (off _ _).bind (l := 0) fun _ _ =>
    .pure trivial).bind fun _ _ => Takes.bind (Q := fun _ => True) ((off _ _).bind (l := 0) fun _ _ => .pure trivial) fun _ _ => .pure trivial
  refine Takes.bind (k := 1) (l := 6) (Q := fun _ => True) ((rassertL_takes _).bind (l := 0) fun _ _ => .pure trivial) fun _ _ =>
    (sliceToL_takes _ _).bind (l := 4) fun _ _ =>
    Takes.bind (k := 3) (l := 1) (Q := fun _ => True) ((rassertL_takes _).bind (l := 2) fun _ _ => (copyRangeL_takes _ _ _ _).bind (l := 0) fun _ _ =>
      .pure trivial) fun _ _ => (rassertL_takes _).bind (l := 0) fun _ _ => .pure trivial

theorem setter_takes (c : Spec.PSetter) (p : PParams a) : TakesAny 3 (c.runL p) := by
  cases c with
  | hashLength n => exact (rassertL_takes _).bind (l := 2) fun _ _ => .pure trivial
  | key k => exact (rassertL_takes _).bind (l := 2) fun _ _ => (copyRangeL_takes _ _ _ _).bind (l := 0) fun _ _ => .pure trivial

theorem buildL_takes (calls : List Spec.PSetter) (p : PParams a) : TakesAny (3 * calls.length) (p.buildL calls) := by
  induction calls generalizing p with
  | nil => exact .pure trivial
  | cons c cs ih => exact ((setter_takes c p).bind fun q _ => ih q).up (by rw [List.length_cons]; omega)

end PParams

theorem copyAtL_takes (b : List Byte) (o : Nat) (x : List Byte) : Takes 3 (fun r => r.length = b.length) (copyAtL b o x) :=
  .branch (k := 2) (fun _ => copyRangeL_takes _ _ _ _) fun _ => .fault _

namespace PState

/-- The size of the buffer of a tree state. -/
def Full (s : PState a) : Prop := s.buf.length = 2 * parDegree a * a.bb

theorem withParamsL_takes (p : PParams a) : Takes 57 Full (withParamsL p) := by
  have keys : ∀ (is : List Nat) st, Takes (5 * is.length) (fun r => r.1.length = st.1.length) (placeKeysL p is st) := by
    intro is
    induction is with
    | nil => exact fun _ => .pure rfl
    | cons i is ih =>
      exact fun st => ((sliceToL_takes _ _).bind fun _ _ => (copyAtL_takes _ _ _).bind fun b hb =>
        (ih _).mono (Nat.le_refl _) fun r hr => hr.trans hb).up (by rw [List.length_cons]; omega)
  refine (PParams.toWordsL_takes p).bind (l := 41) fun lr _ => Takes.bind (k := 41) (l := 0) (Q := fun r : List Byte × Nat => r.1.length = 2 * parDegree a * a.bb)
    (.branch (k := 40) (fun _ => (keys _ _).mono ?_ fun r hr => hr.trans (by simp)) fun _ => .pure (by simp)) fun r hr => .pure hr
  rw [List.length_range]
  have := parDegree_le (a := a)
  omega

theorem fillBufL_takes {s : PState a} (h : s.Full) (x : List Byte) : Takes 10 (fun r => r.1.Full ∧ r.2.length ≤ x.length) (s.fillBufL x) :=
  (checkedSubL_takes _ _).bind (l := 9) fun _ _ => (minL_takes _ _).bind (l := 8) fun _ _ => (sliceToL_takes _ _).bind (l := 6) fun _ _ =>
    (copyAtL_takes _ _ _).bind (l := 3) fun _ hb => (addU16L_takes _ _).bind (l := 2) fun _ _ =>
    (sliceFromL_takes _ _).bind (l := 0) fun _ hx => .pure ⟨hb.trans h, by dsimp only; omega⟩

theorem compressToLeavesL_takes (s : PState a) {x : List Byte} {n : Nat} (hx : x.length ≤ n) :
    Takes (90 + 610 * parDegree a + 610 * (n / a.bb)) (fun t => t.buf = s.buf) (s.compressToLeavesL x) :=
  (compressLeavesL_takes (n := n) (fun i => ((sliceFromL_takes _ _).bind (l := 3) fun y hy => .pure (by dsimp only; omega))) _ _ _).bind
    (l := 0) fun _ _ => .pure rfl

theorem buf_blocks : 2 * parDegree a * a.bb / a.bb = 2 * parDegree a := by cases a <;> decide

theorem half_blocks : parDegree a * a.bb / a.bb = parDegree a := by cases a <;> decide

theorem updateBufferedL_takes {s : PState a} (h : s.Full) (x : List Byte) :
    Takes (110 + 1830 * parDegree a) (fun r => r.1.Full ∧ r.2.length ≤ x.length) (s.updateBufferedL x) := by
  have hd : 1 ≤ parDegree a := by cases a <;> decide
  refine Takes.up (k := 1 + (10 + (1 + (1 + (97 + 1830 * parDegree a))))) ?_ (by omega)
  refine .branch (fun _ => (fillBufL_takes h x).bind ?_) fun _ => .pure ⟨h, Nat.le_refl _⟩
  rintro ⟨t, y⟩ ⟨ht, hy⟩
  dsimp only at hy ⊢
  refine .branch (fun _ => .branch (fun _ => ?_) fun _ => ?_) fun _ => .pure ⟨ht, hy⟩
  · refine ((compressToLeavesL_takes t (Nat.le_of_eq ht)).bind (l := 0) fun u hu => .pure ⟨(congrArg List.length hu).trans ht, hy⟩).up ?_
    rw [buf_blocks]
    omega
  · refine Takes.up (k := 2 + ((90 + 610 * parDegree a + 610 * (parDegree a * a.bb / a.bb)) + (2 + (2 + (2 + 0))))) ?_ (by
      rw [half_blocks]; omega)
    refine (sliceToL_takes _ _).bind fun f hf => (compressToLeavesL_takes t (Nat.le_of_eq hf.1)).bind fun u hu => (sliceToL_takes _ _).bind fun b hb =>
      (sliceFromL_takes _ _).bind fun c hc => (copyRangeL_takes _ _ _ _).bind fun d hd => .pure ⟨?_, hy⟩
    show (d ++ c).length = _
    have e : u.buf.length = 2 * parDegree a * a.bb := (congrArg List.length hu).trans ht
    rw [List.length_append]
    omega

theorem updateBulkL_takes {s : PState a} (h : s.Full) (x : List Byte) :
    Takes (95 + 610 * parDegree a + 610 * (x.length / a.bb)) (fun r => r.1.Full ∧ r.2.length ≤ x.length) (s.updateBulkL x) := by
  refine Takes.up (k := 1 + (2 + ((90 + 610 * parDegree a + 610 * (x.length / a.bb)) + (2 + 0)))) ?_ (by omega)
  refine .branch (fun _ => (sliceToL_takes _ _).bind fun b hb => (compressToLeavesL_takes s (n := x.length) (by omega)).bind fun t ht =>
    (sliceFromL_takes _ _).bind fun y hy => .pure ⟨(congrArg List.length ht).trans h, by dsimp only; omega⟩) fun _ => .pure ⟨h, Nat.le_refl _⟩

theorem updateL_takes {s : PState a} (h : s.Full) (x : List Byte) :
    Takes (216 + 2440 * parDegree a + 610 * (x.length / a.bb)) Full (s.updateL x) := by
  refine Takes.up (k := (110 + 1830 * parDegree a) + ((95 + 610 * parDegree a + 610 * (x.length / a.bb)) + (10 + (1 + 0)))) ?_ (by omega)
  refine (updateBufferedL_takes h x).bind ?_
  rintro ⟨t, y⟩ ⟨ht, hy⟩
  dsimp only at hy ⊢
  refine Takes.bind ((updateBulkL_takes ht y).up ?_) ?_
  · have := Nat.div_le_div_right (c := a.bb) hy
    generalize x.length / a.bb = q at *
    generalize y.length / a.bb = q' at *
    omega
  · rintro ⟨u, z⟩ ⟨hu, _⟩
    dsimp only at hu ⊢
    refine (fillBufL_takes hu z).bind ?_
    rintro ⟨v, r⟩ ⟨hv, _⟩
    exact (rassertL_takes _).bind fun _ _ => .pure hv

theorem finalizeL_takes {s : PState a} (h : s.Full) : TakesAny (2522 + 1830 * parDegree a) s.finalizeL := by
  refine Takes.up (k := (90 + 610 * parDegree a + 610 * (2 * parDegree a * a.bb / a.bb)) + 2432) ?_ (by rw [buf_blocks]; omega)
  refine (compressLeavesL_takes (fun i => ?_) _ _ _).bind fun lw _ => finalizeRootWordsL_takes _ _ _ _
  have h' : s.buf.length = 2 * parDegree a * a.bb := h
  exact (sliceToL_takes _ _).bind (l := 3) fun u hu => (minL_takes _ _).bind (l := 2) fun st _ => (sliceFromL_takes _ _).bind (l := 0) fun y hy =>
    .pure (by dsimp only; omega)

theorem getCountL_takes (dbg : Bool) (s : PState a) : TakesAny 2 (s.getCountL dbg) :=
  .branch (k := 1) (fun _ => .branch (k := 0) (fun _ => .fault _) fun _ => .pure trivial) fun _ => .pure trivial

end PState

theorem phashL_takes (p : PParams a) (x : List Byte) : TakesAny (2796 + 4270 * parDegree a + 610 * (x.length / a.bb)) (p.hashL x) := by
  refine Takes.up (k := 1 + (57 + ((216 + 2440 * parDegree a + 610 * (x.length / a.bb)) + (2522 + 1830 * parDegree a))))
    (.branch (fun _ => ?_) fun _ => ?_) (by omega)
  · exact (PState.withParamsL_takes p).bind fun s hs => (PState.updateL_takes hs x).bind fun t ht => PState.finalizeL_takes ht
  · refine Takes.up (k := 16 + ((90 + 610 * parDegree a + 610 * (x.length / a.bb)) + 2432)) ?_ (by omega)
    refine (PParams.toWordsL_takes p).bind ?_
    rintro ⟨lw, rw⟩ _
    exact (compressLeavesL_takes (fun i => (minL_takes _ _).bind (l := 4) fun st _ => (sliceFromL_takes _ _).bind (l := 2) fun y hy =>
      .pure (by dsimp only; omega)) _ _ _).bind fun lw _ => finalizeRootWordsL_takes _ _ _ _

end Blake2
