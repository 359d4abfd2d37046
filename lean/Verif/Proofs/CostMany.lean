import Verif.Proofs.Cost
/-!
# How long a batch takes

An iteration of the wide loops runs until the shortest of its messages is used up, and is paid for by that message. What the others have
left is not more than before.
-/
namespace Blake2
variable {a : Alg}

/-! ## The N-way loops -/

namespace NWay
variable {N : Nat} {R : Type}

theorem revealRounds_takes (rs : List (Fin a.rows)) : TakesAny (17 * rs.length) (loopIterL.revealRounds (a := a) rs) := by
  induction rs with
  | nil => exact .pure trivial
  | cons r rs ih =>
    refine ((Takes.reveal _).bind fun _ _ => Takes.bind (k := 16) (Q := fun _ => True) ⟨by simp, fun _ _ => trivial⟩ fun _ _ => ih).up ?_
    rw [List.length_cons]
    omega

theorem loopIterL_takes (o : VImpl a N R) (hN : N ≤ 8) (xs : Vector (List Byte) N) (n : Nat) (fin : Fin_ a N R) (s : Stride)
    (fuel off j : Nat) (hj : fin.offset = off + j * s.padded a) (h : Vector R 8) (lo hi : R) :
    Takes (215 * (j + 1)) (fun r => r.1 = fin.offset) (loopIterL o xs n fin s fuel off h lo hi) := by
  induction fuel generalizing off h lo hi j with
  | zero => exact .fault _
  | succ fuel ih =>
    refine (Takes.bind (k := 1 + (N * 1 + 0)) (l := 204 + (1 + (1 + 215 * j))) (Q := fun _ => True)
      (.branch (fun _ => .pure trivial) fun _ => ?_) fun p _ => ?_).up (by omega)
    · exact (Takes.mapVector (P := fun _ _ => True) fun _ => rawRefL_takes _ _ _).bind fun _ _ => .pure trivial
    · refine ((revealRounds_takes _).up (k' := 204) (by cases a <;> decide)).bind fun _ _ =>
        .branch (fun he => .pure he) fun hne => (addUsizeL_takes _ _ _).bind fun o' ho => ?_
      cases j with
      | zero => exact absurd (by rw [hj, Nat.zero_mul, Nat.add_zero]) hne
      | succ j =>
        refine ih _ j ?_ _ _ _
        subst ho
        rw [hj, Nat.succ_mul]
        omega

theorem assertJobsL_takes (fin : Bool) (jobs : List (Job a)) : TakesAny (3 * jobs.length) (assertJobsL a fin jobs) := by
  induction jobs with
  | nil => exact .pure trivial
  | cons j js ih => exact ((inputDebugAssertsL_takes _ _).bind fun _ _ => ih).up (by rw [List.length_cons]; omega)

theorem listMinL_takes (l : List Nat) : Takes l.length (fun r => r = listMin l) (listMinL l) := by
  refine ⟨?_, fun v hv => ?_⟩
  · have : TakesAny l.length (listMinL l) := by
      induction l with
      | nil => exact .pure trivial
      | cons x xs ih =>
        refine (ih.bind (l := 1) fun y _ => ?_)
        cases y with
        | none => exact .pure trivial
        | some y => exact (minL_takes _ _).bind (l := 0) fun _ _ => .pure trivial
    exact this.log
  · rw [listMinL_erase] at hv
    cases hv
    rfl

theorem listMin_mem' (l : List Nat) (h : l ≠ []) : ∃ n ∈ l, listMin l = some n := by
  induction l with
  | nil => exact absurd rfl h
  | cons x xs ih =>
    by_cases hx : xs = []
    · subst hx; exact ⟨x, by simp, rfl⟩
    · obtain ⟨n, hn, e⟩ := ih hx
      rw [listMin, e]
      refine ⟨_, ?_, rfl⟩
      rcases Nat.le_total x n with hle | hle
      · rw [Nat.min_eq_left hle]; simp
      · rw [Nat.min_eq_right hle]; simp [hn]

/-- **A wide loop** is paid for by one of its messages, which it uses up; it does not add to the others. -/
def LoopTakes (p : Nat) (loopN : Vector (Job a) N → Leaky (Vector (Job a) N)) : Prop :=
  ∀ jobs, ∃ i, ∃ _ : i < N, Takes (337 * blocksOf p jobs[i].input.length)
    (fun out => (∀ k (_ : k < N), out[k].input.length ≤ jobs[k].input.length) ∧ out[i].input = []) (loopN jobs)

theorem compressLoopL_takes (o : VImpl a N R) (h1 : 1 ≤ N) (hN : N ≤ 8) (fin : Bool) (s : Stride) (jobs : Vector (Job a) N) :
    ∃ i, ∃ _ : i < N, Takes (336 * blocksOf (s.padded a) jobs[i].input.length)
      (fun out => (∀ k (_ : k < N), out[k].input.length ≤ jobs[k].input.length) ∧ out[i].input = [])
      (compressLoopL o jobs fin s) := by
  have hp := padded_pos s (a := a)
  obtain ⟨n, hn, hmin⟩ := listMin_mem' (jobs.toList.map fun job => job.input.length)
    (by intro e; have := congrArg List.length e; simp at this; omega)
  obtain ⟨i, hi, e⟩ := List.getElem_of_mem hn
  have hi' : i < N := by simpa using hi
  refine ⟨i, hi', ?_⟩
  have e' : jobs[i].input.length = n := by simpa using e
  rw [e']
  refine Takes.up (k := 3 * jobs.toList.length + (jobs.toList.length + (N * 6 + ((1 + (N * 1 + (N * 1 + 0))) +
    (215 * ((n - 1) / s.padded a + 1) + N * 3))))) ?_ ?_
  · refine (assertJobsL_takes _ _).bind fun _ _ => Takes.bind (Q := fun m => m = n) ?_ ?_
    · refine (Takes.bind (l := 0) ((listMinL_takes _).up (k' := jobs.toList.length) (by simp)) fun r hr => ?_)
      rw [hmin] at hr
      subst hr
      exact .pure rfl
    · rintro m rfl
      refine Takes.bind (Q := fun _ => True) ((Takes.mapVector (P := fun _ _ => True) fun _ => finalBlockL_takes _ _ _ _).any) fun fins _ => ?_
      refine Takes.bind (Q := fun _ => True) (.branch (fun _ => ?_) fun _ => .pure trivial) fun p _ => ?_
      · exact (Takes.mapVector (P := fun _ _ => True) fun _ => flagWordL_takes _ _).bind fun _ _ =>
          (Takes.mapVector (P := fun _ _ => True) fun _ => flagWordL_takes _ _).bind fun _ _ => .pure trivial
      · refine (loopIterL_takes o hN _ _ _ _ _ _ _ (finOffset_eq _ _) _ _ _).bind ?_
        rintro ⟨off, h, lo, hi⟩ hoff
        dsimp only at hoff
        refine Takes.mono (Takes.mapVector (P := fun (k : Fin N) (r : Job a) =>
          r.input = jobs[k].input.drop (min (off + s.padded a) jobs[k].input.length)) fun k => ?_) (Nat.le_refl _) fun out ho => ?_
        · exact (minL_takes _ _).bind (l := 2) fun c hc => (sliceFromL_takes _ _).bind (l := 0) fun y hy => .pure (by rw [hy.2, hc])
        · have ho' : ∀ k (hk : k < N), out[k].input = jobs[k].input.drop (min (off + s.padded a) jobs[k].input.length) := fun k hk => by
            simpa using ho k hk
          refine ⟨fun k hk => ?_, ?_⟩
          · rw [ho' k hk, List.length_drop]; exact Nat.sub_le _ _
          · rw [ho' i hi']
            apply List.drop_eq_nil_of_le
            rw [e']
            have := Nat.mod_lt (m - 1) hp
            have : m ≤ off + s.padded a := by rw [hoff]; omega
            omega
  · rw [Vector.length_toList]
    unfold blocksOf
    generalize (n - 1) / s.padded a = j
    omega

end NWay

open NWay (LoopTakes)

theorem compressHiL_takes (imp : Platform) (fin : Bool) (s : Stride) :
    LoopTakes (s.padded a) (fun jobs => compressHiL a imp jobs fin s) := by
  intro jobs
  have key : ∀ {R : Type} (o : VImpl a (hiDegree a) R) (f : Feature), ∃ i, ∃ _ : i < hiDegree a,
      Takes (337 * blocksOf (s.padded a) jobs[i].input.length)
      (fun out => (∀ k (_ : k < hiDegree a), out[k].input.length ≤ jobs[k].input.length) ∧ out[i].input = [])
      (Leaky.within f (NWay.compressLoopL o jobs fin s)) := fun o f => by
    obtain ⟨i, hi, h⟩ := NWay.compressLoopL_takes o (by cases a <;> decide) (by cases a <;> decide) fin s jobs
    exact ⟨i, hi, h.within.up (by have := blocksOf_pos (s.padded a) jobs[i].input.length; omega)⟩
  cases a <;> cases imp <;> first | exact key _ _ | exact ⟨0, by decide, .fault _⟩

theorem compressLoL_takes (imp : Platform) (fin : Bool) (s : Stride) :
    LoopTakes (s.padded a) (fun jobs => compressLoL a imp jobs fin s) := by
  intro jobs
  have key : ∀ {R : Type} (o : VImpl a (loDegree a) R) (f : Feature), ∃ i, ∃ _ : i < loDegree a,
      Takes (337 * blocksOf (s.padded a) jobs[i].input.length)
      (fun out => (∀ k (_ : k < loDegree a), out[k].input.length ≤ jobs[k].input.length) ∧ out[i].input = [])
      (Leaky.within f (NWay.compressLoopL o jobs fin s)) := fun o f => by
    obtain ⟨i, hi, h⟩ := NWay.compressLoopL_takes o (by cases a <;> decide) (by cases a <;> decide) fin s jobs
    exact ⟨i, hi, h.within.up (by have := blocksOf_pos (s.padded a) jobs[i].input.length; omega)⟩
  cases a <;> cases imp <;> first | exact key _ _ | exact ⟨0, by decide, .fault _⟩

/-! ## `compress_many` -/

namespace Many
variable {ι E : Type} [DecidableEq ι] {Inv : ι → E → Prop} {pot : ι → Nat} {p : Nat}

/-- What a job may still cost. -/
def jobPot (p : Nat) (r : JobRef a ι) : Nat := 610 * blocksOf p r.input.length

/-- What the jobs in the vector may still cost. -/
def vecPot (p : Nat) (vec : List (JobRef a ι)) : Nat := (vec.map (jobPot p)).sum

/-- What the items still in the iterator may cost. -/
def queuePot (pot : ι → Nat) (q : List ι) : Nat := (q.map fun i => pot i + 5).sum

/-- Taking item `i` from the iterator, and later running the job it gives, costs at most `pot i`. -/
structure SourceCosts (p : Nat) (Inv : ι → E → Prop) (pot : ι → Nat) (src : SourceL a ι E) : Prop where
  pull : ∀ i e, Inv i e → Costs (pot i) (fun r c => Inv i r.1 ∧ ∀ j, r.2 = some j → jobPot p j ≤ c) (src.pull i e)
  set : ∀ i e w, Inv i e → Inv i (src.setWords e w)

theorem store_keeps {mem : ι → E} (h : ∀ i, Inv i (mem i)) (i : ι) {e : E} (he : Inv i e) (j : ι) : Inv j (store mem i e j) := by
  unfold store
  split
  · rename_i hji; subst hji; exact he
  · exact h j

theorem vecPot_append (v w : List (JobRef a ι)) : vecPot p (v ++ w) = vecPot p v + vecPot p w := by
  simp [vecPot]

theorem le_vecPot {v : List (JobRef a ι)} {r : JobRef a ι} (h : r ∈ v) : jobPot p r ≤ vecPot p v := by
  induction v with
  | nil => cases h
  | cons x v ih =>
    have hv : vecPot p (x :: v) = jobPot p x + vecPot p v := by simp [vecPot]
    rcases List.mem_cons.1 h with rfl | h
    · omega
    · have := ih h
      omega

theorem fillJobsVecL_costs {src : SourceL a ι E} (hs : SourceCosts p Inv pot src) (n r : Nat) (q : List ι) {mem : ι → E}
    (hm : ∀ i, Inv i (mem i)) (vec : List (JobRef a ι)) {c : Nat} (hc : queuePot pot q + vecPot p vec + r + 1 ≤ c) :
    Costs c (fun t c => (∀ i, Inv i (t.1 i)) ∧ queuePot pot t.2.1 + vecPot p t.2.2 + r ≤ c) (fillJobsVecL src n mem q vec) := by
  induction q generalizing mem vec c with
  | nil => exact .spend (Takes.reveal _) (by omega) fun _ c _ hc' => .pure ⟨hm, by dsimp only; omega⟩
  | cons i q ih =>
    have hq : queuePot pot (i :: q) = pot i + 5 + queuePot pot q := by simp [queuePot]
    rw [hq] at hc
    refine .branch (by omega) (fun _ => .spend (Takes.reveal _) (by omega) fun _ c1 _ hc1 => ?_) fun _ => .pure ⟨hm, by
      dsimp only; omega⟩
    obtain ⟨x, rfl⟩ : ∃ x, c1 = pot i + x := ⟨c1 - pot i, by omega⟩
    refine ((hs.pull i _ (hm i)).frame x).bind ?_
    rintro ⟨e, job⟩ c2 ⟨c3, ⟨he, hj⟩, rfl⟩
    dsimp only at he hj
    cases job with
    | none => exact ih (store_keeps hm i he) vec (by omega)
    | some job =>
      have := hj job rfl
      refine Costs.spend (k := 2) (P := fun v => v = vec ++ [job]) ?_ (by omega) ?_
      · exact (Takes.reveal _).bind (l := 1) fun _ _ => .branch (k := 0) (fun _ => .pure rfl) fun _ => .fault _
      · rintro v c4 rfl h4
        refine ih (store_keeps hm i he) _ ?_
        rw [vecPot_append]
        have : vecPot p [job] = jobPot p job := by simp [vecPot]
        omega

theorem evictAllL_takes (is : List Nat) (vec : List (JobRef a ι)) : TakesAny (3 * is.length) (evictAllL vec is) := by
  induction is generalizing vec with
  | nil => exact .pure trivial
  | cons i is ih =>
    refine (Takes.bind (k := 3) (Q := fun _ => True) ((rassertL_takes _).bind (l := 2) fun _ _ => (Takes.reveal _).bind (l := 1) fun _ _ => ?_)
      fun _ _ => ih _).up (by rw [List.length_cons]; omega)
    split
    · exact .branch (k := 0) (fun _ => .pure trivial) fun _ => .pure trivial
    · exact .pure trivial

theorem evictFinishedL_takes (A B : List (JobRef a ι)) :
    Takes (3 * A.length) (fun v => v = A.filter (fun r => !r.input.isEmpty) ++ B) (evictFinishedL (A ++ B) A.length) := by
  refine ⟨?_, fun v hv => ?_⟩
  · have := (evictAllL_takes (List.range A.length).reverse (A ++ B)).log
    rwa [List.length_reverse, List.length_range] at this
  · rw [evictFinishedL_erase, evictFinished_eq] at hv
    cases hv
    rfl

theorem writeBack_keeps {src : Source a ι E} (hs : ∀ i e w, Inv i e → Inv i (src.setWords e w)) (l : List (JobRef a ι × Job a)) {mem : ι → E}
    (hm : ∀ i, Inv i (mem i)) : ∀ i, Inv i ((writeBack src mem l).1 i) := by
  induction l generalizing mem with
  | nil => exact hm
  | cons x l ih => exact ih (store_keeps hm _ (hs _ _ _ (hm _)))

theorem writeBack_inputs (src : Source a ι E) (mem : ι → E) (l : List (JobRef a ι × Job a)) :
    (writeBack src mem l).2.map (·.input) = l.map fun x => x.2.input := by
  induction l generalizing mem with
  | nil => rfl
  | cons x l ih => simp only [writeBack, List.map_cons, ih]

/-- Evicting leaves no more than there was. -/
theorem filter_pot_le (W V : List (JobRef a ι)) (hl : W.length = V.length)
    (h : ∀ k (h1 : k < W.length) (h2 : k < V.length), W[k].input.length ≤ V[k].input.length) :
    vecPot p (W.filter fun r => !r.input.isEmpty) ≤ vecPot p V := by
  induction W generalizing V with
  | nil => exact Nat.zero_le _
  | cons w W ih =>
    cases V with
    | nil => cases hl
    | cons v V =>
      have h0 : jobPot p w ≤ jobPot p v := Nat.mul_le_mul_left _ (blocksOf_mono (h 0 (by simp) (by simp)))
      have hi := ih V (by simpa using hl) fun k h1 h2 => h (k + 1) (by simpa using h1) (by simpa using h2)
      have hv : vecPot p (v :: V) = jobPot p v + vecPot p V := by simp [vecPot]
      rw [hv, List.filter_cons]
      split
      · have : vecPot p (w :: W.filter fun r => !r.input.isEmpty) = jobPot p w + vecPot p (W.filter fun r => !r.input.isEmpty) := by
          simp [vecPot]
        omega
      · omega

/-- Evicting a message that is used up sets free what was reserved for it. -/
theorem filter_pot_lt (W V : List (JobRef a ι)) (hl : W.length = V.length)
    (h : ∀ k (h1 : k < W.length) (h2 : k < V.length), W[k].input.length ≤ V[k].input.length) (i : Nat) (h1 : i < W.length)
    (h2 : i < V.length) (he : W[i].input = []) :
    vecPot p (W.filter fun r => !r.input.isEmpty) + jobPot p V[i] ≤ vecPot p V := by
  induction W generalizing V i with
  | nil => exact absurd h1 (by simp)
  | cons w W ih =>
    cases V with
    | nil => cases hl
    | cons v V =>
      have h0 : jobPot p w ≤ jobPot p v := Nat.mul_le_mul_left _ (blocksOf_mono (h 0 (by simp) (by simp)))
      have hv : vecPot p (v :: V) = jobPot p v + vecPot p V := by simp [vecPot]
      have hr : ∀ k (h1 : k < W.length) (h2 : k < V.length), W[k].input.length ≤ V[k].input.length := fun k h1 h2 => 
        h (k + 1) (by simpa using h1) (by simpa using h2)
      rw [hv, List.filter_cons]
      cases i with
      | zero =>
        have he' : w.input = [] := he
        have := filter_pot_le (p := p) W V (by simpa using hl) hr
        simp only [he', List.isEmpty_nil, Bool.not_true, Bool.false_eq_true, ↓reduceIte, List.getElem_cons_zero]
        omega
      | succ i =>
        have hi := ih V (by simpa using hl) hr i (by simpa using h1) (by simpa using h2) (by simpa using he)
        rw [List.getElem_cons_succ]
        split
        · have : vecPot p (w :: W.filter fun r => !r.input.isEmpty) = jobPot p w + vecPot p (W.filter fun r => !r.input.isEmpty) := by
            simp [vecPot]
          omega
        · omega

theorem runWideL_costs {src : SourceL a ι E} (hs : SourceCosts p Inv pot src) (N : Nat)
    {loopN : Vector (Job a) N → Leaky (Vector (Job a) N)} (hl : LoopTakes p loopN) {mem : ι → E} (hm : ∀ i, Inv i (mem i))
    (vec : List (JobRef a ι)) {r c : Nat} (hc : vecPot p vec + r + 1 ≤ c) :
    Costs c (fun t c => (∀ i, Inv i (t.1 i)) ∧ ∃ A B, t.2 = A ++ B ∧ A.length = N ∧
      vecPot p (A.filter fun r => !r.input.isEmpty) + vecPot p B + r + 273 ≤ c) (runWideL src N loopN mem vec) := by
  refine .spend (Takes.reveal _) (by omega) fun _ c1 _ hc1 => ?_
  split
  · rename_i hN
    obtain ⟨i, hi, hj⟩ := hl ⟨((vec.take N).map (deref src.erase mem)).toArray, by simpa using hN⟩
    have hiv : i < (vec.take N).length := by rw [hN]; exact hi
    have hval : ∀ k (hk : k < N), ((⟨((vec.take N).map (deref src.erase mem)).toArray, by simpa using hN⟩ : Vector (Job a) N)[k]).input =
        ((vec.take N)[k]'(by rw [hN]; exact hk)).input := fun k hk => by
      simp [deref]
    have hsplit : vecPot p vec = vecPot p (vec.take N) + vecPot p (vec.drop N) := by
      rw [← vecPot_append, List.take_append_drop]
    have hone : jobPot p (vec.take N)[i] ≤ vecPot p (vec.take N) := by
      exact le_vecPot (List.getElem_mem hiv)
    have hb := blocksOf_pos p (vec.take N)[i].input.length
    rw [hval i hi] at hj
    have hpot : jobPot p (vec.take N)[i] = 610 * blocksOf p (vec.take N)[i].input.length := rfl
    refine .spend hj (by omega) ?_
    rintro out c2 ⟨hle, he⟩ hc2
    have hlen : (writeBack src.erase mem ((vec.take N).zip out.toList)).2.length = N := by
      have := congrArg List.length (writeBack_inputs src.erase mem ((vec.take N).zip out.toList))
      simp only [List.length_map, List.length_zip, Vector.length_toList, hN] at this
      simpa using this
    have hin : ∀ k (h : k < (writeBack src.erase mem ((vec.take N).zip out.toList)).2.length),
        (writeBack src.erase mem ((vec.take N).zip out.toList)).2[k].input = (out[k]'(by rw [← hlen]; exact h)).input := fun k h => by
      have e := writeBack_inputs src.erase mem ((vec.take N).zip out.toList)
      have e2 := congrArg (fun l => l[k]?) e
      simp only [List.getElem?_map] at e2
      rw [List.getElem?_eq_getElem h, List.getElem?_eq_getElem (by simp [hN]; rw [← hlen]; exact h)] at e2
      simpa using e2
    refine .pure ⟨writeBack_keeps hs.set _ hm, _, vec.drop N, rfl, hlen, ?_⟩
    have hlt := filter_pot_lt (p := p) (writeBack src.erase mem ((vec.take N).zip out.toList)).2 (vec.take N) (by rw [hlen, hN])
      (fun k h1 h2 => by
        rw [hin k h1]
        have hk : k < N := by rw [← hlen]; exact h1
        have := hle k hk
        rwa [hval k hk] at this) i (by rw [hlen]; exact hi) hiv (by rw [hin i (by rw [hlen]; exact hi)]; exact he)
    omega
  · exact .fault _

theorem levelIterL_costs {src : SourceL a ι E} (hs : SourceCosts p Inv pot src) (N : Nat) (hN : N ≤ 8)
    {loopN : Vector (Job a) N → Leaky (Vector (Job a) N)} (hl : LoopTakes p loopN) (r fuel : Nat) (q : List ι) {mem : ι → E}
    (hm : ∀ i, Inv i (mem i)) (vec : List (JobRef a ι)) {c : Nat} (hc : queuePot pot q + vecPot p vec + r + 3 ≤ c) :
    Costs c (fun t c => (∀ i, Inv i (t.1 i)) ∧ queuePot pot t.2.1 + vecPot p t.2.2 + r ≤ c) (levelIterL src N loopN fuel mem q vec) := by
  induction fuel generalizing mem q vec c with
  | zero => exact .fault _
  | succ fuel ih =>
    refine (fillJobsVecL_costs hs N (r + 2) q hm vec (by omega)).bind ?_
    rintro ⟨mem1, q1, vec1⟩ c1 ⟨h1, hc1⟩
    dsimp only at h1 hc1 ⊢
    refine .branch (by omega) (fun _ => .pure ⟨h1, by dsimp only; omega⟩) fun _ => ?_
    refine (runWideL_costs hs N hl h1 vec1 (r := queuePot pot q1 + r) (by omega)).bind ?_
    rintro ⟨mem2, vec2⟩ c2 ⟨h2, A, B, hv, hA, hc2⟩
    dsimp only at h2 hv ⊢
    subst hv
    subst hA
    refine .spend (evictFinishedL_takes A B) (by omega) ?_
    rintro v c3 rfl hc3
    refine ih q1 h2 _ ?_
    rw [vecPot_append]
    omega

theorem runOneL_takes {src : SourceL a ι E} {stride : Stride} (hs : SourceCosts (stride.padded a) Inv pot src) (imp : Platform) (fin : Bool)
    {mem : ι → E} (hm : ∀ i, Inv i (mem i)) (job : JobRef a ι) :
    Takes (608 * blocksOf (stride.padded a) job.input.length) (fun m => ∀ i, Inv i (m i)) (runOneL src imp fin stride mem job) :=
  (compress1L_takes imp _ _ _ _ _ _).bind (l := 0) fun _ _ => .pure (store_keeps hm _ (hs.set _ _ _ (hm _)))

theorem runVecL_costs {src : SourceL a ι E} {stride : Stride} (hs : SourceCosts (stride.padded a) Inv pot src) (imp : Platform) (fin : Bool)
    (r : Nat) {mem : ι → E} (hm : ∀ i, Inv i (mem i)) (vec : List (JobRef a ι)) {c : Nat} (hc : vecPot (stride.padded a) vec + r + 1 ≤ c) :
    Costs c (fun m c => (∀ i, Inv i (m i)) ∧ r ≤ c) (runVecL src imp fin stride mem vec) := by
  induction vec generalizing mem c with
  | nil => exact .spend (Takes.reveal _) (by omega) fun _ c _ hc' => .pure ⟨hm, by omega⟩
  | cons j v ih =>
    have hv : vecPot (stride.padded a) (j :: v) = jobPot (stride.padded a) j + vecPot (stride.padded a) v := by simp [vecPot]
    have hpot : jobPot (stride.padded a) j = 610 * blocksOf (stride.padded a) j.input.length := rfl
    have hb := blocksOf_pos (stride.padded a) j.input.length
    exact .spend (Takes.reveal _) (by omega) fun _ c1 _ hc1 => .spend (runOneL_takes hs imp fin hm j) (by omega) fun m c2 hm2 hc2 =>
      ih hm2 (by omega)

theorem runQueueL_costs {src : SourceL a ι E} {stride : Stride} (hs : SourceCosts (stride.padded a) Inv pot src) (imp : Platform) (fin : Bool)
    {mem : ι → E} (hm : ∀ i, Inv i (mem i)) (q : List ι) {c : Nat} (hc : queuePot pot q + 1 ≤ c) :
    Costs c (fun m _ => ∀ i, Inv i (m i)) (runQueueL src imp fin stride mem q) := by
  induction q generalizing mem c with
  | nil => exact .spend (Takes.reveal _) (by omega) fun _ c _ hc' => .pure hm
  | cons i q ih =>
    have hq : queuePot pot (i :: q) = pot i + 5 + queuePot pot q := by simp [queuePot]
    rw [hq] at hc
    refine .spend (Takes.reveal _) (by omega) fun _ c1 _ hc1 => ?_
    obtain ⟨x, rfl⟩ : ∃ x, c1 = pot i + x := ⟨c1 - pot i, by omega⟩
    refine ((hs.pull i _ (hm i)).frame x).bind ?_
    rintro ⟨e, job⟩ c2 ⟨c3, ⟨he, hj⟩, rfl⟩
    dsimp only at he hj
    cases job with
    | none => exact ih (store_keeps hm i he) (by omega)
    | some job =>
      have := hj job rfl
      have hpot : jobPot (stride.padded a) job = 610 * blocksOf (stride.padded a) job.input.length := rfl
      exact .spend (runOneL_takes hs imp fin (store_keeps hm i he) job) (by omega) fun m c4 hm4 hc4 => ih hm4 (by omega)

/-- **A batch** costs what its items cost, one by one. -/
theorem compressManyL_takes {src : SourceL a ι E} {stride : Stride} (hs : SourceCosts (stride.padded a) Inv pot src) (imp : Platform)
    (fin : Bool) {mem : ι → E} (hm : ∀ i, Inv i (mem i)) (q : List ι) :
    Takes (queuePot pot q + 10) (fun m => ∀ i, Inv i (m i)) (compressManyL src imp fin stride mem q) := by
  have level : ∀ N d (loopN : Vector (Job a) N → Leaky (Vector (Job a) N)), N ≤ 8 → LoopTakes (stride.padded a) loopN → ∀ r c (mem : ι → E) q vec,
      (∀ i, Inv i (mem i)) → queuePot pot q + vecPot (stride.padded a) vec + r + 4 ≤ c →
      Costs c (fun t c => (∀ i, Inv i (t.1 i)) ∧ queuePot pot t.2.1 + vecPot (stride.padded a) t.2.2 + r ≤ c)
        (levelL src d N loopN mem q vec) := fun N d loopN hN hl r c mem q vec hm hc =>
    .branch (by omega) (fun _ => levelIterL_costs hs N hN hl r _ q hm vec (by omega)) fun _ => .pure ⟨hm, by dsimp only; omega⟩
  refine Costs.takes (Q := fun m _ => ∀ i, Inv i (m i)) ?_ fun _ _ h => h
  refine (level _ _ _ (by cases a <;> decide) (compressHiL_takes imp fin stride) 6 _ _ _ _ hm (by simp [vecPot])).bind ?_
  rintro ⟨m1, q1, v1⟩ c1 ⟨h1, hc1⟩
  dsimp only at h1 hc1 ⊢
  refine (level _ _ _ (by cases a <;> decide) (compressLoL_takes imp fin stride) 2 _ _ _ _ h1 (by omega)).bind ?_
  rintro ⟨m2, q2, v2⟩ c2 ⟨h2, hc2⟩
  dsimp only at h2 hc2 ⊢
  refine (runVecL_costs hs imp fin (queuePot pot q2 + 1) h2 v2 (by omega)).bind ?_
  rintro m3 c3 ⟨h3, hc3⟩
  exact runQueueL_costs hs imp fin h3 q2 hc3

end Many
end Blake2
