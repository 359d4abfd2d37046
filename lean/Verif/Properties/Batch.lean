import Verif.Proofs.Early
import Verif.Properties.Hashing
/-!
# Properties of the batch interface: C09–C12, C23, C28, C32, C37
-/
namespace Blake2
open Spec

variable {a : Alg}

/-! ## C09 -/

/-- C09. `update_many` leaves every state exactly as `update` on that state and input alone would. -/
theorem C09_update_many (pairs : List (State a × List Byte)) (hp : ∀ q ∈ pairs, Reachable q.1) :
    ∃ out, updateMany pairs = .ok out ∧ out.length = pairs.length ∧
      ∀ (i : Nat) (s : State a) (x : List Byte), pairs[i]? = some (s, x) → ∃ s', s.update x = .ok s' ∧ out[i]? = some s' := by
  refine ⟨_, updateMany_eq pairs (fun q hq => (hp q hq).sane), by simp, fun i s x hi => ?_⟩
  refine ⟨State.upd s x, State.update_eq s x (hp _ (List.mem_of_getElem? hi)).sane, ?_⟩
  rw [List.getElem?_map, hi]
  rfl

/-- The states of the sample history, each with its own input. -/
example : ∃ (ss : List (State .b)) (os : List Obs), execAll true [] sampleHistory = .ok (ss, os) ∧
    ∃ out, updateMany (ss.map fun s => (s, List.replicate 1000 (BitVec.ofNat 8 s.buflen))) = .ok out ∧
      out.length = ss.length := by
  obtain ⟨ss, os, e, _, hr⟩ := reachable_of_history (a := .b) true _ sampleHistory_valid
  obtain ⟨out, h1, h2, _⟩ := C09_update_many (ss.map fun s => (s, List.replicate 1000 (BitVec.ofNat 8 s.buflen))) (by
    intro q hq
    obtain ⟨s, hs, rfl⟩ := List.mem_map.1 hq
    exact hr s hs)
  exact ⟨ss, os, e, out, h1, h2.trans (List.length_map ..)⟩

/-! ## C10, C11, C12 -/

theorem Built.rep {p : Params a} (h : Built p) : ∃ c, Rep a c p := by
  obtain ⟨plat, calls, hb⟩ := h
  exact ⟨_, (built_rep hb).1⟩

theorem JobReachable.count_ok {j : HashManyJob a} (h : JobReachable j) : j.count.toNat % a.bb = 0 := by
  induction h with
  | new p msg j hb hn =>
    obtain ⟨c, hr⟩ := hb.rep
    obtain ⟨j', e, hc, _⟩ := hashManyJob_new hr msg
    rw [hn] at e
    cases e
    exact hc
  | run jobs out j hj hm hin ih =>
    rw [hashMany_eq jobs ih] at hm
    cases hm
    obtain ⟨k, hk, rfl⟩ := List.mem_map.1 hin
    unfold HashManyJob.done
    split
    · exact ih k hk
    · exact ih k hk

theorem done_done (j : HashManyJob a) : j.done.done = j.done := by
  unfold HashManyJob.done
  by_cases h : j.finished = true <;> simp [h]

theorem done_finished (j : HashManyJob a) : j.done.finished = true := by
  unfold HashManyJob.done
  by_cases h : j.finished = true <;> simp [h]

theorem done_hashLength (j : HashManyJob a) : j.done.hashLength = j.hashLength := by
  unfold HashManyJob.done
  split <;> rfl

/-- A fresh job, once done, holds the result of `Params::hash`. -/
theorem toHash_done {p : Params a} {msg : List Byte} {j : HashManyJob a} (hb : Built p)
    (hn : HashManyJob.new p msg = .ok j) :
    ∃ h, p.hash msg = .ok h ∧ ∀ dbg, j.done.toHash dbg = .ok h := by
  obtain ⟨c, hr⟩ := hb.rep
  obtain ⟨j', e, _, hl, _, hw⟩ := hashManyJob_new hr msg
  rw [hn] at e
  cases e
  refine ⟨_, hash_eq hr msg, fun dbg => ?_⟩
  unfold HashManyJob.toHash
  rw [done_finished, done_hashLength, hl, hw, stateWordsToBytes_eq]
  simp
  rfl

/-- C10. After `hash_many` over any jobs, each job's `to_hash` is the `Params::hash` of that job's own parameters and input. -/
theorem C10_hash_many (items : List (Params a × List Byte)) (hp : ∀ q ∈ items, Built q.1) :
    ∃ jobs out, items.mapM (fun q => HashManyJob.new q.1 q.2) = .ok jobs ∧ hashMany jobs = .ok out ∧
      out.length = items.length ∧
      ∀ (i : Nat) (p : Params a) (x : List Byte), items[i]? = some (p, x) →
        ∃ j h, out[i]? = some j ∧ p.hash x = .ok h ∧ ∀ dbg, j.toHash dbg = .ok h := by
  have hnew : ∀ q ∈ items, ∃ j, HashManyJob.new q.1 q.2 = .ok j := by
    intro q hq
    obtain ⟨c, hr⟩ := (hp q hq).rep
    obtain ⟨j, e, _⟩ := hashManyJob_new hr q.2
    exact ⟨j, e⟩
  have hjobs : ∃ jobs, items.mapM (fun q => HashManyJob.new q.1 q.2) = .ok jobs ∧ jobs.length = items.length ∧
      ∀ i (h : i < jobs.length) (h' : i < items.length), HashManyJob.new items[i].1 items[i].2 = .ok jobs[i] := by
    clear hp
    induction items with
    | nil => exact ⟨[], rfl, rfl, fun i h => absurd h (by simp)⟩
    | cons q qs ih =>
      obtain ⟨j, e⟩ := hnew q (by simp)
      obtain ⟨js, e', hl, hi⟩ := ih (fun r hr => hnew r (by simp [hr]))
      refine ⟨j :: js, ?_, by simp [hl], ?_⟩
      · rw [List.mapM_cons, e, e']; rfl
      · intro i h h'
        cases i with
        | zero => exact e
        | succ i => exact hi i (by simpa using h) (by simpa using h')
  obtain ⟨jobs, e, hl, hi⟩ := hjobs
  have hreach : ∀ j ∈ jobs, JobReachable j := by
    intro j hj
    obtain ⟨i, h, rfl⟩ := List.getElem_of_mem hj
    have h' : i < items.length := by rw [← hl]; exact h
    exact .new _ _ _ (hp _ (List.getElem_mem h')) (hi i h h')
  refine ⟨jobs, _, e, hashMany_eq jobs (fun j hj => (hreach j hj).count_ok), by simp [hl], ?_⟩
  intro i p x hx
  obtain ⟨h', hx'⟩ := List.getElem?_eq_some_iff.1 hx
  have h : i < jobs.length := by rw [hl]; exact h'
  have hn := hi i h h'
  rw [hx'] at hn
  obtain ⟨d, h1, h2⟩ := toHash_done (hp (p, x) (by rw [← hx']; exact List.getElem_mem h')) hn
  refine ⟨_, d, ?_, h1, h2⟩
  rw [List.getElem?_map, List.getElem?_eq_getElem h]
  rfl

example : ∃ jobs out, ([(Params.new .b .AVX2, [1, 2, 3]), (Params.new .b .SSE41, List.replicate 1000 7),
      (Params.new .b .AVX2, [])] : List (Params .b × List Byte)).mapM (fun q => HashManyJob.new q.1 q.2) = .ok jobs ∧
    hashMany jobs = .ok out ∧ out.length = 3 := by
  obtain ⟨jobs, out, h1, h2, h3, _⟩ := C10_hash_many (a := .b) [(Params.new .b .AVX2, [1, 2, 3]),
    (Params.new .b .SSE41, List.replicate 1000 7), (Params.new .b .AVX2, [])] (by
      intro q hq
      simp only [List.mem_cons, List.not_mem_nil, or_false] at hq
      rcases hq with rfl | rfl | rfl <;> exact ⟨_, [], rfl⟩)
  exact ⟨jobs, out, h1, h2, h3⟩

/-- C11. `hash_many` on jobs already run changes nothing at all. -/
theorem C11_idempotent (jobs : List (HashManyJob a)) (h : ∀ j ∈ jobs, JobReachable j) :
    ∃ out, hashMany jobs = .ok out ∧ hashMany out = .ok out := by
  have e := hashMany_eq jobs (fun j hj => (h j hj).count_ok)
  refine ⟨_, e, ?_⟩
  rw [hashMany_eq _ (fun j hj => (JobReachable.run jobs _ j h e hj).count_ok), List.map_map]
  congr 1
  apply List.map_congr_left
  intro j _
  exact done_done j

/-- Jobs with and without a key, run twice. -/
example : ∃ jobs out : List (HashManyJob .b), jobs.length = 2 ∧ hashMany jobs = .ok out ∧ hashMany out = .ok out := by
  obtain ⟨p, e⟩ := C03_nonvacuous (a := .b) .AVX2 [.key [1, 2]] (by decide)
  obtain ⟨j, hj, _⟩ := hashManyJob_new (built_rep e).1 [3, 4, 5]
  obtain ⟨k, hk, _⟩ := hashManyJob_new (rep_new .b .SSE41) (List.replicate 1000 7)
  obtain ⟨out, h1, h2⟩ := C11_idempotent [j, k] (by
    intro o ho
    simp only [List.mem_cons, List.not_mem_nil, or_false] at ho
    rcases ho with rfl | rfl
    · exact .new p _ _ ⟨_, _, e⟩ hj
    · exact .new _ _ _ ⟨_, [], rfl⟩ hk)
  exact ⟨[j, k], out, rfl, h1, h2⟩

theorem foldl_set_get {α : Type} (idx : List Nat) (f : Nat → α) (l : List α) (k : Nat) :
    ((idx.map fun i => (i, f i)).foldl (fun l p => l.set p.1 p.2) l)[k]? =
      if k ∈ idx then (if k < l.length then some (f k) else none) else l[k]? := by
  induction idx generalizing l with
  | nil => simp
  | cons i is ih =>
    rw [List.map_cons, List.foldl_cons, ih]
    simp only [List.length_set, List.mem_cons]
    by_cases h1 : k ∈ is
    · simp [h1]
    · by_cases h2 : k = i
      · subst h2
        simp only [h1, if_false, true_or, if_true, List.getElem?_set_self']
        by_cases h3 : k < l.length
        · simp [h3]
        · rw [List.getElem?_eq_none (Nat.le_of_not_lt h3), if_neg h3]; rfl
      · simp [h1, h2, List.getElem?_set_ne (Ne.symm h2)]

theorem runBatch_eq (jobs : List (HashManyJob a)) (idx : List Nat) (hi : ∀ i ∈ idx, i < jobs.length)
    (h : ∀ j ∈ jobs, j.count.toNat % a.bb = 0) :
    ∃ out, runBatch jobs idx = .ok out ∧ out.length = jobs.length ∧
      (∀ k, out[k]? = if k ∈ idx then jobs[k]?.map HashManyJob.done else jobs[k]?) := by
  by_cases hne : jobs = []
  · subst hne
    have : idx = [] := by
      cases idx with
      | nil => rfl
      | cons i is => exact absurd (hi i (by simp)) (by simp)
    subst this
    exact ⟨[], rfl, rfl, by simp⟩
  · obtain ⟨j0, hj0⟩ := List.exists_mem_of_ne_nil _ hne
    let f : Nat → HashManyJob a := fun i => (jobs[i]?).getD j0
    have hf : ∀ i ∈ idx, getState jobs i = .ok (f i) := by
      intro i h
      unfold getState
      simp only [f, List.getElem?_eq_getElem (hi i h), Option.getD_some]
    have hpick : idx.mapM (getState jobs) = .ok (idx.map f) := list_mapM_ok _ _ _ hf
    have hcount : ∀ j ∈ idx.map f, j.count.toNat % a.bb = 0 := by
      intro j hj
      obtain ⟨i, hi', rfl⟩ := List.mem_map.1 hj
      simp only [f, List.getElem?_eq_getElem (hi i hi'), Option.getD_some]
      exact h _ (List.getElem_mem _)
    have hz : idx.zip ((idx.map f).map HashManyJob.done) = idx.map fun i => (i, (f i).done) := by
      rw [List.map_map]
      clear hpick hcount hf hi
      induction idx with
      | nil => rfl
      | cons i is ih => simp [ih]
    refine ⟨(idx.zip ((idx.map f).map HashManyJob.done)).foldl (fun js p => js.set p.1 p.2) jobs, ?_, ?_, ?_⟩
    · unfold runBatch
      simp only [hpick, hashMany_eq _ hcount, bind, Except.bind]
    · rw [hz]
      clear hz hcount hpick hf
      generalize idx.map (fun i => (i, (f i).done)) = l
      clear hi hne hj0 f h
      induction l generalizing jobs with
      | nil => rfl
      | cons x xs ih => rw [List.foldl_cons, ih, List.length_set]
    · intro k
      rw [hz, foldl_set_get idx (fun i => (f i).done) jobs k]
      by_cases hk : k ∈ idx
      · simp only [hk, if_true, hi k hk, f, List.getElem?_eq_getElem (hi k hk), Option.getD_some, Option.map_some]
      · simp [hk]

/-- What any sequence of `hash_many` calls over any subsets of a population does. -/
theorem runBatches_eq (jobs : List (HashManyJob a)) (batches : List (List Nat))
    (hi : ∀ b ∈ batches, ∀ i ∈ b, i < jobs.length) (h : ∀ j ∈ jobs, j.count.toNat % a.bb = 0) :
    ∃ out, batches.foldlM runBatch jobs = .ok out ∧ out.length = jobs.length ∧
      (∀ k, out[k]? = if k ∈ batches.flatten then jobs[k]?.map HashManyJob.done else jobs[k]?) := by
  induction batches generalizing jobs with
  | nil => exact ⟨jobs, rfl, rfl, by simp⟩
  | cons b bs ih =>
    obtain ⟨j1, e1, l1, g1⟩ := runBatch_eq jobs b (hi b (by simp)) h
    have hc1 : ∀ j ∈ j1, j.count.toNat % a.bb = 0 := by
      intro j hj
      obtain ⟨k, hk, rfl⟩ := List.getElem_of_mem hj
      have := g1 k
      rw [List.getElem?_eq_getElem hk] at this
      have hk' : k < jobs.length := by rw [← l1]; exact hk
      rw [List.getElem?_eq_getElem hk'] at this
      split at this
      · simp only [Option.map_some, Option.some.injEq] at this
        rw [this]
        have := h _ (List.getElem_mem hk')
        unfold HashManyJob.done
        split <;> exact this
      · simp only [Option.some.injEq] at this
        rw [this]; exact h _ (List.getElem_mem hk')
    obtain ⟨j2, e2, l2, g2⟩ := ih j1 (fun c hc i hi' => by rw [l1]; exact hi c (by simp [hc]) i hi') hc1
    refine ⟨j2, ?_, l2.trans l1, fun k => ?_⟩
    · rw [List.foldlM_cons, e1]; exact e2
    · rw [g2 k, g1 k, List.flatten_cons]
      simp only [List.mem_append]
      by_cases h1 : k ∈ b <;> by_cases h2 : k ∈ bs.flatten
      · simp only [h1, h2, if_true, true_or, Option.map_map]
        cases jobs[k]? with
        | none => rfl
        | some j => exact congrArg some (done_done j)
      · simp [h1, h2]
      · simp [h1, h2]
      · simp [h1, h2]

/-- C11, C12. Make any jobs, then call `hash_many` any number of times on any subsets of them. A job that was in at least one
of the calls — one or a hundred, alone or with others — yields its `Params::hash`. A job in none of them yields a panic when
asked in a debug build and a meaningless value (see C70) in a release build, except that a keyed job with empty input, which is
complete from the start, yields its `Params::hash`. -/
theorem C11_C12_batches (items : List (Platform × List Setter × List Byte)) (hr : ∀ q ∈ items, ∀ x ∈ q.2.1, x.InRange a)
    (batches : List (List Nat)) (hi : ∀ b ∈ batches, ∀ i ∈ b, i < items.length) :
    ∃ ps jobs out, items.mapM (fun q => (Params.new a q.1).build q.2.1) = .ok ps ∧
      (ps.zip (items.map fun q => q.2.2)).mapM (fun q => HashManyJob.new q.1 q.2) = .ok jobs ∧
      batches.foldlM runBatch jobs = .ok out ∧ out.length = items.length ∧
      ∀ (i : Nat) (q : Platform × List Setter × List Byte), items[i]? = some q →
        ∃ p h j, ps[i]? = some p ∧ p.hash q.2.2 = .ok h ∧ out[i]? = some j ∧
          if i ∈ batches.flatten ∨ ((configOf a q.2.1).key ≠ [] ∧ q.2.2 = []) then ∀ dbg, j.toHash dbg = .ok h
          else j.toHash true = .error .panic ∧
            ∃ h', j.toHash false = .ok h' ∧ h'.bytes = wordsToBytes a (startWords a (configOf a q.2.1)) := by
  have hps : ∃ ps, items.mapM (fun q => (Params.new a q.1).build q.2.1) = .ok ps ∧ ps.length = items.length ∧
      ∀ i (h : i < ps.length) (h' : i < items.length), (Params.new a items[i].1).build items[i].2.1 = .ok ps[i] := by
    clear hi
    induction items with
    | nil => exact ⟨[], rfl, rfl, fun i h => absurd h (by simp)⟩
    | cons q qs ih =>
      obtain ⟨p, e, _⟩ := rep_build (rep_new a q.1) q.2.1 (hr q (by simp))
      obtain ⟨js, e', hl, hi⟩ := ih (fun r h => hr r (by simp [h]))
      refine ⟨p :: js, ?_, by simp [hl], ?_⟩
      · rw [List.mapM_cons, e, e']; rfl
      · intro i h h'
        cases i with
        | zero => exact e
        | succ i => exact hi i (by simpa using h) (by simpa using h')
  obtain ⟨ps, eps, lps, hps⟩ := hps
  have hzl : (ps.zip (items.map fun q => q.2.2)).length = items.length := by simp [lps]
  have hz : ∀ i (h : i < (ps.zip (items.map fun q => q.2.2)).length) (h1 : i < ps.length) (h2 : i < items.length),
      (ps.zip (items.map fun q => q.2.2))[i] = (ps[i], items[i].2.2) := by
    intro i h h1 h2
    simp
  have hbuilt : ∀ q ∈ ps.zip (items.map fun q => q.2.2), Built q.1 := by
    intro q hq
    obtain ⟨i, h, rfl⟩ := List.getElem_of_mem hq
    have h2 : i < items.length := by rw [← hzl]; exact h
    have h1 : i < ps.length := by rw [lps]; exact h2
    rw [hz i h h1 h2]
    exact ⟨_, _, hps i h1 h2⟩
  have hnew : ∀ (its : List (Params a × List Byte)), (∀ q ∈ its, Built q.1) →
      ∃ jobs, its.mapM (fun q => HashManyJob.new q.1 q.2) = .ok jobs ∧ jobs.length = its.length ∧
      ∀ i (h : i < jobs.length) (h' : i < its.length), HashManyJob.new its[i].1 its[i].2 = .ok jobs[i] := by
    intro its
    induction its with
    | nil => exact fun _ => ⟨[], rfl, rfl, fun i h => absurd h (by simp)⟩
    | cons q qs ih =>
      intro hb
      obtain ⟨c, hr⟩ := (hb q (by simp)).rep
      obtain ⟨j, e, _⟩ := hashManyJob_new hr q.2
      obtain ⟨js, e', hl, hi⟩ := ih (fun r hr => hb r (by simp [hr]))
      refine ⟨j :: js, ?_, by simp [hl], ?_⟩
      · rw [List.mapM_cons, e, e']; rfl
      · intro i h h'
        cases i with
        | zero => exact e
        | succ i => exact hi i (by simpa using h) (by simpa using h')
  obtain ⟨jobs, ejobs, ljobs, hjobs⟩ := hnew _ hbuilt
  rw [hzl] at ljobs
  have hat : ∀ i (h : i < items.length) (h1 : i < ps.length) (h2 : i < jobs.length),
      HashManyJob.new ps[i] items[i].2.2 = .ok jobs[i] := by
    intro i h h1 h2
    have := hjobs i h2 (by rw [hzl]; exact h)
    rwa [hz i _ h1 h] at this
  have hcount : ∀ j ∈ jobs, j.count.toNat % a.bb = 0 := by
    intro j hj
    obtain ⟨i, h, rfl⟩ := List.getElem_of_mem hj
    have h2 : i < items.length := by rw [← ljobs]; exact h
    have h1 : i < ps.length := by rw [lps]; exact h2
    exact (JobReachable.new _ _ _ ⟨_, _, hps i h1 h2⟩ (hat i h2 h1 h)).count_ok
  obtain ⟨out, eout, lout, gout⟩ := runBatches_eq jobs batches (fun b hb i hib => by rw [ljobs]; exact hi b hb i hib) hcount
  refine ⟨ps, jobs, out, eps, ejobs, eout, lout.trans ljobs, ?_⟩
  intro i q hq
  obtain ⟨h, rfl⟩ := List.getElem?_eq_some_iff.1 hq
  have h1 : i < ps.length := by rw [lps]; exact h
  have h2 : i < jobs.length := by rw [ljobs]; exact h
  have hn := hat i h h1 h2
  have hb : Built ps[i] := ⟨_, _, hps i h1 h⟩
  obtain ⟨d, hd1, hd2⟩ := toHash_done hb hn
  obtain ⟨j', ej', _, hl, hfin, _⟩ := hashManyJob_new (built_rep (hps i h1 h)).1 items[i].2.2
  rw [hn] at ej'
  cases ej'
  have go := gout i
  rw [List.getElem?_eq_getElem h2] at go
  by_cases hm : i ∈ batches.flatten
  · rw [if_pos hm] at go
    refine ⟨ps[i], d, jobs[i].done, List.getElem?_eq_getElem h1, hd1, go, ?_⟩
    rw [if_pos (.inl hm)]
    exact hd2
  · rw [if_neg hm] at go
    refine ⟨ps[i], d, jobs[i], List.getElem?_eq_getElem h1, hd1, go, ?_⟩
    by_cases hk : (configOf a items[i].2.1).key ≠ [] ∧ items[i].2.2 = []
    · rw [if_pos (.inr hk)]
      have hf : (jobs[i]).finished = true := by rw [hfin]; simp [hk]
      have : (jobs[i]).done = jobs[i] := by unfold HashManyJob.done; rw [if_pos hf]
      rw [this] at hd2
      exact hd2
    · rw [if_neg (by rintro (h | h); exact hm h; exact hk h)]
      have hf : (jobs[i]).finished = false := by
        rw [hfin]
        rw [Bool.and_eq_false_iff]
        simp only [decide_eq_false_iff_not]
        exact Decidable.not_and_iff_or_not.1 hk
      unfold HashManyJob.toHash
      rw [hf, hashManyJob_new_words (built_rep (hps i h1 h)).1 _ hn hf]
      exact ⟨rfl, _, rfl, stateWordsToBytes_eq _⟩

/-- Four jobs; the first is run twice, the third never. -/
example : ∃ ps jobs out, ([(.AVX2, [], [1]), (.AVX2, [.key [1]], []), (.SSE41, [.salt [2]], [3]), (.AVX2, [], [])] :
      List (Platform × List Setter × List Byte)).mapM (fun q => (Params.new .b q.1).build q.2.1) = .ok ps ∧
    (ps.zip [[1], [], [3], []]).mapM (fun q => HashManyJob.new q.1 q.2) = .ok jobs ∧
    [[0, 3], [0]].foldlM runBatch jobs = .ok out ∧ out.length = 4 := by
  obtain ⟨ps, jobs, out, h1, h2, h3, h4, _⟩ := C11_C12_batches (a := .b)
    [(.AVX2, [], [1]), (.AVX2, [.key [1]], []), (.SSE41, [.salt [2]], [3]), (.AVX2, [], [])] (by decide)
    [[0, 3], [0]] (by decide)
  exact ⟨ps, jobs, out, h1, h2, h3, h4⟩

/-! ## C32 -/

/-- C32. Splitting a batch into two calls changes nothing. -/
theorem C32_split (xs ys : List (State a × List Byte)) (hx : ∀ q ∈ xs, Reachable q.1) (hy : ∀ q ∈ ys, Reachable q.1) :
    ∃ out out', updateMany xs = .ok out ∧ updateMany ys = .ok out' ∧ updateMany (xs ++ ys) = .ok (out ++ out') := by
  refine ⟨_, _, updateMany_eq xs (fun q hq => (hx q hq).sane), updateMany_eq ys (fun q hq => (hy q hq).sane), ?_⟩
  rw [updateMany_eq _ (fun q hq => ?_), List.map_append]
  rcases List.mem_append.1 hq with h | h
  · exact (hx q h).sane
  · exact (hy q h).sane

theorem zip_map_self {α β : Type} (l : List α) (f : α → β) : l.zip (l.map f) = l.map fun x => (x, f x) := by
  induction l with
  | nil => rfl
  | cons x xs ih => simp [ih]

/-- C32. Permuting a batch permutes its results accordingly. -/
theorem C32_permute (xs ys : List (State a × List Byte)) (hx : ∀ q ∈ xs, Reachable q.1) (hp : xs.Perm ys) :
    ∃ out out', updateMany xs = .ok out ∧ updateMany ys = .ok out' ∧ out.length = xs.length ∧ out'.length = ys.length ∧
      (xs.zip out).Perm (ys.zip out') := by
  refine ⟨_, _, updateMany_eq xs (fun q hq => (hx q hq).sane),
    updateMany_eq ys (fun q hq => (hx q (hp.mem_iff.2 hq)).sane), by simp, by simp, ?_⟩
  rw [zip_map_self, zip_map_self]
  exact hp.map _

/-- C32 for `hash_many`: splitting. -/
theorem C32_hash_many_split (xs ys : List (HashManyJob a)) (hx : ∀ j ∈ xs, JobReachable j) (hy : ∀ j ∈ ys, JobReachable j) :
    ∃ out out', hashMany xs = .ok out ∧ hashMany ys = .ok out' ∧ hashMany (xs ++ ys) = .ok (out ++ out') := by
  refine ⟨_, _, hashMany_eq xs (fun q hq => (hx q hq).count_ok), hashMany_eq ys (fun q hq => (hy q hq).count_ok), ?_⟩
  rw [hashMany_eq _ (fun q hq => ?_), List.map_append]
  rcases List.mem_append.1 hq with h | h
  · exact (hx q h).count_ok
  · exact (hy q h).count_ok

/-- C32 for `hash_many`: permuting. -/
theorem C32_hash_many_permute (xs ys : List (HashManyJob a)) (hx : ∀ j ∈ xs, JobReachable j) (hp : xs.Perm ys) :
    ∃ out out', hashMany xs = .ok out ∧ hashMany ys = .ok out' ∧ out.length = xs.length ∧ out'.length = ys.length ∧
      (xs.zip out).Perm (ys.zip out') := by
  refine ⟨_, _, hashMany_eq xs (fun q hq => (hx q hq).count_ok),
    hashMany_eq ys (fun q hq => (hx q (hp.mem_iff.2 hq)).count_ok), by simp, by simp, ?_⟩
  rw [zip_map_self, zip_map_self]
  exact hp.map _

/-- Two jobs, one with a key: in one batch or two, in this order or the other. -/
example : ∃ (j k : HashManyJob .b) (out out' out'' : List (HashManyJob .b)), hashMany [j] = .ok out ∧ hashMany [k] = .ok out' ∧
    hashMany ([j] ++ [k]) = .ok (out ++ out') ∧ hashMany [k, j] = .ok out'' ∧ out''.length = 2 := by
  obtain ⟨p, e⟩ := C03_nonvacuous (a := .b) .AVX2 [.key [1, 2]] (by decide)
  obtain ⟨j, hj, _⟩ := hashManyJob_new (built_rep e).1 [3, 4, 5]
  obtain ⟨k, hk, _⟩ := hashManyJob_new (rep_new .b .SSE41) (List.replicate 1000 7)
  have rj : JobReachable j := .new p _ _ ⟨_, _, e⟩ hj
  have rk : JobReachable k := .new _ _ _ ⟨_, [], rfl⟩ hk
  obtain ⟨out, out', h1, h2, h3⟩ := C32_hash_many_split [j] [k] (by simpa using rj) (by simpa using rk)
  obtain ⟨_, out'', _, h4, _, h5, _⟩ := C32_hash_many_permute [j, k] [k, j] (by simpa using ⟨rj, rk⟩) (List.Perm.swap _ _ [])
  exact ⟨j, k, out, out', out'', h1, h2, h3, h4, h5⟩

/-- Fresh states on different platforms are reachable, so batches like these exist. -/
theorem reachable_new (plat : Platform) : Reachable (Params.new a plat).toState :=
  ⟨true, [.create plat []], _, _, ⟨by simp [Op.Valid], trivial⟩, rfl, by simp⟩

example : ∃ out out', updateMany [((Params.new .s .AVX2).toState, List.replicate 500 1), ((Params.new .s .Portable).toState, [2])] =
      .ok out ∧
    updateMany [((Params.new .s .Portable).toState, [2]), ((Params.new .s .AVX2).toState, List.replicate 500 1)] = .ok out' ∧
    out.length = 2 ∧ out'.length = 2 :=
  let ⟨out, out', h1, h2, h3, h4, _⟩ := C32_permute (a := .s) _ _ (by
    intro q hq
    simp only [List.mem_cons, List.not_mem_nil, or_false] at hq
    rcases hq with rfl | rfl <;> exact reachable_new _) (List.Perm.swap _ _ [])
  ⟨out, out', h1, h2, h3, h4⟩

example : ∃ out out', updateMany [((Params.new .s .AVX2).toState, List.replicate 500 1),
      ((Params.new .s .Portable).toState, [2])] = .ok out ∧
    updateMany [((Params.new .s .SSE41).toState, [])] = .ok out' ∧
    updateMany ([((Params.new .s .AVX2).toState, List.replicate 500 1), ((Params.new .s .Portable).toState, [2])] ++
      [((Params.new .s .SSE41).toState, [])]) = .ok (out ++ out') :=
  C32_split _ _ (by
    intro q hq
    simp only [List.mem_cons, List.not_mem_nil, or_false] at hq
    rcases hq with rfl | rfl <;> exact reachable_new _) (by
    intro q hq
    simp only [List.mem_cons, List.not_mem_nil, or_false] at hq
    subst hq; exact reachable_new _)

/-! ## C23 -/

/-- A piece of work for `compress_many`, with a count of how often the iterator has handed it out. -/
structure Task (a : Alg) where
  words : Vector (Word a) 8
  input : List Byte
  count : Count a
  lastNode : Bool
  visits : Nat

/-- An iterator that hands out every task as a job. -/
def taskSource (a : Alg) (ι : Type) : Source a ι (Task a) where
  pull := fun i t => .ok ({ t with visits := t.visits + 1 },
    some { id := i, input := t.input, count := t.count, lastNode := t.lastNode })
  getWords := fun t => t.words
  setWords := fun t w => { t with words := w }

/-- C23. On every platform and for any number of tasks of any lengths, `compress_many` returns — it does not run forever, and
does not overflow its fixed-capacity vector, which would be a panic — and every task has been handed out exactly once and
compressed to completion exactly once: its words are those of the portable code run once on the whole input. -/
theorem C23_every_task_exactly_once (imp : Platform) (fin : Bool) (stride : Stride) (tasks : List (Task a))
    (hin : ∀ t ∈ tasks, fin = true ∨ (t.input ≠ [] ∧ t.input.length % bb a = 0))
    (hct : ∀ t ∈ tasks, t.count.toNat % bb a = 0) :
    ∃ mem, Many.compressMany (taskSource a (Fin tasks.length)) imp fin stride (fun i => tasks[i])
        (List.finRange tasks.length) = .ok mem ∧
      ∀ i : Fin tasks.length, (mem i).visits = (tasks[i]).visits + 1 ∧
        compress1 a .Portable (tasks[i]).input (tasks[i]).words (tasks[i]).count (tasks[i]).lastNode fin stride =
          .ok (mem i).words := by
  rw [bb_eq] at hin hct
  refine ⟨fun i => { tasks[i] with
      visits := (tasks[i]).visits + 1
      words := absorb a stride fin (tasks[i]).lastNode (tasks[i]).words (tasks[i]).count (tasks[i]).input }, ?_, ?_⟩
  · apply compressMany_eq ⟨fun _ _ => rfl, fun _ _ _ => rfl⟩
    · exact List.nodup_finRange _
    · intro i _
      exact ⟨_, _, rfl, rfl, ⟨hin _ (List.getElem_mem _), hct _ (List.getElem_mem _)⟩, rfl⟩
    · intro i hi
      exact absurd (List.mem_finRange i) hi
  · intro i
    exact ⟨rfl, compress1_eq _ _ _ _ _ _ _ _ (hin _ (List.getElem_mem _))⟩

example : ∃ mem, Many.compressMany (taskSource .b (Fin 3)) .AVX2 true .Serial
    (fun i => [{ words := IV .b, input := [1, 2], count := 0, lastNode := false, visits := 0 },
      { words := IV .b, input := List.replicate 1000 3, count := 128, lastNode := true, visits := 0 },
      { words := IV .b, input := [], count := 0, lastNode := false, visits := 0 }][i]) (List.finRange 3) = .ok mem :=
  let ⟨mem, h, _⟩ := C23_every_task_exactly_once (a := .b) .AVX2 true .Serial
    [{ words := IV .b, input := [1, 2], count := 0, lastNode := false, visits := 0 },
      { words := IV .b, input := List.replicate 1000 3, count := 128, lastNode := true, visits := 0 },
      { words := IV .b, input := [], count := 0, lastNode := false, visits := 0 }] (fun _ _ => .inl rfl) (by decide)
  ⟨mem, h⟩

/-- C23. Every SIMD pass, wide or narrow, completes at least one of its jobs; a job it completes has the words of the portable
code run on that job; a job it does not complete is left with a shorter input that leads to the same words. -/
theorem C23_every_pass_completes_a_job (imp : Platform) (fin : Bool) (stride : Stride) :
    (∀ jobs : Vector (Job a) (hiDegree a), hiDegree a ≤ implDegree a imp →
      (∀ i : Fin (hiDegree a), (fin = true ∨ ((jobs[i]).input ≠ [] ∧ (jobs[i]).input.length % bb a = 0)) ∧
        (jobs[i]).count.toNat % bb a = 0) →
      ∃ jobs', compressHi a imp jobs fin stride = .ok jobs' ∧ (∃ i : Fin (hiDegree a), (jobs'[i]).input = []) ∧
        ∀ i : Fin (hiDegree a), ∃ w,
          compress1 a .Portable (jobs[i]).input (jobs[i]).words (jobs[i]).count (jobs[i]).lastNode fin stride = .ok w ∧
          if (jobs'[i]).input = [] then (jobs'[i]).words = w
          else (jobs'[i]).input.length < (jobs[i]).input.length ∧
            compress1 a .Portable (jobs'[i]).input (jobs'[i]).words (jobs'[i]).count (jobs'[i]).lastNode fin stride = .ok w) ∧
    (∀ jobs : Vector (Job a) (loDegree a), loDegree a ≤ implDegree a imp →
      (∀ i : Fin (loDegree a), (fin = true ∨ ((jobs[i]).input ≠ [] ∧ (jobs[i]).input.length % bb a = 0)) ∧
        (jobs[i]).count.toNat % bb a = 0) →
      ∃ jobs', compressLo a imp jobs fin stride = .ok jobs' ∧ (∃ i : Fin (loDegree a), (jobs'[i]).input = []) ∧
        ∀ i : Fin (loDegree a), ∃ w,
          compress1 a .Portable (jobs[i]).input (jobs[i]).words (jobs[i]).count (jobs[i]).lastNode fin stride = .ok w ∧
          if (jobs'[i]).input = [] then (jobs'[i]).words = w
          else (jobs'[i]).input.length < (jobs[i]).input.length ∧
            compress1 a .Portable (jobs'[i]).input (jobs'[i]).words (jobs'[i]).count (jobs'[i]).lastNode fin stride =
              .ok w) := by
  have main : ∀ {N : Nat} (f : Vector (Job a) N → Res (Vector (Job a) N)), Many.LoopOk stride fin N f →
      ∀ jobs : Vector (Job a) N,
      (∀ i : Fin N, (fin = true ∨ ((jobs[i]).input ≠ [] ∧ (jobs[i]).input.length % bb a = 0)) ∧
        (jobs[i]).count.toNat % bb a = 0) →
      ∃ jobs', f jobs = .ok jobs' ∧ (∃ i : Fin N, (jobs'[i]).input = []) ∧
        ∀ i : Fin N, ∃ w,
          compress1 a .Portable (jobs[i]).input (jobs[i]).words (jobs[i]).count (jobs[i]).lastNode fin stride = .ok w ∧
          if (jobs'[i]).input = [] then (jobs'[i]).words = w
          else (jobs'[i]).input.length < (jobs[i]).input.length ∧
            compress1 a .Portable (jobs'[i]).input (jobs'[i]).words (jobs'[i]).count (jobs'[i]).lastNode fin stride =
              .ok w := by
    intro N f hf jobs h
    rw [bb_eq] at h
    obtain ⟨jobs', e, hs, hi⟩ := hf jobs (fun i => ⟨(h i).1, (h i).2⟩)
    refine ⟨jobs', e, hi, fun i => ⟨_, compress1_eq _ _ _ _ _ _ _ _ (h i).1, ?_⟩⟩
    by_cases he : (jobs'[i]).input = []
    · rw [if_pos he]; exact (hs i).done he
    · rw [if_neg he]
      obtain ⟨h1, h2, h3⟩ := (hs i).more he
      exact ⟨h3, by rw [compress1_eq _ _ _ _ _ _ _ _ h2.input]; exact congrArg _ h1⟩
  exact ⟨fun jobs hd h => main _ (compressHi_ok a imp stride fin hd) jobs h,
    fun jobs hd h => main _ (compressLo_ok a imp stride fin hd) jobs h⟩

/-! ## C28 -/

/-- Lane by lane, `store_counts` after `add_to_counts` after `load_counts` adds to the `2w`-bit counters. -/
theorem counts_add {N : Nat} {R : Type} {o : VImpl a N R} (L : LaneLaws o) (jobs : Vector (Job a) N) (ds : Vector Nat N)
    (hd : ∀ i : Fin N, ds[i] ≤ bb a) (hc : ∀ i : Fin N, (jobs[i]).count.toNat % bb a = 0) (i : Fin N) :
    (NWay.storeCounts o
      (NWay.addToCounts o (NWay.loadCounts o jobs).1 (NWay.loadCounts o jobs).2 (o.setN (ds.map (BitVec.ofNat a.w)))).1
      (NWay.addToCounts o (NWay.loadCounts o jobs).1 (NWay.loadCounts o jobs).2 (o.setN (ds.map (BitVec.ofNat a.w)))).2)[i]
      = (jobs[i]).count + BitVec.ofNat (2 * a.w) ds[i] := by
  have hlo : o.ln i (NWay.loadCounts o jobs).1 = countLow a (jobs[i]).count := by
    simp [NWay.loadCounts, L.setN]
  have hhi : o.ln i (NWay.loadCounts o jobs).2 = countHigh a (jobs[i]).count := by
    simp [NWay.loadCounts, L.setN]
  have := addToCounts_lane L i (NWay.loadCounts o jobs).1 (NWay.loadCounts o jobs).2 (o.setN (ds.map (BitVec.ofNat a.w))) ds[i]
    (by simp [L.setN]) (by rw [← bb_eq]; exact hd i) (by rw [hlo, hhi, assemble_parts, ← bb_eq]; exact hc i)
  rw [hlo, hhi, assemble_parts] at this
  rw [← this]
  simp [NWay.storeCounts, VImpl.ln]

/-- C28. In each of the four SIMD files: with counters that are multiples of the block length (all counters are, before the
last block) and increments of at most a block, every lane's counter advances exactly as a `2w`-bit counter, carry and
wrap-around included. -/
theorem C28_simd_counters :
    (∀ (jobs : Vector (Job .b) 4) (ds : Vector Nat 4), (∀ i : Fin 4, ds[i] ≤ 128 ∧ (jobs[i]).count.toNat % 128 = 0) →
      let r := NWay.addToCounts BAvx2.impl (NWay.loadCounts BAvx2.impl jobs).1 (NWay.loadCounts BAvx2.impl jobs).2
        (BAvx2.impl.setN (ds.map (BitVec.ofNat 64)))
      ∀ i : Fin 4, (NWay.storeCounts BAvx2.impl r.1 r.2)[i] = (jobs[i]).count + BitVec.ofNat 128 ds[i]) ∧
    (∀ (jobs : Vector (Job .b) 2) (ds : Vector Nat 2), (∀ i : Fin 2, ds[i] ≤ 128 ∧ (jobs[i]).count.toNat % 128 = 0) →
      let r := NWay.addToCounts BSse41.impl (NWay.loadCounts BSse41.impl jobs).1 (NWay.loadCounts BSse41.impl jobs).2
        (BSse41.impl.setN (ds.map (BitVec.ofNat 64)))
      ∀ i : Fin 2, (NWay.storeCounts BSse41.impl r.1 r.2)[i] = (jobs[i]).count + BitVec.ofNat 128 ds[i]) ∧
    (∀ (jobs : Vector (Job .s) 8) (ds : Vector Nat 8), (∀ i : Fin 8, ds[i] ≤ 64 ∧ (jobs[i]).count.toNat % 64 = 0) →
      let r := NWay.addToCounts SAvx2.impl (NWay.loadCounts SAvx2.impl jobs).1 (NWay.loadCounts SAvx2.impl jobs).2
        (SAvx2.impl.setN (ds.map (BitVec.ofNat 32)))
      ∀ i : Fin 8, (NWay.storeCounts SAvx2.impl r.1 r.2)[i] = (jobs[i]).count + BitVec.ofNat 64 ds[i]) ∧
    (∀ (jobs : Vector (Job .s) 4) (ds : Vector Nat 4), (∀ i : Fin 4, ds[i] ≤ 64 ∧ (jobs[i]).count.toNat % 64 = 0) →
      let r := NWay.addToCounts SSse41.impl (NWay.loadCounts SSse41.impl jobs).1 (NWay.loadCounts SSse41.impl jobs).2
        (SSse41.impl.setN (ds.map (BitVec.ofNat 32)))
      ∀ i : Fin 4, (NWay.storeCounts SSse41.impl r.1 r.2)[i] = (jobs[i]).count + BitVec.ofNat 64 ds[i]) :=
  ⟨fun jobs ds h i => counts_add BAvx2.laws jobs ds (fun i => (h i).1) (fun i => (h i).2) i,
   fun jobs ds h i => counts_add BSse41.laws jobs ds (fun i => (h i).1) (fun i => (h i).2) i,
   fun jobs ds h i => counts_add SAvx2.laws jobs ds (fun i => (h i).1) (fun i => (h i).2) i,
   fun jobs ds h i => counts_add SSse41.laws jobs ds (fun i => (h i).1) (fun i => (h i).2) i⟩

/-- A carry in one lane, a complete wrap-around in another. -/
example : ∀ i : Fin 2,
    let jobs : Vector (Job .b) 2 := #v[{ input := [], words := IV .b, count := BitVec.ofNat 128 (2 ^ 64 - 128), lastNode := false },
      { input := [], words := IV .b, count := BitVec.ofNat 128 (2 ^ 128 - 128), lastNode := false }]
    (#v[128, 128] : Vector Nat 2)[i] ≤ 128 ∧ (jobs[i]).count.toNat % 128 = 0 := by decide

/-- The reservation in C28 is needed: for a counter that is not a multiple of the block length the vectorised carry is
wrong. No history reaches such a counter before the last block. -/
theorem C28_alignment_needed : ∃ (jobs : Vector (Job .b) 2) (ds : Vector Nat 2), (∀ i : Fin 2, ds[i] ≤ 128) ∧
    let r := NWay.addToCounts BSse41.impl (NWay.loadCounts BSse41.impl jobs).1 (NWay.loadCounts BSse41.impl jobs).2
        (BSse41.impl.setN (ds.map (BitVec.ofNat 64)))
    (NWay.storeCounts BSse41.impl r.1 r.2)[0] ≠ (jobs[0]).count + BitVec.ofNat 128 ds[0] := by
  refine ⟨#v[{ input := [], words := IV .b, count := BitVec.ofNat 128 (2 ^ 64 - 1), lastNode := false },
      { input := [], words := IV .b, count := 0, lastNode := false }], #v[128, 128], by decide, ?_⟩
  decide +kernel

/-! ## C37 -/

/-- Lane `i` of a transposed compression is the portable compression of lane `i`'s arguments. -/
theorem lane_local {N : Nat} {R : Type} {o : VImpl a N R} (L : LaneLaws o) (T : TransposeLaws o)
    (ws : Vector (Vector (Word a) 8) N) (blocks : Vector (List Byte) N) (lo hi f n : Vector (Word a) N) (i : Fin N) :
    (o.untransposeState (NWay.compressTransposed o (o.transposeState ws) (o.transposeMsg blocks) (o.setN lo) (o.setN hi)
      (o.setN f) (o.setN n)))[i] =
    Portable.compressBlock a blocks[i] ws[i] (assembleCount a lo[i] hi[i]) f[i] n[i] := by
  rw [T.unstate, compressTransposed_lane L, T.state, T.msg, L.setN, L.setN, L.setN, L.setN, portable_compressWords,
    countLow_assemble, countHigh_assemble]

/-- C37. In each of the four SIMD files: whatever the other lanes hold, lane `i` of one N-way compression (transpose in,
compress, transpose out) is the portable compression function applied to lane `i`'s own state, block, counter words and flags;
in particular nothing of another lane's data reaches it. -/
theorem C37_lanes :
    (∀ (ws : Vector (Vector (BitVec 64) 8) 4) (blocks : Vector (List Byte) 4) (lo hi f n : Vector (BitVec 64) 4) (i : Fin 4),
      (BAvx2.impl.untransposeState (NWay.compressTransposed BAvx2.impl (BAvx2.impl.transposeState ws)
        (BAvx2.impl.transposeMsg blocks) (BAvx2.impl.setN lo) (BAvx2.impl.setN hi) (BAvx2.impl.setN f)
        (BAvx2.impl.setN n)))[i] =
      Portable.compressBlock .b blocks[i] ws[i] (assembleCount .b lo[i] hi[i]) f[i] n[i]) ∧
    (∀ (ws : Vector (Vector (BitVec 64) 8) 2) (blocks : Vector (List Byte) 2) (lo hi f n : Vector (BitVec 64) 2) (i : Fin 2),
      (BSse41.impl.untransposeState (NWay.compressTransposed BSse41.impl (BSse41.impl.transposeState ws)
        (BSse41.impl.transposeMsg blocks) (BSse41.impl.setN lo) (BSse41.impl.setN hi) (BSse41.impl.setN f)
        (BSse41.impl.setN n)))[i] =
      Portable.compressBlock .b blocks[i] ws[i] (assembleCount .b lo[i] hi[i]) f[i] n[i]) ∧
    (∀ (ws : Vector (Vector (BitVec 32) 8) 8) (blocks : Vector (List Byte) 8) (lo hi f n : Vector (BitVec 32) 8) (i : Fin 8),
      (SAvx2.impl.untransposeState (NWay.compressTransposed SAvx2.impl (SAvx2.impl.transposeState ws)
        (SAvx2.impl.transposeMsg blocks) (SAvx2.impl.setN lo) (SAvx2.impl.setN hi) (SAvx2.impl.setN f)
        (SAvx2.impl.setN n)))[i] =
      Portable.compressBlock .s blocks[i] ws[i] (assembleCount .s lo[i] hi[i]) f[i] n[i]) ∧
    (∀ (ws : Vector (Vector (BitVec 32) 8) 4) (blocks : Vector (List Byte) 4) (lo hi f n : Vector (BitVec 32) 4) (i : Fin 4),
      (SSse41.impl.untransposeState (NWay.compressTransposed SSse41.impl (SSse41.impl.transposeState ws)
        (SSse41.impl.transposeMsg blocks) (SSse41.impl.setN lo) (SSse41.impl.setN hi) (SSse41.impl.setN f)
        (SSse41.impl.setN n)))[i] =
      Portable.compressBlock .s blocks[i] ws[i] (assembleCount .s lo[i] hi[i]) f[i] n[i]) :=
  ⟨lane_local BAvx2.laws BAvx2.tlaws, lane_local BSse41.laws BSse41.tlaws, lane_local SAvx2.laws SAvx2.tlaws,
   lane_local SSse41.laws SSse41.tlaws⟩

/-- C37 for whole batches: two batches of any sizes and any contents that have the same state and input somewhere leave that
state the same. -/
theorem C37_batches (xs ys : List (State a × List Byte)) (hx : ∀ q ∈ xs, Reachable q.1) (hy : ∀ q ∈ ys, Reachable q.1)
    (i j : Nat) (h : xs[i]? = ys[j]?) :
    ∃ out out', updateMany xs = .ok out ∧ updateMany ys = .ok out' ∧ out[i]? = out'[j]? := by
  refine ⟨_, _, updateMany_eq xs (fun q hq => (hx q hq).sane), updateMany_eq ys (fun q hq => (hy q hq).sane), ?_⟩
  rw [List.getElem?_map, List.getElem?_map, h]

/-- C37 for `hash_many`. -/
theorem C37_hash_many (xs ys : List (HashManyJob a)) (hx : ∀ j ∈ xs, JobReachable j) (hy : ∀ j ∈ ys, JobReachable j)
    (i j : Nat) (h : xs[i]? = ys[j]?) :
    ∃ out out', hashMany xs = .ok out ∧ hashMany ys = .ok out' ∧ out[i]? = out'[j]? := by
  refine ⟨_, _, hashMany_eq xs (fun q hq => (hx q hq).count_ok), hashMany_eq ys (fun q hq => (hy q hq).count_ok), ?_⟩
  rw [List.getElem?_map, List.getElem?_map, h]

/-- The same job first of two and last of two. -/
example : ∃ (j k : HashManyJob .b) (out out' : List (HashManyJob .b)), hashMany [j, k] = .ok out ∧ hashMany [k, j] = .ok out' ∧
    out[0]? = out'[1]? := by
  obtain ⟨j, hj, _, _, _, _⟩ := hashManyJob_new (rep_new .b .AVX2) [3, 4, 5]
  obtain ⟨k, hk, _⟩ := hashManyJob_new (rep_new .b .SSE41) (List.replicate 1000 7)
  have rj : JobReachable j := .new _ _ _ ⟨_, [], rfl⟩ hj
  have rk : JobReachable k := .new _ _ _ ⟨_, [], rfl⟩ hk
  obtain ⟨out, out', h1, h2, h3⟩ := C37_hash_many [j, k] [k, j] (by simpa using ⟨rj, rk⟩) (by simpa using ⟨rk, rj⟩) 0 1 rfl
  exact ⟨j, k, out, out', h1, h2, h3⟩

example : ([((Params.new .b .AVX2).toState, [1, 2]), ((Params.new .b .Portable).toState, [])] :
      List (State .b × List Byte))[0]? =
    ([((Params.new .b .SSE41).toState, []), ((Params.new .b .AVX2).toState, [1, 2])] :
      List (State .b × List Byte))[1]? := by simp only [List.getElem?_cons_zero, List.getElem?_cons_succ]

end Blake2
